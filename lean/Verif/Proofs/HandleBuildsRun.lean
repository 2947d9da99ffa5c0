import Verif.Model.HandleBuilds
import Verif.Proofs.BuildsHost
import Verif.Proofs.BuildsMain
import Verif.Proofs.HandleOps
/-! Sequences of calls on a handle variable over an implementation of the contexts that obeys a law. -/

namespace Model.Builds

open Model
open Spec (Kind ApiCall Reply hex)

variable {M : Type} {C : Contexts M} {T : Tool} {Good : Prop} {limit : Nat} {Rel : (Kind → Option Nat) → M → Msgs → Prop}

/-- The handle has a buffer size that is not too large. -/
def SizeOk (C : Contexts M) (slot : Option Handle) : Prop := ∀ h, slot = some h → h.bufferSize ≤ C.sizeMax

theorem handleStep_ok (hT : T.Ok) (hC : Law C T Good limit Rel) (op : HandleOp) (hv : op.Valid) (hpr : op = .print → ∀ j, 0 ∈ T.stringJunk j) (blk : List Nat) (slot : Option Handle) (W : WorldOf M) (hI : VarInv T Rel blk slot W) (hz : SizeOk C slot) :
    ∃ r slot' W' extra, handleStep T C op slot W = .ok (r, slot', W') ∧ VarInv T Rel (extra ++ blk) slot' W' ∧ SizeOk C slot' ∧ extra.length ≤ 1 ∧
      (extra ≠ [] → op = .init ∧ r = -1 ∧ ∃ n, T.alloc n = false) ∧ ((∃ c, op = .free c) → slot' = none) := by
  by_cases hinit : op = .init
  · subst hinit
    cases slot with
    | some h => exact ⟨-1, some h, W, [], rfl, hI, hz, by simp, by simp, by simp⟩
    | none =>
      rcases sumInitialize_ok hT hC blk W hI with ⟨h, W', e, h1, -, -, h2, -⟩ | ⟨W', extra, e, h1, h2, n, hn⟩
      · refine ⟨1, some h, W', [], e, h1, fun h' hh => ?_, by simp, by simp, by simp⟩
        cases hh
        rw [h2]; exact sizeMax_ge hC.width.1
      · exact ⟨-1, none, W', extra, e, h1, fun _ hh => (by cases hh), h2, fun _ => ⟨rfl, rfl, n, hn⟩, by simp⟩
  by_cases hfree : ∃ c, op = .free c
  · obtain ⟨c, rfl⟩ := hfree
    obtain ⟨W', e, h1⟩ := sumFree_ok hC c blk slot W hI
    exact ⟨_, none, W', [], e, h1, fun _ hh => (by cases hh), by simp, by simp, fun _ => rfl⟩
  cases slot with
  | none =>
    refine ⟨-1, none, W, [], ?_, hI, hz, by simp, by simp, fun _ => rfl⟩
    cases op <;> first | rfl | exact absurd rfl hinit | exact absurd ⟨_, rfl⟩ hfree
  | some h =>
    have hz := hz h rfl
    have fin : ∀ (r : Int) (h' : Handle) (W' : WorldOf M), handleStep T C op (some h) W = .ok (r, some h', W') → HandleInv T Rel blk h' W' → h'.bufferSize ≤ C.sizeMax →
        ∃ r slot' W' extra, handleStep T C op (some h) W = .ok (r, slot', W') ∧ VarInv T Rel (extra ++ blk) slot' W' ∧ SizeOk C slot' ∧ extra.length ≤ 1 ∧
          (extra ≠ [] → op = .init ∧ r = -1 ∧ ∃ n, T.alloc n = false) ∧ ((∃ c, op = .free c) → slot' = none) := fun r h' W' e h1 h2 =>
      ⟨r, some h', W', [], e, h1, fun g hg => by cases hg; exact h2, by simp, by simp, fun hf => absurd hf hfree⟩
    cases op with
    | init => exact absurd rfl hinit
    | free c => exact absurd ⟨_, rfl⟩ hfree
    | abort => exact fin 1 _ W rfl hI hz
    | «open» ok =>
      refine fin _ _ W rfl ?_ ?_
      · cases ok <;> exact hI
      · cases ok <;> exact hz
    | close ok => exact fin _ h W rfl hI hz
    | process inp aborted =>
      obtain ⟨r, ctx', str', ab', pos', rc', W', e, h1, -⟩ := processInput_ok hT hC inp aborted blk h W hI
      exact fin r _ W' (by simp [handleStep, e]) h1 hz
    | digests mc s1 s2 string =>
      obtain ⟨r, calc', str', W', e, h1, -⟩ := setDigestTypes_ok hT hC mc s1 s2 string blk h W hI
      exact fin r _ W' (by simp [handleStep, e]) h1 hz
    | bufferSize verbose dp string =>
      obtain ⟨r, n, e, h1⟩ := setBufferSize_ok C verbose dp hv string h
      refine fin r { h with bufferSize := n } W (by simp [handleStep, e]) hI ?_
      rcases h1 with ⟨-, h1⟩ | ⟨-, h1⟩
      · exact h1
      · simp only [h1]
        exact hz
    | print =>
      have e := printHashes_ok h (hI.2.1.terminated (hpr rfl)) digestOrder
      exact fin 1 h W (by simp [handleStep, e]) hI hz

theorem handleStep_inv (hT : T.Ok) (hC : Law C T Good limit Rel) (op : HandleOp) (hv : op.Valid) (blk : List Nat) (slot : Option Handle) (W : WorldOf M) (hI : VarInv T Rel blk slot W) (hz : SizeOk C slot)
    (r : Int) (slot' : Option Handle) (W' : WorldOf M) (e : handleStep T C op slot W = .ok (r, slot', W')) :
    ∃ extra, VarInv T Rel (extra ++ blk) slot' W' ∧ SizeOk C slot' ∧ extra.length ≤ 1 ∧ (extra ≠ [] → op = .init ∧ r = -1 ∧ ∃ n, T.alloc n = false) := by
  by_cases hp : op = .print
  · subst hp
    cases slot with
    | none => cases e; exact ⟨[], hI, hz, by simp, by simp⟩
    | some h =>
      simp only [handleStep] at e
      cases hx : printHashes digestOrder h with
      | ok out => rw [hx] at e; cases e; exact ⟨[], hI, hz, by simp, by simp⟩
      | ub => rw [hx] at e; cases e
      | diverge => rw [hx] at e; cases e
  · obtain ⟨r1, slot1, W1, x1, e1, h1, hz1, hx1, hc1, -⟩ := handleStep_ok hT hC op hv (fun h => absurd h hp) blk slot W hI hz
    rw [e] at e1
    cases e1
    exact ⟨x1, h1, hz1, hx1, hc1⟩

/-- What every sequence of calls preserves. -/
theorem handleRun_inv (hT : T.Ok) (hC : Law C T Good limit Rel) : ∀ (ops : List HandleOp) (blk : List Nat) (slot : Option Handle) (W : WorldOf M), (∀ op ∈ ops, op.Valid) → VarInv T Rel blk slot W → SizeOk C slot →
    ∀ rs slot' W', handleRun T C ops slot W = .ok (rs, slot', W') →
    ∃ extra, VarInv T Rel (extra ++ blk) slot' W' ∧ SizeOk C slot' ∧ rs.length = ops.length ∧ extra.length ≤ failedInits ops rs ∧ (extra ≠ [] → ∃ n, T.alloc n = false)
  | [], blk, slot, W, _, hI, hz, rs, slot', W', e => by cases e; exact ⟨[], hI, hz, rfl, by simp, by simp⟩
  | op :: ops, blk, slot, W, hv, hI, hz, rs, slot', W', e => by
    rw [handleRun] at e
    cases e1 : handleStep T C op slot W with
    | ok x =>
      obtain ⟨r, slot1, W1⟩ := x
      rw [e1] at e
      simp only [Res.ok_bind] at e
      cases e2 : handleRun T C ops slot1 W1 with
      | ok y =>
        obtain ⟨rs2, slot2, W2⟩ := y
        rw [e2] at e
        cases e
        obtain ⟨x1, h1, hz1, hx1, hc1⟩ := handleStep_inv hT hC op (hv op (by simp)) blk slot W hI hz r slot1 W1 e1
        obtain ⟨x2, h2, hz2, hl2, hx2, hc2⟩ := handleRun_inv hT hC ops (x1 ++ blk) slot1 W1 (fun o ho => hv o (by simp [ho])) h1 hz1 rs2 slot2 W2 e2
        refine ⟨x2 ++ x1, by rw [List.append_assoc]; exact h2, hz2, by simp [hl2], ?_, fun hne => ?_⟩
        · unfold failedInits at hx2 ⊢
          rw [List.zip_cons_cons, List.countP_cons, List.length_append]
          by_cases hx : x1 = []
          · subst hx
            simp only [List.length_nil]
            omega
          · obtain ⟨rfl, rfl, -⟩ := hc1 hx
            simp
            omega
        · by_cases hx : x1 = []
          · subst hx
            exact hc2 (by simpa using hne)
          · exact (hc1 hx).2.2
      | ub => rw [e2] at e; cases e
      | diverge => rw [e2] at e; cases e
    | ub => rw [e1] at e; cases e
    | diverge => rw [e1] at e; cases e

/-- Sequences do not fail if prints are only made with terminated strings. -/
theorem handleRun_total (hT : T.Ok) (hC : Law C T Good limit Rel) : ∀ (ops : List HandleOp) (blk : List Nat) (slot : Option Handle) (W : WorldOf M), (∀ op ∈ ops, op.Valid ∧ (op = .print → ∀ j, 0 ∈ T.stringJunk j)) →
    VarInv T Rel blk slot W → SizeOk C slot → ∃ x, handleRun T C ops slot W = .ok x
  | [], blk, slot, W, _, hI, hz => ⟨_, rfl⟩
  | op :: ops, blk, slot, W, hv, hI, hz => by
    obtain ⟨r, slot1, W1, x1, e1, h1, hz1, -⟩ := handleStep_ok hT hC op (hv op (by simp)).1 (hv op (by simp)).2 blk slot W hI hz
    obtain ⟨⟨rs, slot2, W2⟩, e2⟩ := handleRun_total hT hC ops (x1 ++ blk) slot1 W1 (fun o ho => hv o (by simp [ho])) h1 hz1
    exact ⟨(r :: rs, slot2, W2), by simp [handleRun, e1, e2]⟩

theorem handleRun_append : ∀ (a c : List HandleOp) (slot : Option Handle) (W : WorldOf M), handleRun T C (a ++ c) slot W = (do
    let (rs, slot, W) ← handleRun T C a slot W
    let (rs', slot, W) ← handleRun T C c slot W
    pure (rs ++ rs', slot, W))
  | [], c, slot, W => by
    simp only [List.nil_append, handleRun, Res.ok_bind]
    cases handleRun T C c slot W <;> rfl
  | op :: a, c, slot, W => by
    simp only [List.cons_append, handleRun]
    cases handleStep T C op slot W with
    | ok x =>
      simp only [Res.ok_bind]
      rw [handleRun_append a c]
      cases handleRun T C a x.2.1 x.2.2 with
      | ok y =>
        simp only [Res.ok_bind, Res.pure_eq]
        cases handleRun T C c y.2.1 y.2.2 <;> rfl
      | ub => rfl
      | diverge => rfl
    | ub => rfl
    | diverge => rfl

end Model.Builds
