import Verif.Proofs.BackendSim
import Verif.Proofs.BackendOneShot
import Verif.Model.Builds
/-! One call on one of many contexts of a build with a crypto library. -/

namespace Model

open Spec (ApiCall Reply Kind maxSize accepted)

/-- The reply to a call, and the variable after it. `limit`: the largest update; `Good`: calls of the library do not fail; `al`: the outcome of the next allocation; `acc`: the message of the context, if known. -/
def StepFacts (k : Kind) (limit : Nat) (Good : Prop) (al : Bool) (acc : Option (List Byte)) (c : ApiCall) (slot : Option Nat) (r : Reply) (slot' : Option Nat) : Prop :=
  match c, slot with
  | .init, none => r.out = none ∧ (r.code = 1 ∧ al = true ∧ slot' ≠ none ∨ r.code = -1 ∧ slot' = none ∧ (al = false ∨ ¬ Good))
  | .init, some p => r = ⟨-1, none⟩ ∧ slot' = some p
  | .initNull, _ => r = ⟨-1, none⟩ ∧ slot' = slot
  | .free, _ => r = ⟨1, none⟩ ∧ slot' = none
  | .freeNull, _ => r = ⟨-1, none⟩ ∧ slot' = slot
  | .update _ _, none => r = ⟨-1, none⟩ ∧ slot' = none
  | .update buf size, some p => slot' = some p ∧ r.out = none ∧ (r.code = 1 ∧ buf ≠ none ∧ size ≤ maxSize ∨ r.code = -1) ∧ (buf ≠ none → size ≤ limit → Good → r.code = 1)
  | .finalize out _, none => r = ⟨-1, out⟩ ∧ slot' = none
  | .finalize none _, some p => r = ⟨-1, none⟩ ∧ slot' = some p
  | .finalize (some o) size, some p => slot' = some p ∧ (r.code = 1 ∧ k.hashSize ≤ size ∧ size ≤ maxSize ∨ r.code = -1) ∧ (Good → k.hashSize ≤ size → size < 2 ^ 32 → r.code = 1) ∧
      (r.out = some o ∧ r.code = -1 ∨ k.hashSize ≤ size ∧ ∃ d, d.length = k.hashSize ∧ r.out = some (d ++ o.drop k.hashSize) ∧ (r.code = 1 → ∀ m, acc = some m → m.length < 2 ^ 61 → d = k.std.digest m))

/-- The number of allocations that a call attempts. -/
def attemptsOf (c : ApiCall) (slot : Option Nat) : Nat :=
  match c, slot with
  | .init, none => 1
  | _, _ => 0

theorem bStep_head {k : Kind} {L : Library} {Rep : L.State → List Byte → Prop} (hL : Contract L k Rep) (hT : Tame L k.hashSize) (B : Backend) (al : Nat → Bool) (base : List (Nat × BObj L.State)) (c : ApiCall)
    (hv : c.Valid) (acc : Option (List Byte)) (slot : Option Nat) (s : BSt L.State) (h : SlotInv B base (Accepted Rep acc) slot s) :
    ∃ r slot' s', bStep B L k.hashSize al c slot s = .ok (r, slot', s') ∧ SlotInv B base (Accepted Rep (acceptedNext c r acc)) slot' s' ∧ s'.count = s.count + attemptsOf c slot ∧
      StepFacts k B.maxUpdate (Reliable L) (al s.count) acc c slot r slot' := by
  obtain ⟨r0, slot0, s0, e0, hI, hdig⟩ := bStep_accepted hL B al base c hv acc slot s h
  refine ⟨r0, slot0, s0, e0, hI, ?_⟩
  have hmu := maxUpdate_le B
  have hmo := maxOutput_le B
  rw [← ssize_eq] at hmu hmo
  cases slot with
  | none =>
    cases c with
    | init =>
      obtain ⟨r, slot, s', e, hc, hr⟩ := bInitialize_ok B L al s
      simp only [bStep, e, Res.ok_bind, Res.pure_eq, Res.ok.injEq, Prod.mk.injEq] at e0
      obtain ⟨rfl, rfl, rfl⟩ := e0
      refine ⟨hc, rfl, ?_⟩
      rcases hr with ⟨rfl, ha, p, st, n, rfl, -⟩ | ⟨rfl, rfl, -, ha⟩
      · exact .inl ⟨rfl, ha, by simp⟩
      · exact .inr ⟨rfl, rfl, ha⟩
    | initNull =>
      simp only [bStep, Res.ok.injEq, Prod.mk.injEq] at e0
      obtain ⟨rfl, rfl, rfl⟩ := e0
      exact ⟨rfl, rfl, rfl⟩
    | free =>
      simp only [bStep, bFree, Res.ok_bind, Res.pure_eq, Res.ok.injEq, Prod.mk.injEq] at e0
      obtain ⟨rfl, rfl, rfl⟩ := e0
      exact ⟨rfl, rfl, rfl⟩
    | freeNull =>
      simp only [bStep, Res.ok.injEq, Prod.mk.injEq] at e0
      obtain ⟨rfl, rfl, rfl⟩ := e0
      exact ⟨rfl, rfl, rfl⟩
    | update buf size =>
      simp only [bStep, bUpdate, Res.ok_bind, Res.pure_eq, Res.ok.injEq, Prod.mk.injEq] at e0
      obtain ⟨rfl, rfl, rfl⟩ := e0
      exact ⟨rfl, rfl, rfl⟩
    | finalize out size =>
      simp only [bStep, bFinalize, Res.ok_bind, Res.pure_eq, Res.ok.injEq, Prod.mk.injEq] at e0
      obtain ⟨rfl, rfl, rfl⟩ := e0
      exact ⟨rfl, rfl, rfl⟩
  | some p =>
    obtain ⟨st, h, hA⟩ := h
    cases c with
    | init =>
      simp only [bStep, bInitialize, Res.ok_bind, Res.pure_eq, Res.ok.injEq, Prod.mk.injEq] at e0
      obtain ⟨rfl, rfl, rfl⟩ := e0
      exact ⟨rfl, rfl, rfl⟩
    | initNull =>
      simp only [bStep, Res.ok.injEq, Prod.mk.injEq] at e0
      obtain ⟨rfl, rfl, rfl⟩ := e0
      exact ⟨rfl, rfl, rfl⟩
    | free =>
      obtain ⟨s', e, hc, hl⟩ := bFree_ok h
      simp only [bStep, e, Res.ok_bind, Res.pure_eq, Res.ok.injEq, Prod.mk.injEq] at e0
      obtain ⟨rfl, rfl, rfl⟩ := e0
      exact ⟨hc, rfl, rfl⟩
    | freeNull =>
      simp only [bStep, Res.ok.injEq, Prod.mk.injEq] at e0
      obtain ⟨rfl, rfl, rfl⟩ := e0
      exact ⟨rfl, rfl, rfl⟩
    | update buf size =>
      obtain ⟨r, s', st', e, hc, hH, hcase⟩ := bUpdate_ok h buf size hv
      simp only [bStep, e, Res.ok_bind, Res.pure_eq, Res.ok.injEq, Prod.mk.injEq] at e0
      obtain ⟨rfl, rfl, rfl⟩ := e0
      refine ⟨hc, rfl, rfl, ?_, ?_⟩
      · rcases hcase with ⟨rfl, -, -⟩ | ⟨b, rfl, rfl, rfl, -⟩ | ⟨b, n, rfl, h1, h2, rfl, -⟩
        · exact .inr rfl
        · exact .inl ⟨rfl, by simp, by simp [maxSize]⟩
        · by_cases hok : (L.update n st (b.take size)).1 = true
          · exact .inl ⟨by simp [hok], by simp, Nat.le_trans h2 hmu⟩
          · exact .inr (by simp [hok])
      · intro hb hs hr
        rcases hcase with ⟨rfl, -, hx | hx⟩ | ⟨b, rfl, rfl, rfl, -⟩ | ⟨b, n, rfl, h1, h2, rfl, -⟩
        · exact absurd hx hb
        · omega
        · rfl
        · simp [hr.update]
    | finalize out size =>
      obtain ⟨r, out', s', st', e, hc, hH, hcase⟩ := bFinalize_ok h k.hashSize out size
      simp only [bStep, e, Res.ok_bind, Res.pure_eq, Res.ok.injEq, Prod.mk.injEq] at e0
      obtain ⟨rfl, rfl, rfl⟩ := e0
      refine ⟨hc, ?_⟩
      cases out with
      | none =>
        rcases hcase with ⟨rfl, -, rfl, -⟩ | ⟨o, n, ho, -⟩
        · exact ⟨rfl, rfl⟩
        · cases ho
      | some o =>
        rcases hcase with ⟨rfl, -, rfl, hb⟩ | ⟨o', n, ⟨⟩, h1, h2, rfl, rfl⟩
        · refine ⟨rfl, .inr rfl, fun _ h1 h2 => ?_, .inl ⟨rfl, rfl⟩⟩
          rcases hb with hb | hb | hb
          · cases hb
          · have : 2 ^ 32 - 1 ≤ B.maxOutput := by cases B <;> simp only [Backend.maxOutput] <;> decide
            omega
          · omega
        · have hlen : k.hashSize ≤ o.length := Nat.le_trans h1 (hv (Nat.le_trans h2 hmo))
          obtain ⟨d, hd, ho⟩ := hT n st o hlen
          refine ⟨rfl, ?_, fun hr _ _ => by simp [hr.final], .inr ⟨h1, d, hd, congrArg some ho, fun hr m hm hlt => ?_⟩⟩
          · by_cases hok : (L.final n st o).1 = true
            · exact .inl ⟨by simp [hok], h1, Nat.le_trans h2 hmo⟩
            · exact .inr (by simp [hok])
          · have := hdig o size rfl hr m hm hlt
            rw [show (⟨if (L.final n st o).1 then 1 else -1, some (L.final n st o).2.2⟩ : Reply).out = some (d ++ o.drop k.hashSize) from congrArg some ho] at this
            exact List.append_cancel_right (Option.some.inj this)

/-- Every result has a property. -/
def ResAll {α : Type} (P : α → Prop) (x : Res α) : Prop := ∀ a, x = .ok a → P a

theorem ResAll.bind {α β : Type} {P : α → Prop} {Q : β → Prop} {x : Res α} {f : α → Res β} (h : ResAll P x) (hf : ∀ a, P a → ResAll Q (f a)) : ResAll Q (x >>= f) := by
  intro b e
  cases x with
  | ok a => exact hf a (h a rfl) b e
  | ub => cases e
  | diverge => cases e

theorem ResAll.ok {α : Type} {P : α → Prop} {a : α} (h : P a) : ResAll P (.ok a) := fun _ e => by cases e; exact h

theorem ResAll.ub {α : Type} {P : α → Prop} : ResAll P .ub := fun _ e => by cases e

theorem ResAll.any {α : Type} {x : Res α} : ResAll (fun _ => True) x := fun _ _ => trivial

theorem bErase_calls {σ : Type} {n : Nat} (p : Nat) {s : BSt σ} (h : n ≤ s.calls) : ResAll (fun x => n ≤ x.calls) (bErase p s) := by
  unfold bErase
  cases getKey p s.live with
  | none => exact .ub
  | some _ => exact .ok h

theorem bInitError_calls {σ : Type} {n : Nat} (p : Nat) {s : BSt σ} (h : n ≤ s.calls) : ResAll (fun x => n ≤ x.2.2.calls) (bInitError p s) :=
  (bErase_calls p h).bind fun _ h' => .ok h'

theorem bDigestInit_calls {L : Library} {n : Nat} (p : Nat) (evp : EvpPtr) {s : BSt L.State} (h : n ≤ s.calls) : ResAll (fun x => n ≤ x.2.2.calls) (bDigestInit L p evp s) := by
  unfold bDigestInit
  cases L.init s.calls with
  | some st =>
    cases evp with
    | null => exact .ub
    | embedded => exact .ok (Nat.le_succ_of_le h)
    | heap q => exact .ok (Nat.le_succ_of_le h)
  | none =>
    cases evp with
    | null => exact .ub
    | embedded => exact bInitError_calls p (Nat.le_succ_of_le (Nat.le_succ_of_le h))
    | heap q => exact (bErase_calls q (Nat.le_succ_of_le h)).bind fun _ h' => bInitError_calls p h'

theorem bStep_calls (B : Backend) (L : Library) (hashSize : Nat) (al : Nat → Bool) (c : ApiCall) (slot : Option Nat) (s : BSt L.State) : ResAll (fun x => s.calls ≤ x.2.2.calls) (bStep B L hashSize al c slot s) := by
  cases c with
  | init =>
    refine ResAll.bind (P := fun x => s.calls ≤ x.2.2.calls) ?_ fun _ h => .ok h
    cases slot with
    | some p => exact .ok (Nat.le_refl _)
    | none =>
      simp only [bInitialize]
      split
      · cases B with
        | direct b =>
          dsimp only
          cases L.init s.calls with
          | some st => exact .ok (Nat.le_succ _)
          | none => exact bInitError_calls _ (Nat.le_succ _)
        | evpEmbedded => exact bDigestInit_calls _ _ (Nat.le_refl _)
        | evpAllocated =>
          dsimp only
          split
          · exact bDigestInit_calls _ _ (Nat.le_succ _)
          · exact bInitError_calls _ (Nat.le_succ _)
      · exact .ok (Nat.le_refl _)
  | initNull => exact .ok (Nat.le_refl _)
  | free =>
    refine ResAll.bind (P := fun x => s.calls ≤ x.2.2.calls) ?_ fun _ h => .ok h
    cases slot with
    | none => exact .ok (Nat.le_refl _)
    | some p =>
      simp only [bFree]
      split
      · exact (bErase_calls _ (Nat.le_refl _)).bind fun _ h => .ok h
      · exact (bErase_calls _ (Nat.le_succ _)).bind fun _ h => .ok h
      · exact (bErase_calls _ (Nat.le_succ _)).bind fun _ h => (bErase_calls _ h).bind fun _ h => .ok h
      · exact (bErase_calls _ (Nat.le_succ _)).bind fun _ h => .ok h
      · exact .ub
  | freeNull => exact .ok (Nat.le_refl _)
  | update buf size =>
    refine ResAll.bind (P := fun x => s.calls ≤ x.2.calls) ?_ fun _ h => .ok h
    unfold bUpdate
    split
    · exact .ok (Nat.le_refl _)
    · exact .ok (Nat.le_refl _)
    · split
      · exact .ok (Nat.le_refl _)
      · split
        · exact .ok (Nat.le_refl _)
        · refine ResAll.any.bind fun _ _ => ResAll.any.bind fun _ _ => ResAll.bind (P := fun x => s.calls ≤ x.calls) ?_ fun _ h => .ok h
          unfold bSetState
          split
          · exact .ok (Nat.le_succ _)
          · exact .ok (Nat.le_succ _)
          · exact .ub
  | finalize out size =>
    refine ResAll.bind (P := fun x => s.calls ≤ x.2.2.calls) ?_ fun _ h => .ok h
    unfold bFinalize
    split
    · exact .ok (Nat.le_refl _)
    · exact .ok (Nat.le_refl _)
    · split
      · exact .ok (Nat.le_refl _)
      · split
        · exact .ok (Nat.le_refl _)
        · refine ResAll.any.bind fun _ _ => ResAll.bind (P := fun x => s.calls ≤ x.calls) ?_ fun _ h => .ok h
          unfold bSetState
          split
          · exact .ok (Nat.le_succ _)
          · exact .ok (Nat.le_succ _)
          · exact .ub

end Model
