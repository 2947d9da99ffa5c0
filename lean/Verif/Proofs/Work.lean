import Verif.Proofs.TraceErase
import Verif.Spec.Work
/-! Bounds on the work of the code with observations, and which objects it touches: the transforms of one block. -/

namespace Model

open Spec (Rights Allowed totalWork)

theorem totalWork_nil : totalWork [] = 0 := rfl
theorem totalWork_append (s t : List Obs) : totalWork (s ++ t) = totalWork s + totalWork t := by simp [totalWork]

theorem allowed_mono {F G : Rights} (h : F.le G) {o : Obs} (ho : Allowed F o) : Allowed G o := by
  obtain ⟨h1, h2, h3, h4, h5, h6⟩ := h
  cases o with
  | read a i => exact h1 ho
  | write a i => exact h2 ho
  | copy d i s j n => exact ⟨h2 ho.1, h1 ho.2⟩
  | set d i n => exact h2 ho
  | alloc n => exact h5 ho
  | free p => exact h4 _ ho
  | deref p => exact fun q e => h3 _ (ho q e)
  | area p n => exact h6 _ _ ho
  | _ => trivial

/-- Every observation of `x` is within the rights, the work is at most `c`, and the value meets `Q`. -/
structure Bd {α} (F : Rights) (c : Nat) (x : Tr α) (Q : α → Prop) : Prop where
  obs : ∀ o ∈ x.trace, Allowed F o
  work : totalWork x.trace ≤ c
  post : ∀ v, x.res = .ok v → Q v

namespace Bd

variable {α β : Type} {F G : Rights} {a b : Nat} {x : Tr α} {Q : α → Prop} {R : β → Prop}

theorem bind {f : α → Tr β} (h : Bd F a x Q) (k : ∀ v, Q v → Bd F b (f v) R) : Bd F (a + b) (x >>= f) R := by
  cases e : x.res with
  | ok v =>
    have kv := k v (h.post v e)
    have et : (x >>= f).trace = x.trace ++ (f v).trace := by rw [Tr.bind_trace, e]
    refine ⟨?_, ?_, ?_⟩
    · rw [et]
      intro o ho
      rcases List.mem_append.mp ho with ho | ho
      · exact h.obs o ho
      · exact kv.obs o ho
    · rw [et, totalWork_append]
      exact Nat.add_le_add h.work kv.work
    · intro w hw
      rw [Tr.bind_res, e] at hw
      exact kv.post w hw
  | ub =>
    have et : (x >>= f).trace = x.trace := by rw [Tr.bind_trace, e]; simp
    refine ⟨by rw [et]; exact h.obs, by rw [et]; exact Nat.le_trans h.work (Nat.le_add_right _ _), ?_⟩
    intro w hw
    rw [Tr.bind_res, e] at hw
    cases hw
  | diverge =>
    have et : (x >>= f).trace = x.trace := by rw [Tr.bind_trace, e]; simp
    refine ⟨by rw [et]; exact h.obs, by rw [et]; exact Nat.le_trans h.work (Nat.le_add_right _ _), ?_⟩
    intro w hw
    rw [Tr.bind_res, e] at hw
    cases hw

/-- The same with the bounds the other way round, so that the rest is found from the whole. -/
theorem step {f : α → Tr β} (h : Bd F a x Q) (k : ∀ v, Q v → Bd F b (f v) R) : Bd F (b + a) (x >>= f) R := Nat.add_comm a b ▸ bind h k

theorem assoc {γ : Type} {f : α → Tr β} {g : β → Tr γ} {S : γ → Prop} (h : Bd F a (x >>= fun v => f v >>= g) S) : Bd F a ((x >>= f) >>= g) S := by rw [Tr.bind_assoc]; exact h

theorem le (h : Bd F a x Q) (k : a ≤ b) : Bd F b x Q := ⟨h.obs, Nat.le_trans h.work k, h.post⟩
theorem mono (h : Bd F a x Q) (k : F.le G) : Bd G a x Q := ⟨fun o ho => allowed_mono k (h.obs o ho), h.work, h.post⟩
theorem weaken {Q' : α → Prop} (h : Bd F a x Q) (k : ∀ v, Q v → Q' v) : Bd F a x Q' := ⟨h.obs, h.work, fun v e => k v (h.post v e)⟩
theorem any (h : Bd F a x Q) : Bd F a x fun _ => True := h.weaken fun _ _ => trivial

theorem pure' {v : α} (h : Q v) : Bd F a (pure v) Q := ⟨fun o ho => (List.not_mem_nil ho).elim, Nat.zero_le _, by intro w hw; cases hw; exact h⟩
theorem ub' : Bd F a (Tr.ub : Tr α) Q := ⟨fun o ho => (List.not_mem_nil ho).elim, Nat.zero_le _, by intro w hw; cases hw⟩
theorem diverge' : Bd F a (Tr.diverge : Tr α) Q := ⟨fun o ho => (List.not_mem_nil ho).elim, Nat.zero_le _, by intro w hw; cases hw⟩

theorem ite {p : Prop} [Decidable p] {y : Tr α} (h : p → Bd F a x Q) (k : ¬p → Bd F b y Q) : Bd F (max a b) (if p then x else y) Q := by
  split
  · next hp => exact (h hp).le (Nat.le_max_left _ _)
  · next hp => exact (k hp).le (Nat.le_max_right _ _)

theorem one {o : Obs} {r : Res α} (h : Allowed F o) (k : ∀ v, r = .ok v → Q v) : Bd F (Spec.work o) ⟨[o], r⟩ Q :=
  ⟨by intro o' ho; rw [List.mem_singleton] at ho; subst ho; exact h, by simp [totalWork], k⟩

theorem rd {n : Arr} {l : List α} {i : Nat} (h : n ∈ F.reads) : Bd F 1 (tRd n l i) fun _ => True := one (o := .read n i) h fun _ _ => trivial
theorem rdSub {n : Arr} {l : List α} {i k : Nat} (h : n ∈ F.reads) : Bd F 1 (tRdSub n l i k) fun _ => True := one (o := .read n _) h fun _ _ => trivial
theorem wr {n : Arr} {l : List α} {i : Nat} {v : α} (h : n ∈ F.writes) : Bd F 1 (tWr n l i v) fun _ => True := one (o := .write n i) h fun _ _ => trivial
theorem copy {d s : Arr} {l m : List α} {i j n : Nat} (h : d ∈ F.writes) (k : s ∈ F.reads) : Bd F (n + 1) (tCopy d l i s m j n) fun _ => True := one (o := .copy d i s j n) ⟨h, k⟩ fun _ _ => trivial
theorem set {d : Arr} {l : List α} {i n : Nat} {v : α} (h : d ∈ F.writes) : Bd F (n + 1) (tSet d l i v n) fun _ => True := one (o := .set d i n) h fun _ _ => trivial
theorem branch {p : Prop} [Decidable p] : Bd F 1 (tBranch p) fun b => b = decide p := one (o := .branch _) trivial fun v e => by cases e; rfl
theorem null {p : Option α} : Bd F 1 (tNull p) fun _ => True := one (o := .branch _) trivial fun _ _ => trivial
theorem ptr {l : List α} {i : Nat} : Bd F 1 (tPtrAt l i) fun _ => True := one (o := .ptr i) trivial fun _ _ => trivial
theorem rotl {w} {v : BitVec w} {n : Nat} : Bd F 1 (tRotl v n) fun _ => True := one (o := .shift n) trivial fun _ _ => trivial
theorem rotr {w} {v : BitVec w} {n : Nat} : Bd F 1 (tRotr v n) fun _ => True := one (o := .shift n) trivial fun _ _ => trivial
theorem shr {w} {v : BitVec w} {n : Nat} : Bd F 1 (tShr v n) fun _ => True := one (o := .shift n) trivial fun _ _ => trivial

/-- A branch, and the two ways on. -/
theorem cond {p : Prop} [Decidable p] {y : Tr α} (h : p → Bd F a x Q) (k : ¬p → Bd F b y Q) : Bd F (1 + max a b) (tBranch p >>= fun t => if t = true then x else y) Q := by
  refine bind branch fun t e => ?_
  subst e
  exact ite (fun hp => h (by simpa using hp)) (fun hp => k (by simpa using hp))

/-- The same with one bound. -/
theorem cond' {p : Prop} [Decidable p] {y : Tr α} (h : p → Bd F a x Q) (k : ¬p → Bd F a y Q) : Bd F (a + 1) (tBranch p >>= fun t => if t = true then x else y) Q :=
  (cond h k).le (by omega)

theorem forCount {σ} {I : σ → Prop} {f : Nat → σ → Tr σ} (h : ∀ i s, I s → Bd F a (f i s) I) : ∀ n i s, I s → Bd F (n * (a + 1) + 1) (tForCount f i n s) I
  | 0, i, s, hs => (one (o := .branch false) trivial fun v e => by cases e; exact hs).le (by simp [Spec.work])
  | n + 1, i, s, hs => by
    rw [tForCount]
    refine le (bind (one (Q := fun _ => True) trivial fun _ _ => trivial) fun _ _ => bind (h i s hs) fun s' hs' => forCount h n (i + 1) s' hs') ?_
    simp only [Spec.work]
    rw [Nat.add_mul]
    omega

theorem forLoop {σ} {I : σ → Prop} {f : Nat → σ → Tr σ} (h : ∀ i s, I s → Bd F a (f i s) I) (lo hi : Nat) (s : σ) (hs : I s) : Bd F ((hi - lo) * (a + 1) + 1) (tForLoop lo hi f s) I :=
  forCount h _ _ _ hs

theorem runTable {ρ σ} {I : σ → Prop} {f : ρ → σ → Tr σ} (h : ∀ r s, I s → Bd F a (f r s) I) : ∀ rs s, I s → Bd F (rs.length * a) (tRunTable f rs s) I
  | [], s, hs => (pure' hs).le (Nat.zero_le _)
  | r :: rs, s, hs => by
    rw [tRunTable]
    refine le (bind (h r s hs) fun s' hs' => runTable h rs s' hs') ?_
    rw [List.length_cons, Nat.add_mul]
    omega

end Bd

/-- The rights of a transform of the array `n`. -/
def blockRights (n : Arr) : Rights := ⟨[n, .state, .work, .sched, .table], [.state, .work, .sched], fun _ => False, fun _ => False, False, fun _ _ => False⟩

/-- Splits code into its steps. -/
macro "bds" : tactic => `(tactic| repeat' (first
  | exact Bd.pure' trivial
  | exact Bd.le (Bd.rd (by simp [blockRights])) (by decide)
  | exact Bd.le (Bd.wr (by simp [blockRights])) (by decide)
  | exact Bd.le Bd.rotl (by decide)
  | refine Bd.step (Bd.rd (by simp [blockRights])) fun _ _ => ?_
  | refine Bd.step (Bd.rdSub (by simp [blockRights])) fun _ _ => ?_
  | refine Bd.step (Bd.wr (by simp [blockRights])) fun _ _ => ?_
  | refine Bd.step Bd.rotl fun _ _ => ?_
  | refine Bd.step Bd.rotr fun _ _ => ?_
  | refine Bd.step Bd.shr fun _ _ => ?_
  | refine Bd.assoc (x := tRd _ _ _) ?_
  | refine Bd.cond' (fun _ => ?_) fun _ => ?_))

variable {w : Nat} {n : Arr}

theorem tRunLoad_bd (prog : List LoadStep) (bs : List Byte) (off : Nat) (v : BitVec w) : Bd (blockRights n) prog.length (tRunLoad n prog bs off v) fun _ => True := by
  refine (Bd.runTable (a := 1) (fun r s _ => ?_) prog v trivial).le (by omega)
  cases r with
  | set i => unfold tLoadStep; bds
  | or i => unfold tLoadStep; bds
  | shl8 => exact Bd.one (o := .shift 8) trivial fun _ _ => trivial

theorem tLoadLoop_bd (prog : List LoadStep) (ws : Nat) (buf : List Byte) (off : Nat) (vals : List (BitVec w)) :
    Bd (blockRights n) (16 * (prog.length + 3) + 1) (tLoadLoop n prog ws buf off vals) fun _ => True := by
  refine (Bd.forLoop (a := prog.length + 2) (fun i s _ => ?_) 0 16 (off, vals) trivial).le (by omega)
  refine Bd.le (Bd.bind (Bd.rd (by simp [blockRights])) fun _ _ => Bd.bind (tRunLoad_bd _ _ _ _) fun _ _ => Bd.bind (b := 0) (Bd.wr (by simp [blockRights])) fun _ _ => Bd.pure' trivial) (by omega)

theorem tLoadUnrolled_bd (prog : List LoadStep) (sh : Nat) (rows : List Nat) (buf : List Byte) (off : Nat) (vals : List (BitVec w)) :
    Bd (blockRights n) (rows.length * (prog.length + 2)) (tLoadUnrolled n prog sh rows buf off vals) fun _ => True := by
  refine Bd.runTable (fun i s _ => ?_) rows vals trivial
  exact Bd.le (Bd.bind (Bd.rd (by simp [blockRights])) fun _ _ => Bd.bind (tRunLoad_bd _ _ _ _) fun _ _ => Bd.wr (by simp [blockRights])) (by omega)

theorem tAddLoop_bd (m : Nat) (c hv : List (BitVec w)) : Bd (blockRights n) (m * 4 + 1) (tAddLoop m c hv) fun _ => True := by
  refine (Bd.forLoop (a := 3) (fun i s _ => ?_) 0 m c trivial).le (by omega)
  bds

theorem tAddUnrolled_bd (rows : List (Nat × Nat)) (c hv : List (BitVec w)) : Bd (blockRights n) (rows.length * 3) (tAddUnrolled rows c hv) fun _ => True := by
  refine Bd.runTable (fun i s _ => ?_) rows c trivial
  bds

theorem tSha2Ext_bd (x : BitVec w) (r : Nat × Nat × Nat) : Bd (blockRights n) 3 (tSha2Ext x r) fun _ => True := by
  unfold tSha2Ext; bds

theorem tSha2Sig_bd (x : BitVec w) (r : Nat × Nat × Nat) : Bd (blockRights n) 3 (tSha2Sig x r) fun _ => True := by
  unfold tSha2Sig; bds

theorem tSha2Extend_bd (P : Sha2P w) (i : Nat) (v : List (BitVec w)) : Bd (blockRights n) 11 (tSha2Extend P i v) fun _ => True := by
  unfold tSha2Extend
  bds
  refine Bd.step (tSha2Ext_bd _ _) fun _ _ => ?_
  bds
  refine Bd.step (tSha2Ext_bd _ _) fun _ _ => ?_
  bds

theorem tSha2MacroRound_bd (P : Sha2P w) (v : List (BitVec w)) (r : Nat × Nat × Nat × Nat × Nat × Nat × Nat × Nat × Nat) (h : List (BitVec w)) :
    Bd (blockRights n) 18 (tSha2MacroRound P v r h) fun _ => True := by
  obtain ⟨t, i0, i1, i2, i3, i4, i5, i6, i7⟩ := r
  unfold tSha2MacroRound
  bds
  refine Bd.step (tSha2Sig_bd _ _) fun _ _ => ?_
  bds
  refine Bd.step (tSha2Sig_bd _ _) fun _ _ => ?_
  bds

theorem tSha2LoopRound_bd (P : Sha2P w) (v : List (BitVec w)) (t : Nat) (h : List (BitVec w)) : Bd (blockRights n) 30 (tSha2LoopRound P v t h) fun _ => True := by
  unfold tSha2LoopRound
  bds
  refine Bd.step (tSha2Sig_bd _ _) fun _ _ => ?_
  bds
  refine Bd.step (tSha2Sig_bd _ _) fun _ _ => ?_
  bds

/-- A bound on the work of a SHA-2 transform of a block. -/
def sha2Work (P : Sha2P w) : Nat :=
  9 + max (P.ldRows.length * (P.ldUnrolled.length + 2) + P.extRows.length * 11 + P.roundRows.length * 18 + P.addRows.length * 3)
    (16 * (P.ldLoop.length + 3) + 1 + ((P.rounds - 16) * 12 + 1) + (P.rounds * 31 + 1) + 33)

theorem tSha2Block_bd (P : Sha2P w) (u : Bool) (c : List (BitVec w)) (buf : List Byte) (off : Nat) (scr : Scr w) : Bd (blockRights n) (sha2Work P) (tSha2Block P n u c buf off scr) fun _ => True := by
  unfold tSha2Block sha2Work
  refine Bd.bind (Bd.copy (by simp [blockRights]) (by simp [blockRights])) fun hv _ => ?_
  refine Bd.ite (fun _ => ?_) fun _ => ?_
  · refine Bd.le (Bd.bind (tLoadUnrolled_bd _ _ _ _ _ _) fun vals _ => Bd.bind (Bd.runTable (I := fun _ => True) (fun r s _ => tSha2Extend_bd P r s) _ _ trivial) fun vals _ =>
      Bd.bind (Bd.runTable (I := fun _ => True) (fun r s _ => tSha2MacroRound_bd P vals r s) _ _ trivial) fun hv _ => Bd.bind (b := 0) (tAddUnrolled_bd _ _ _) fun _ _ => Bd.pure' trivial) (by omega)
  · refine Bd.le (Bd.bind (b := ((P.rounds - 16) * 12 + 1) + ((P.rounds * 31 + 1) + 33)) (tLoadLoop_bd _ _ _ _ _) fun x _ => ?_) (by omega)
    obtain ⟨off, vals⟩ := x
    exact Bd.le (Bd.bind (Bd.forLoop (I := fun _ => True) (fun r s _ => tSha2Extend_bd P r s) _ _ _ trivial) fun vals _ =>
      Bd.bind (Bd.forLoop (I := fun _ => True) (fun r s _ => tSha2LoopRound_bd P vals r s) _ _ _ trivial) fun hv _ => Bd.bind (b := 0) (tAddLoop_bd _ _ _) fun _ _ => Bd.pure' trivial) (by omega)

theorem tSha1Extend_bd (i : Nat) (v : List (BitVec 32)) : Bd (blockRights n) 8 (tSha1Extend i v) fun _ => True := by
  unfold tSha1Extend; bds

theorem tSha1MacroRound_bd (v : List (BitVec 32)) (r : Nat × Nat × Nat × Nat × Nat × Nat × Nat) (h : List (BitVec 32)) : Bd (blockRights n) 17 (tSha1MacroRound v r h) fun _ => True := by
  obtain ⟨r, t, i0, i1, i2, i3, i4⟩ := r
  unfold tSha1MacroRound; bds

theorem tSha1LoopRound_bd (v : List (BitVec 32)) (t : Nat) (h : List (BitVec 32)) : Bd (blockRights n) 28 (tSha1LoopRound v t h) fun _ => True := by
  unfold tSha1LoopRound
  bds
  refine Bd.step (a := 6) (Q := fun _ => True) (by bds) fun _ _ => ?_
  bds

theorem tSha1Block_bd (u : Bool) (c : List (BitVec 32)) (buf : List Byte) (off : Nat) (scr : Scr 32) : Bd (blockRights n) 3086 (tSha1Block n u c buf off scr) fun _ => True := by
  unfold tSha1Block
  refine Bd.le (Bd.bind (b := 3080) (Bd.copy (by simp [blockRights]) (by simp [blockRights])) fun hv _ => ?_) (by decide)
  split
  · exact Bd.le (Bd.bind (tLoadUnrolled_bd _ _ _ _ _ _) fun vals _ => Bd.bind (Bd.runTable (I := fun _ => True) (fun r s _ => tSha1Extend_bd r s) _ _ trivial) fun vals _ =>
      Bd.bind (Bd.runTable (I := fun _ => True) (fun r s _ => tSha1MacroRound_bd vals r s) _ _ trivial) fun hv _ => Bd.bind (b := 0) (tAddUnrolled_bd _ _ _) fun _ _ => Bd.pure' trivial) (by decide)
  · refine Bd.le (Bd.bind (b := 2919) (tLoadLoop_bd _ _ _ _ _) fun x _ => ?_) (by decide)
    obtain ⟨off, vals⟩ := x
    exact Bd.le (Bd.bind (Bd.forLoop (I := fun _ => True) (fun r s _ => tSha1Extend_bd r s) _ _ _ trivial) fun vals _ =>
      Bd.bind (Bd.forLoop (I := fun _ => True) (fun r s _ => tSha1LoopRound_bd vals r s) _ _ _ trivial) fun hv _ => Bd.bind (b := 0) (tAddLoop_bd _ _ _) fun _ _ => Bd.pure' trivial) (by decide)

theorem tMd5MacroRound_bd (v : List (BitVec 32)) (r : Nat × Nat × Nat × Nat × Nat × Nat × Nat) (h : List (BitVec 32)) : Bd (blockRights n) 18 (tMd5MacroRound v r h) fun _ => True := by
  obtain ⟨r, t, i0, i1, i2, i3, i4⟩ := r
  unfold tMd5MacroRound; bds

theorem tMd5LoopRound_bd (v : List (BitVec 32)) (t : Nat) (h : List (BitVec 32)) : Bd (blockRights n) 28 (tMd5LoopRound v t h) fun _ => True := by
  unfold tMd5LoopRound
  bds
  refine Bd.step (a := 4) (Q := fun _ => True) (by bds) fun _ _ => ?_
  bds

theorem tMd5Block_bd (u : Bool) (c : List (BitVec 32)) (buf : List Byte) (off : Nat) (scr : Scr 32) : Bd (blockRights n) 2040 (tMd5Block n u c buf off scr) fun _ => True := by
  unfold tMd5Block
  refine Bd.le (Bd.bind (b := 2035) (Bd.copy (by simp [blockRights]) (by simp [blockRights])) fun hv _ => ?_) (by decide)
  split
  · exact Bd.le (Bd.bind (tLoadUnrolled_bd _ _ _ _ _ _) fun vals _ =>
      Bd.bind (Bd.runTable (I := fun _ => True) (fun r s _ => tMd5MacroRound_bd vals r s) _ _ trivial) fun hv _ => Bd.bind (b := 0) (tAddUnrolled_bd _ _ _) fun _ _ => Bd.pure' trivial) (by decide)
  · refine Bd.le (Bd.bind (b := 1874) (tLoadLoop_bd _ _ _ _ _) fun x _ => ?_) (by decide)
    obtain ⟨off, vals⟩ := x
    exact Bd.le (Bd.bind (Bd.forLoop (I := fun _ => True) (fun r s _ => tMd5LoopRound_bd vals r s) _ _ _ trivial) fun hv _ => Bd.bind (b := 0) (tAddLoop_bd _ _ _) fun _ _ => Bd.pure' trivial) (by decide)

end Model

