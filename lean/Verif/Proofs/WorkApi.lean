import Verif.Proofs.Work
import Verif.Proofs.Basic
/-! Bounds on the work of the API functions, and which objects they touch. -/

namespace Model

open Spec (ApiCall Reply Kind Rights Allowed totalWork)

variable {w : Nat} {T : TAlg w} {B : Nat}

/-- The transform of one block takes work of at most `B`. -/
def TAlg.Works (T : TAlg w) (B : Nat) : Prop := ∀ n u c b o s, Bd (blockRights n) B (T.blockFn n u c b o s) fun _ => True

/-- Sizes of blocks are positive and no `size_t` is exceeded by two blocks. -/
def Alg.Sane (A : Alg w) : Prop := 0 < A.blockSize ∧ 2 * A.blockSize < ssizeMax

/-- The rights of `update`, in a context at one of `D`. -/
def updateRights (D : Nat → Prop) : Rights := ⟨[.input, .block, .state, .work, .sched, .table], [.block, .state, .work, .sched], D, fun _ => False, False, fun _ _ => False⟩

/-- The rights of `finalize`. -/
def finalizeRights (D : Nat → Prop) : Rights := ⟨[.block, .state, .work, .sched, .table], [.block, .state, .work, .sched, .output], D, fun _ => False, False, fun _ _ => False⟩

/-- The rights of `initialize`. -/
def initRights : Rights := ⟨[.table], [.block, .state], fun _ => False, fun _ => False, False, fun _ _ => False⟩

/-- The rights of `free`. -/
def freeRights (D : Nat → Prop) : Rights := ⟨[], [], fun _ => False, D, False, fun _ _ => False⟩

/-- Work of the transform of `size` bytes. -/
def transformWork (T : TAlg w) (B size : Nat) : Nat := size / T.alg.blockSize * (B + 1) + (T.alg.wipeHv + T.alg.wipeVals + 6)

theorem tTransformLoop_bd (hT : T.Works B) (hs : T.alg.Sane) (n : Arr) (u : Bool) (buf : List Byte) : ∀ fuel size off hv scr, size < 2 ^ 64 →
    Bd (blockRights n) (size / T.alg.blockSize * (B + 1) + 1) (tTransformLoop T n u buf fuel size off hv scr) fun _ => True := by
  intro fuel
  induction fuel with
  | zero =>
    intro size off hv scr h
    rw [tTransformLoop]
    exact (Bd.cond' (a := 0) (fun _ => Bd.diverge') fun _ => Bd.pure' trivial).le (by omega)
  | succ fuel ih =>
    intro size off hv scr h
    rw [tTransformLoop]
    refine Bd.cond' (fun hle => ?_) fun _ => Bd.pure' trivial
    have e1 : szSub size T.alg.blockSize = size - T.alg.blockSize := szSub_eq hle h
    have e2 : size / T.alg.blockSize = (size - T.alg.blockSize) / T.alg.blockSize + 1 := by
      rw [Nat.div_eq_sub_div hs.1 hle]
    refine Bd.le (Bd.bind (b := (size - T.alg.blockSize) / T.alg.blockSize * (B + 1) + 1) (hT n u hv buf off scr) fun x _ => ?_) ?_
    · obtain ⟨hv, off, scr⟩ := x
      change Bd _ _ (tTransformLoop T n u buf fuel (szSub size T.alg.blockSize) off hv scr) _
      rw [e1]
      exact ih _ _ _ _ (by omega)
    · rw [e2, Nat.add_mul]
      omega

theorem ssizeMax_lt : ssizeMax < 2 ^ 64 := by decide

theorem tTransform_bd (hT : T.Works B) (hs : T.alg.Sane) (n : Arr) (u : Bool) (scr : Scr w) (c : Option (Ctx w)) (b : Option (List Byte)) (size : Nat) :
    Bd (blockRights n) (transformWork T B size) (tTransform T n u scr c b size) fun x =>
      ∀ d, x.2.1 = some d → ∃ d', c = some d' ∧ d.blockOffset = d'.blockOffset ∧ (b.isSome → size ≤ ssizeMax → 0 ≤ x.1) := by
  unfold tTransform transformWork
  refine Bd.le (Bd.bind (b := size / T.alg.blockSize * (B + 1) + (T.alg.wipeHv + T.alg.wipeVals + 5)) Bd.null fun _ _ => ?_) (by omega)
  cases c with
  | none => exact Bd.pure' (by simp)
  | some c =>
    refine Bd.le (Bd.bind (b := size / T.alg.blockSize * (B + 1) + (T.alg.wipeHv + T.alg.wipeVals + 4)) Bd.null fun _ _ => ?_) (by omega)
    cases b with
    | none => exact Bd.pure' (by simp)
    | some b =>
      refine Bd.le (Bd.cond' (a := size / T.alg.blockSize * (B + 1) + (T.alg.wipeHv + T.alg.wipeVals + 3)) (fun h => Bd.pure' (by simp; omega)) fun h => ?_) (by omega)
      refine Bd.le (Bd.bind (b := T.alg.wipeHv + T.alg.wipeVals + 2) (tTransformLoop_bd hT hs n u b _ _ _ _ _ (by have := ssizeMax_lt; omega)) fun x _ => ?_) (by omega)
      obtain ⟨hv, off, scr⟩ := x
      exact Bd.le (Bd.bind (Bd.set (by simp [blockRights])) fun _ _ => Bd.bind (b := 0) (Bd.set (by simp [blockRights])) fun _ _ => Bd.pure' (by simp)) (by omega)

theorem blockRights_le_update {n : Arr} (h : n ∈ [Arr.input, .block]) (D : Nat → Prop) : (blockRights n).le (updateRights D) := by
  refine ⟨?_, ?_, fun _ h => h.elim, fun _ h => h.elim, fun h => h.elim, fun _ _ h => h.elim⟩
  · simp only [List.mem_cons, List.not_mem_nil, or_false] at h
    rcases h with rfl | rfl <;> simp [blockRights, updateRights]
  · simp [blockRights, updateRights]

theorem blockRights_le_finalize (D : Nat → Prop) : (blockRights .block).le (finalizeRights D) := by
  refine ⟨?_, ?_, fun _ h => h.elim, fun _ h => h.elim, fun h => h.elim, fun _ _ h => h.elim⟩ <;> simp [blockRights, finalizeRights]

theorem div_self_work (hs : T.alg.Sane) : transformWork T B T.alg.blockSize = (B + 1) + (T.alg.wipeHv + T.alg.wipeVals + 6) := by
  rw [transformWork, Nat.div_self hs.1, Nat.one_mul]

theorem tUpdateFill_bd (hT : T.Works B) (hs : T.alg.Sane) (D : Nat → Prop) (u : Bool) (scr : Scr w) (c : Ctx w) (b : List Byte) (size : Nat) (hz : size < 2 ^ 64) (hc : c.blockOffset < T.alg.blockSize) :
    Bd (updateRights D) (T.alg.blockSize + transformWork T B T.alg.blockSize + 6) (tUpdateFill T u scr c b size) fun x =>
      x.2.1.blockOffset < T.alg.blockSize ∧ ∀ y, x.2.2 = some y → y.2 ≤ size ∧ x.2.1.blockOffset = 0 := by
  have hb := hs.2
  have hm := ssizeMax_lt
  have h64 := hs.1
  unfold tUpdateFill
  refine Bd.cond' (fun h0 => ?_) fun h0 => Bd.pure' ⟨hc, by rintro y ⟨⟩; exact ⟨Nat.le_refl _, by simp only; omega⟩⟩
  refine Bd.cond' (fun h1 => by omega) fun h1 => ?_
  refine Bd.le (Bd.bind (b := T.alg.blockSize + transformWork T B T.alg.blockSize + 3) Bd.branch fun less hl => ?_) (by omega)
  have e1 : szSub T.alg.blockSize c.blockOffset = T.alg.blockSize - c.blockOffset := szSub_eq (by omega) (by omega)
  rw [e1] at hl
  rw [e1]
  have hr : (if less = true then size else T.alg.blockSize - c.blockOffset) ≤ T.alg.blockSize - c.blockOffset ∧ (if less = true then size else T.alg.blockSize - c.blockOffset) ≤ size := by
    subst hl
    by_cases hlt : size < T.alg.blockSize - c.blockOffset
    · rw [if_pos (by simpa using hlt)]; omega
    · rw [if_neg (by simpa using hlt)]; omega
  generalize (if less = true then size else T.alg.blockSize - c.blockOffset) = rem at hr
  refine Bd.le (Bd.bind (b := transformWork T B T.alg.blockSize + 2) (Bd.copy (by simp [updateRights]) (by simp [updateRights])) fun blk _ => ?_) (by omega)
  refine Bd.cond' (fun h2 => Bd.pure' ⟨h2, by rintro y ⟨⟩⟩) fun h2 => ?_
  refine Bd.bind ((tTransform_bd hT hs .block u scr _ _ _).mono (blockRights_le_update (by simp) D)) fun x hx => ?_
  obtain ⟨n, d, s⟩ := x
  cases d with
  | none => exact Bd.ub'
  | some d =>
    obtain ⟨d', e, ho, hn⟩ := hx d rfl
    have hn := hn rfl (by omega)
    refine Bd.cond' (fun h3 => ?_) fun h3 => Bd.pure' ⟨h64, ?_⟩
    · change 0 ≤ n at hn
      omega
    · rintro y ⟨⟩
      refine ⟨?_, rfl⟩
      change szSub size rem ≤ size
      rw [szSub_eq hr.2 hz]
      omega

theorem tUpdateBulk_bd (hT : T.Works B) (hs : T.alg.Sane) (D : Nat → Prop) (u : Bool) (scr : Scr w) (c : Ctx w) (b : List Byte) (off size : Nat) :
    Bd (updateRights D) (transformWork T B size + 3) (tUpdateBulk T u scr c b off size) fun x => x.2.1.blockOffset = c.blockOffset := by
  unfold tUpdateBulk
  refine Bd.cond' (fun h0 => ?_) fun h0 => Bd.pure' rfl
  refine Bd.le (Bd.bind (b := transformWork T B size + 1) Bd.ptr fun p _ => ?_) (by omega)
  refine Bd.bind ((tTransform_bd hT hs .input u scr _ _ _).mono (blockRights_le_update (by simp) D)) fun x hx => ?_
  obtain ⟨n, d, s⟩ := x
  cases d with
  | none => exact Bd.ub'
  | some d =>
    obtain ⟨d', e, ho, hn⟩ := hx d rfl
    cases e
    exact Bd.cond' (a := 0) (fun h3 => Bd.pure' ho) fun h3 => Bd.pure' ho

theorem tUpdateTail_bd (hs : T.alg.Sane) (D : Nat → Prop) (c : Ctx w) (b : List Byte) (off size : Nat) (hc : c.blockOffset < T.alg.blockSize) :
    Bd (updateRights D) (T.alg.blockSize + 2) (tUpdateTail T c b off size) fun x => x.2.blockOffset < T.alg.blockSize := by
  unfold tUpdateTail
  refine Bd.cond' (fun h0 => ?_) fun h0 => Bd.pure' hc
  refine Bd.cond' (fun h1 => Bd.pure' hc) fun h1 => ?_
  exact Bd.le (Bd.bind (b := 0) (Bd.copy (by simp [updateRights]) (by simp [updateRights])) fun blk _ => Bd.pure' (by simpa using h1)) (by omega)

/-- Work of `update` with `size` bytes. -/
def updateWork (T : TAlg w) (B size : Nat) : Nat := 2 * T.alg.blockSize + transformWork T B T.alg.blockSize + transformWork T B size + 16

theorem transformWork_mono {m n : Nat} (h : m ≤ n) : transformWork T B m ≤ transformWork T B n :=
  Nat.add_le_add_right (Nat.mul_le_mul_right _ (Nat.div_le_div_right h)) _

theorem tCtxUpdate_bd (hT : T.Works B) (hs : T.alg.Sane) (D : Nat → Prop) (u : Bool) (scr : Scr w) (c : Option (Ctx w)) (b : Option (List Byte)) (size : Nat)
    (hc : ∀ d, c = some d → d.blockOffset < T.alg.blockSize) :
    Bd (updateRights D) (updateWork T B size) (tCtxUpdate T u scr c b size) fun x => ∀ d, x.2 = some d → d.blockOffset < T.alg.blockSize := by
  unfold tCtxUpdate updateWork
  refine Bd.le (Bd.bind (b := 2 * T.alg.blockSize + transformWork T B T.alg.blockSize + transformWork T B size + 15) Bd.null fun _ _ => ?_) (by omega)
  cases c with
  | none => exact Bd.pure' (by simp)
  | some c =>
    have hc := hc c rfl
    refine Bd.le (Bd.bind (b := 2 * T.alg.blockSize + transformWork T B T.alg.blockSize + transformWork T B size + 14) Bd.null fun _ _ => ?_) (by omega)
    cases b with
    | none => exact Bd.pure' (by simpa using hc)
    | some b =>
      refine Bd.cond' (fun _ => Bd.pure' (by simpa using hc)) fun h1 => ?_
      refine Bd.cond' (fun _ => Bd.pure' (by simpa using hc)) fun h2 => ?_
      refine Bd.le (Bd.bind (b := transformWork T B size + T.alg.blockSize + 6) (tUpdateFill_bd hT hs D u scr c b size (by have := ssizeMax_lt; omega) hc) fun x hx => ?_) (by omega)
      obtain ⟨r, c1, next⟩ := x
      obtain ⟨hx1, hx2⟩ := hx
      cases next with
      | none => exact Bd.pure' (by simpa using hx1)
      | some y =>
        obtain ⟨off, sz⟩ := y
        obtain ⟨hx3, hx4⟩ := hx2 _ rfl
        refine Bd.le (Bd.bind (b := T.alg.blockSize + 3) ((tUpdateBulk_bd hT hs D u scr c1 b off sz).le (Nat.add_le_add_right (transformWork_mono hx3) 3)) fun x hx => ?_) (by omega)
        obtain ⟨r, c2, off, sz⟩ := x
        have hc2 : c2.blockOffset < T.alg.blockSize := by
          change c2.blockOffset = c1.blockOffset at hx
          rw [hx]; exact hx1
        refine Bd.cond' (fun _ => Bd.pure' (by simpa using hc2)) fun h3 => ?_
        refine Bd.bind (b := 0) (tUpdateTail_bd hs D c2 b off sz hc2) fun x hx => ?_
        obtain ⟨r, c3⟩ := x
        exact Bd.pure' (by simpa using hx)

theorem tRunStore_bd {v : Nat} {F : Rights} {n : Arr} (h : n ∈ F.writes) (prog : List (Nat × Nat)) (bs : List Byte) (off : Nat) (x : BitVec v) :
    Bd F (prog.length * 2) (tRunStore n prog bs off x) fun _ => True := by
  refine Bd.runTable (fun r s _ => ?_) prog bs trivial
  split
  · exact Bd.step (b := 1) (Bd.one (o := .shift r.2) (Q := fun _ => True) trivial fun _ _ => trivial) fun _ _ => Bd.wr h
  · exact Bd.ub'

/-- Work of the output of the hash values. -/
def storeWork (A : Alg w) : Nat := max (A.storeRows.length * (A.wordProg.length * 2 + 1)) (A.outWords * (A.wordProg.length * 2 + 2) + 1)

theorem tStoreHash_bd (A : Alg w) (D : Nat → Prop) (u : Bool) (hv : List (BitVec w)) (h : List Byte) : Bd (finalizeRights D) (storeWork A) (tStoreHash A u hv h) fun _ => True := by
  unfold tStoreHash storeWork
  refine Bd.ite (fun _ => ?_) fun _ => ?_
  · refine Bd.runTable (fun r s _ => ?_) _ _ trivial
    exact Bd.step (Bd.rd (by simp [finalizeRights])) fun _ _ => tRunStore_bd (by simp [finalizeRights]) _ _ _ _
  · refine Bd.bind (b := 0) ((Bd.forLoop (I := fun _ => True) (a := A.wordProg.length * 2 + 1) (fun i s _ => ?_) 0 A.outWords (h, 0) trivial).le (Nat.le_of_eq rfl)) fun x _ => Bd.pure' trivial
    exact Bd.step (Bd.rd (by simp [finalizeRights])) fun _ _ => Bd.bind (b := 0) (tRunStore_bd (by simp [finalizeRights]) _ _ _ _) fun _ _ => Bd.pure' trivial

theorem tZeroCtx_bd {F : Rights} (h1 : Arr.state ∈ F.writes) (h2 : Arr.block ∈ F.writes) (A : Alg w) : Bd F (A.nHash + 2 * A.blockSize + 2) (tZeroCtx A) fun c => c = zeroCtx A := by
  refine ⟨?_, ?_, ?_⟩
  · intro o ho
    simp only [tZeroCtx, List.mem_cons, List.not_mem_nil, or_false] at ho
    rcases ho with rfl | rfl
    · exact h1
    · exact h2
  · simp [tZeroCtx, totalWork, Spec.work]; omega
  · intro v e; cases e; rfl

/-- Work of `finalize`. -/
def finalizeWork (T : TAlg w) (B : Nat) : Nat :=
  transformWork T B (2 * T.alg.blockSize) + T.alg.lenProg.length * 2 + storeWork T.alg + T.alg.nHash + 4 * T.alg.blockSize + 10

theorem tCtxFinalize_bd (hT : T.Works B) (hs : T.alg.Sane) (D : Nat → Prop) (u : Bool) (scr : Scr w) (c : Option (Ctx w)) (h : Option (List Byte)) (size : Nat)
    (hc : ∀ d, c = some d → d.blockOffset < T.alg.blockSize) :
    Bd (finalizeRights D) (finalizeWork T B) (tCtxFinalize T u scr c h size) fun x => ∀ d, x.2.1 = some d → d.blockOffset < T.alg.blockSize := by
  have hb := hs.2
  have hm := ssizeMax_lt
  unfold tCtxFinalize finalizeWork
  generalize eK : transformWork T B (2 * T.alg.blockSize) + T.alg.lenProg.length * 2 + storeWork T.alg + T.alg.nHash + 4 * T.alg.blockSize = K
  refine Bd.step (b := K + 9) Bd.null fun _ _ => ?_
  cases c with
  | none => exact Bd.pure' (by simp)
  | some c =>
    have hc := hc c rfl
    refine Bd.step (b := K + 8) Bd.null fun _ _ => ?_
    cases h with
    | none => exact Bd.pure' (by simpa using hc)
    | some h =>
      refine Bd.cond' (a := K + 7) (fun _ => Bd.pure' (by simpa using hc)) fun h1 => ?_
      refine Bd.cond' (a := K + 6) (fun _ => Bd.pure' (by simpa using hc)) fun h2 => ?_
      refine Bd.step (b := K + 5) Bd.branch fun two _ => ?_
      have hn : T.alg.blockSize ≤ (if two = true then 1 + 1 else 1) * T.alg.blockSize ∧ (if two = true then 1 + 1 else 1) * T.alg.blockSize ≤ 2 * T.alg.blockSize := by
        split <;> omega
      dsimp only
      generalize (if two = true then 1 + 1 else 1) * T.alg.blockSize = m at hn
      have e1 : szSub m c.blockOffset = m - c.blockOffset := szSub_eq (by omega) (by omega)
      rw [e1]
      refine Bd.le (Bd.bind (b := transformWork T B (2 * T.alg.blockSize) + T.alg.lenProg.length * 2 + storeWork T.alg + T.alg.nHash + 2 * T.alg.blockSize + 4)
        (Bd.set (by simp [finalizeRights])) fun blk _ => ?_) (by omega)
      refine Bd.step (b := transformWork T B (2 * T.alg.blockSize) + T.alg.lenProg.length * 2 + storeWork T.alg + T.alg.nHash + 2 * T.alg.blockSize + 3)
        (Bd.wr (by simp [finalizeRights])) fun blk _ => ?_
      refine Bd.le (Bd.bind (b := transformWork T B (2 * T.alg.blockSize) + storeWork T.alg + T.alg.nHash + 2 * T.alg.blockSize + 3)
        (tRunStore_bd (by simp [finalizeRights]) _ _ _ _) fun blk _ => ?_) (by omega)
      refine Bd.le (Bd.bind (b := storeWork T.alg + T.alg.nHash + 2 * T.alg.blockSize + 3)
        (((tTransform_bd hT hs .block u scr _ _ _).mono (blockRights_le_finalize D)).le (transformWork_mono hn.2)) fun x hx => ?_) (by omega)
      obtain ⟨n, d, s⟩ := x
      cases d with
      | none => exact Bd.ub'
      | some d =>
        obtain ⟨d', e, ho, -⟩ := hx d rfl
        cases e
        change d.blockOffset = c.blockOffset at ho
        refine Bd.cond' (fun h3 => Bd.pure' (by simp; omega)) fun h3 => ?_
        refine Bd.le (Bd.bind (b := T.alg.nHash + 2 * T.alg.blockSize + 2) (tStoreHash_bd T.alg D u _ _) fun o _ => ?_) (by omega)
        refine Bd.bind (b := 0) (tZeroCtx_bd (by simp [finalizeRights]) (by simp [finalizeRights]) _) fun z hz => Bd.pure' ?_
        subst hz
        rintro d ⟨⟩
        exact hs.1

end Model
