import Verif.Model.Errors
import Verif.Proofs.Hmac
/-! The functions with error output: their other behaviour is that of the functions without, and which errors they record. -/

set_option linter.unusedSimpArgs false

namespace Model

open Spec (IterHash slice overwrite AreaOk Err)

variable {w : Nat} {A : Alg w} {H : IterHash w} {enc : Nat → List Byte}

/-- The errors of the transform. -/
def transformErrs (c : Option (Ctx w)) (b : Option (List Byte)) (size : Nat) : List Err :=
  if c = none ∨ b = none then [.argInvalid] else if ssizeMax < size then [.argExceeds] else []

theorem eTransform_eq (A : Alg w) (u : Bool) (scr : Scr w) (c : Option (Ctx w)) (b : Option (List Byte)) (size : Nat) (es : List Err) :
    eTransform A u scr c b size es = transform A u scr c b size >>= fun x => .ok (x.1, x.2.1, x.2.2, es ++ transformErrs c b size) := by
  unfold eTransform transform transformErrs
  cases c with
  | none => simp
  | some c =>
    cases b with
    | none => simp
    | some b =>
      by_cases h : ssizeMax < size
      · simp [h]
      · simp only [h, if_false, Res.bind_assoc, reduceCtorEq, or_self, List.append_nil]
        rfl

theorem transform_nat {A : Alg w} {u : Bool} {scr : Scr w} {c c' : Option (Ctx w)} {b : Option (List Byte)} {size : Nat} {n : Int} {scr' : Scr w}
    (h : transform A u scr c b size = .ok (n, c', scr')) : n = -1 ↔ transformErrs c b size ≠ [] := by
  unfold transform at h
  unfold transformErrs
  cases c with
  | none => simp_all
  | some c =>
    cases b with
    | none => simp_all
    | some b =>
      by_cases hs : ssizeMax < size
      · simp only [hs, if_true, Res.ok.injEq, Prod.mk.injEq] at h
        simp [hs, ← h.1]
      · simp only [hs, if_false] at h
        simp only [hs, if_false, reduceCtorEq, or_self, not_true_eq_false, iff_false, ne_eq]
        cases hl : transformLoop A u b (size + 1) size 0 c.hashValues scr with
        | ub => rw [hl] at h; cases h
        | diverge => rw [hl] at h; cases h
        | ok x =>
          rw [hl, Res.ok_bind] at h
          cases h1 : memSet x.2.2.hv 0 0 A.wipeHv with
          | ub => simp only [h1] at h; cases h
          | diverge => simp only [h1] at h; cases h
          | ok y =>
            simp only [h1, Res.ok_bind] at h
            cases h2 : memSet x.2.2.vals 0 0 A.wipeVals with
            | ub => simp only [h2] at h; cases h
            | diverge => simp only [h2] at h; cases h
            | ok z =>
              simp only [h2, Res.ok_bind, Res.pure_eq, Res.ok.injEq, Prod.mk.injEq] at h
              omega

/-- The errors of an update, given its result. -/
def Errs (r : Int) (es : List Err) : Prop := (r = 1 ∧ es = []) ∨ (r = -1 ∧ es ≠ [])

theorem eUpdateFill_eq (A : Alg w) (u : Bool) (scr : Scr w) (c : Ctx w) (b : List Byte) (size : Nat) :
    ∃ f : Int × Ctx w × Option (Nat × Nat) → List Err, (∀ x, updateFill A u scr c b size = .ok x → Errs x.1 (f x) ∧ (x.2.2 ≠ none → x.1 = 1)) ∧
      ∀ es, eUpdateFill A u scr c b size es = updateFill A u scr c b size >>= fun x => .ok (x.1, x.2.1, x.2.2, es ++ f x) := by
  unfold eUpdateFill updateFill
  by_cases h0 : 0 < c.blockOffset
  · simp only [h0, if_true]
    by_cases h1 : A.blockSize ≤ c.blockOffset
    · simp only [h1, if_true]
      exact ⟨fun _ => [.rtOutOfBounds], by rintro _ ⟨⟩; exact ⟨.inr ⟨rfl, by simp⟩, by simp⟩, fun es => rfl⟩
    · simp only [h1, if_false]
      cases hm : memCopy c.block c.blockOffset b 0 (if size < szSub A.blockSize c.blockOffset then size else szSub A.blockSize c.blockOffset) with
      | ub => exact ⟨fun _ => [], by rintro _ ⟨⟩, fun es => rfl⟩
      | diverge => exact ⟨fun _ => [], by rintro _ ⟨⟩, fun es => rfl⟩
      | ok blk =>
        simp only [Res.ok_bind]
        generalize hc2 : Ctx.mk c.hashCount c.hashValues (c.blockOffset + if size < szSub A.blockSize c.blockOffset then size else szSub A.blockSize c.blockOffset) blk = c2
        by_cases h2 : c2.blockOffset < A.blockSize
        · have h2' := h2
          rw [← hc2] at h2'
          simp only at h2'
          simp only [h2', if_true]
          exact ⟨fun _ => [], by rintro _ ⟨⟩; exact ⟨.inl ⟨rfl, rfl⟩, by simp⟩, fun es => by simp⟩
        · have h2' := h2
          rw [← hc2] at h2'
          simp only at h2'
          simp only [h2', if_false, eTransform_eq]
          have hb : c2.block = blk := by rw [← hc2]
          cases ht : transform A u scr (some c2) (some blk) A.blockSize with
          | ub => exact ⟨fun _ => [], by rintro _ ⟨⟩, fun es => rfl⟩
          | diverge => exact ⟨fun _ => [], by rintro _ ⟨⟩, fun es => rfl⟩
          | ok x =>
            obtain ⟨n, c', scr'⟩ := x
            simp only [Res.ok_bind]
            cases c' with
            | none => exact ⟨fun _ => [], by rintro _ ⟨⟩, fun es => rfl⟩
            | some c' =>
              have hn := transform_nat ht
              simp only
              by_cases hm1 : n = -1
              · simp only [hm1, if_true]
                exact ⟨fun _ => transformErrs (some c2) (some blk) A.blockSize ++ [.rtSetFailed], by rintro _ ⟨⟩; exact ⟨.inr ⟨rfl, by simp⟩, by simp⟩, fun es => by simp⟩
              · simp only [hm1, if_false]
                refine ⟨fun _ => [], by rintro _ ⟨⟩; exact ⟨.inl ⟨rfl, rfl⟩, by simp⟩, fun es => ?_⟩
                have : transformErrs (some c2) (some blk) A.blockSize = [] := by
                  by_contra hne
                  exact hm1 (hn.mpr hne)
                simp [this]
  · simp only [h0, if_false]
    exact ⟨fun _ => [], by rintro _ ⟨⟩; exact ⟨.inl ⟨rfl, rfl⟩, by simp⟩, fun es => by simp⟩

theorem eUpdateBulk_eq (A : Alg w) (u : Bool) (scr : Scr w) (c : Ctx w) (b : List Byte) (o size : Nat) :
    ∃ f : Int × Ctx w × Nat × Nat → List Err, (∀ x, updateBulk A u scr c b o size = .ok x → Errs x.1 (f x)) ∧
      ∀ es, eUpdateBulk A u scr c b o size es = updateBulk A u scr c b o size >>= fun x => .ok (x.1, x.2.1, x.2.2.1, x.2.2.2, es ++ f x) := by
  unfold eUpdateBulk updateBulk
  by_cases h0 : 0 < size
  · simp only [h0, if_true]
    cases hp : ptrAt b o with
    | ub => exact ⟨fun _ => [], by rintro _ ⟨⟩, fun es => rfl⟩
    | diverge => exact ⟨fun _ => [], by rintro _ ⟨⟩, fun es => rfl⟩
    | ok p =>
      simp only [Res.ok_bind, eTransform_eq]
      cases ht : transform A u scr (some c) (some p) size with
      | ub => exact ⟨fun _ => [], by rintro _ ⟨⟩, fun es => rfl⟩
      | diverge => exact ⟨fun _ => [], by rintro _ ⟨⟩, fun es => rfl⟩
      | ok x =>
        obtain ⟨n, c', scr'⟩ := x
        simp only [Res.ok_bind]
        cases c' with
        | none => exact ⟨fun _ => [], by rintro _ ⟨⟩, fun es => rfl⟩
        | some c' =>
          have hn := transform_nat ht
          simp only
          by_cases hm1 : n = -1
          · simp only [hm1, if_true]
            exact ⟨fun _ => transformErrs (some c) (some p) size ++ [.rtSetFailed], by rintro _ ⟨⟩; exact .inr ⟨rfl, by simp⟩, fun es => by simp⟩
          · simp only [hm1, if_false]
            refine ⟨fun _ => [], by rintro _ ⟨⟩; exact .inl ⟨rfl, rfl⟩, fun es => ?_⟩
            have : transformErrs (some c) (some p) size = [] := by
              by_contra hne
              exact hm1 (hn.mpr hne)
            simp [this]
  · simp only [h0, if_false]
    exact ⟨fun _ => [], by rintro _ ⟨⟩; exact .inl ⟨rfl, rfl⟩, fun es => by simp⟩

theorem eUpdateTail_eq (A : Alg w) (c : Ctx w) (b : List Byte) (o size : Nat) :
    ∃ f : Int × Ctx w → List Err, (∀ x, updateTail A c b o size = .ok x → Errs x.1 (f x)) ∧
      ∀ es, eUpdateTail A c b o size es = updateTail A c b o size >>= fun x => .ok (x.1, x.2, es ++ f x) := by
  unfold eUpdateTail updateTail
  by_cases h0 : 0 < size
  · simp only [h0, if_true]
    by_cases h1 : A.blockSize ≤ size
    · simp only [h1, if_true]
      exact ⟨fun _ => [.rtOutOfBounds], by rintro _ ⟨⟩; exact .inr ⟨rfl, by simp⟩, fun es => rfl⟩
    · simp only [h1, if_false]
      refine ⟨fun _ => [], ?_, fun es => ?_⟩
      · intro x hx
        cases hm : memCopy c.block 0 b o size with
        | ub => rw [hm] at hx; cases hx
        | diverge => rw [hm] at hx; cases hx
        | ok blk => rw [hm] at hx; cases hx; exact .inl ⟨rfl, rfl⟩
      · rw [Res.bind_assoc]
        simp
  · simp only [h0, if_false]
    exact ⟨fun _ => [], by rintro _ ⟨⟩; exact .inl ⟨rfl, rfl⟩, fun es => by simp⟩

/-- `update` with error output: the rest of its behaviour, and that an error is recorded exactly if it fails. -/
theorem eCtxUpdate_eq (A : Alg w) (u : Bool) (scr : Scr w) (c : Option (Ctx w)) (b : Option (List Byte)) (size : Nat) :
    ∃ f : Int × Option (Ctx w) → List Err, (∀ x, ctxUpdate A u scr c b size = .ok x → Errs x.1 (f x)) ∧
      ∀ es, eCtxUpdate A u scr c b size es = ctxUpdate A u scr c b size >>= fun x => .ok (x.1, x.2, es ++ f x) := by
  unfold eCtxUpdate ctxUpdate
  cases c with
  | none => exact ⟨fun _ => [.argInvalid], by rintro _ ⟨⟩; exact .inr ⟨rfl, by simp⟩, fun es => rfl⟩
  | some c =>
    cases b with
    | none => exact ⟨fun _ => [.argInvalid], by rintro _ ⟨⟩; exact .inr ⟨rfl, by simp⟩, fun es => rfl⟩
    | some b =>
      simp only
      by_cases hs : ssizeMax < size
      · simp only [hs, if_true]
        exact ⟨fun _ => [.argExceeds], by rintro _ ⟨⟩; exact .inr ⟨rfl, by simp⟩, fun es => rfl⟩
      · simp only [hs, if_false]
        by_cases h0 : size = 0
        · simp only [h0, if_true]
          exact ⟨fun _ => [], by rintro _ ⟨⟩; exact .inl ⟨rfl, rfl⟩, fun es => by simp⟩
        · simp only [h0, if_false]
          obtain ⟨f1, g1, e1⟩ := eUpdateFill_eq A u scr c b size
          simp only [e1]
          cases hf : updateFill A u scr c b size with
          | ub => exact ⟨fun _ => [], by rintro _ ⟨⟩, fun es => rfl⟩
          | diverge => exact ⟨fun _ => [], by rintro _ ⟨⟩, fun es => rfl⟩
          | ok x =>
            obtain ⟨g1, g1'⟩ := g1 x hf
            obtain ⟨r, c, next⟩ := x
            simp only [Res.ok_bind]
            cases next with
            | none => exact ⟨fun _ => f1 (r, c, none), by rintro _ ⟨⟩; exact g1, fun es => rfl⟩
            | some p =>
              obtain ⟨o, sz⟩ := p
              have hr : r = 1 := g1' (by simp)
              have hf1 : f1 (r, c, some (o, sz)) = [] := by
                rcases g1 with ⟨-, h⟩ | ⟨h, -⟩
                · exact h
                · simp only at h; omega
              simp only [hf1, List.append_nil]
              obtain ⟨f2, g2, e2⟩ := eUpdateBulk_eq A u scr c b o sz
              simp only [e2]
              cases hb : updateBulk A u scr c b o sz with
              | ub => exact ⟨fun _ => [], by rintro _ ⟨⟩, fun es => rfl⟩
              | diverge => exact ⟨fun _ => [], by rintro _ ⟨⟩, fun es => rfl⟩
              | ok y =>
                have g2 := g2 y hb
                obtain ⟨r2, c2, o2, sz2⟩ := y
                simp only [Res.ok_bind]
                by_cases hr2 : r2 = -1
                · simp only [hr2, if_true]
                  refine ⟨fun _ => f2 (-1, c2, o2, sz2), ?_, fun es => rfl⟩
                  rintro _ ⟨⟩
                  rw [hr2] at g2
                  exact g2
                · simp only [hr2, if_false]
                  have hf2 : f2 (r2, c2, o2, sz2) = [] := by
                    rcases g2 with ⟨-, h⟩ | ⟨h, -⟩
                    · exact h
                    · exact (hr2 h).elim
                  simp only [hf2, List.append_nil]
                  obtain ⟨f3, g3, e3⟩ := eUpdateTail_eq A c2 b o2 sz2
                  simp only [e3]
                  cases ht : updateTail A c2 b o2 sz2 with
                  | ub => exact ⟨fun _ => [], by rintro _ ⟨⟩, fun es => rfl⟩
                  | diverge => exact ⟨fun _ => [], by rintro _ ⟨⟩, fun es => rfl⟩
                  | ok z => exact ⟨fun _ => f3 z, by rintro _ ⟨⟩; exact g3 z ht, fun es => rfl⟩

/-- `finalize` with error output: the rest of its behaviour, and that an error is recorded exactly if it fails. -/
theorem eCtxFinalize_eq (A : Alg w) (u : Bool) (scr : Scr w) (c : Option (Ctx w)) (o : Option (List Byte)) (size : Nat) :
    ∃ f : Int × Option (Ctx w) × Option (List Byte) → List Err, (∀ x, ctxFinalize A u scr c o size = .ok x → Errs x.1 (f x)) ∧
      ∀ es, eCtxFinalize A u scr c o size es = ctxFinalize A u scr c o size >>= fun x => .ok (x.1, x.2.1, x.2.2, es ++ f x) := by
  unfold eCtxFinalize ctxFinalize
  cases c with
  | none => exact ⟨fun _ => [.argInvalid], by rintro _ ⟨⟩; exact .inr ⟨rfl, by simp⟩, fun es => rfl⟩
  | some c =>
    cases o with
    | none => exact ⟨fun _ => [.argInvalid], by rintro _ ⟨⟩; exact .inr ⟨rfl, by simp⟩, fun es => rfl⟩
    | some o =>
      simp only
      by_cases h1 : size < A.hashSize
      · simp only [h1, if_true]
        exact ⟨fun _ => [.argTooSmall], by rintro _ ⟨⟩; exact .inr ⟨rfl, by simp⟩, fun es => rfl⟩
      · by_cases h2 : ssizeMax < size
        · simp only [h1, h2, if_false, if_true]
          exact ⟨fun _ => [.argExceeds], by rintro _ ⟨⟩; exact .inr ⟨rfl, by simp⟩, fun es => rfl⟩
        · simp only [h1, h2, if_false, eTransform_eq]
          generalize (if A.padLimit < c.blockOffset then 1 + 1 else 1) * A.blockSize = bs
          cases hm : memSet c.block c.blockOffset 0 (szSub bs c.blockOffset) with
          | ub => exact ⟨fun _ => [], by rintro _ ⟨⟩, fun es => rfl⟩
          | diverge => exact ⟨fun _ => [], by rintro _ ⟨⟩, fun es => rfl⟩
          | ok blk =>
            simp only [Res.ok_bind]
            cases hw : wr blk c.blockOffset (0x80 : Byte) with
            | ub => exact ⟨fun _ => [], by rintro _ ⟨⟩, fun es => rfl⟩
            | diverge => exact ⟨fun _ => [], by rintro _ ⟨⟩, fun es => rfl⟩
            | ok blk =>
              simp only [Res.ok_bind]
              cases hst : runStore A.lenProg blk (bs - 8) ((c.hashCount + BitVec.ofNat 64 c.blockOffset) * 8) with
              | ub => exact ⟨fun _ => [], by rintro _ ⟨⟩, fun es => rfl⟩
              | diverge => exact ⟨fun _ => [], by rintro _ ⟨⟩, fun es => rfl⟩
              | ok blk =>
                simp only [Res.ok_bind]
                generalize Ctx.mk c.hashCount c.hashValues c.blockOffset blk = c2
                cases ht : transform A u scr (some c2) (some blk) bs with
                | ub => exact ⟨fun _ => [], by rintro _ ⟨⟩, fun es => rfl⟩
                | diverge => exact ⟨fun _ => [], by rintro _ ⟨⟩, fun es => rfl⟩
                | ok x =>
                  obtain ⟨n, c', scr'⟩ := x
                  simp only [Res.ok_bind]
                  cases c' with
                  | none => exact ⟨fun _ => [], by rintro _ ⟨⟩, fun es => rfl⟩
                  | some c' =>
                    have hn := transform_nat ht
                    simp only
                    by_cases hm1 : n = -1
                    · simp only [hm1, if_true]
                      exact ⟨fun _ => transformErrs (some c2) (some blk) bs ++ [.rtSetFailed], by rintro _ ⟨⟩; exact .inr ⟨rfl, by simp⟩, fun es => by simp⟩
                    · simp only [hm1, if_false]
                      have : transformErrs (some c2) (some blk) bs = [] := by
                        by_contra hne
                        exact hm1 (hn.mpr hne)
                      simp only [this, List.append_nil]
                      cases hh : storeHash A u c'.hashValues o with
                      | ub => exact ⟨fun _ => [], by rintro _ ⟨⟩, fun es => rfl⟩
                      | diverge => exact ⟨fun _ => [], by rintro _ ⟨⟩, fun es => rfl⟩
                      | ok h => exact ⟨fun _ => [], by rintro _ ⟨⟩; exact .inl ⟨rfl, rfl⟩, fun es => by simp⟩

theorem errs_one {r : Int} {es : List Err} (h : Errs r es) (hr : r = 1) : es = [] := by
  rcases h with ⟨-, h⟩ | ⟨h, -⟩
  · exact h
  · omega

theorem eUpdate_eq (A : Alg w) (u : Bool) (env : Env w) (slot : Option Nat) (b : Option (List Byte)) (size : Nat) (s : St w) :
    ∃ f : Int × St w → List Err, (∀ x, hUpdate A u env slot b size s = .ok x → Errs x.1 (f x)) ∧
      ∀ es, eUpdate A u env slot b size s es = hUpdate A u env slot b size s >>= fun x => .ok (x.1, x.2, es ++ f x) := by
  unfold eUpdate hUpdate
  cases slot with
  | none => exact ⟨fun _ => [.argInvalid], by rintro _ ⟨⟩; exact .inr ⟨rfl, by simp⟩, fun es => rfl⟩
  | some p =>
    simp only
    cases hg : getKey p s.live with
    | none => exact ⟨fun _ => [], by rintro _ ⟨⟩, fun es => rfl⟩
    | some o =>
      cases o with
      | bytes d => exact ⟨fun _ => [], by rintro _ ⟨⟩, fun es => rfl⟩
      | ctx c =>
        obtain ⟨f, g, e⟩ := eCtxUpdate_eq A u env.scr (some c) b size
        simp only [e]
        cases hx : ctxUpdate A u env.scr (some c) b size with
        | ub => exact ⟨fun _ => [], by rintro _ ⟨⟩, fun es => rfl⟩
        | diverge => exact ⟨fun _ => [], by rintro _ ⟨⟩, fun es => rfl⟩
        | ok x =>
          obtain ⟨r, c'⟩ := x
          cases c' with
          | none => exact ⟨fun _ => [], by rintro _ ⟨⟩, fun es => rfl⟩
          | some c' => exact ⟨fun _ => f (r, some c'), by rintro _ ⟨⟩; exact g _ hx, fun es => rfl⟩

theorem eFinalize_eq (A : Alg w) (u : Bool) (env : Env w) (slot : Option Nat) (o : Option (List Byte)) (size : Nat) (s : St w) :
    ∃ f : Int × Option (List Byte) × St w → List Err, (∀ x, hFinalize A u env slot o size s = .ok x → Errs x.1 (f x)) ∧
      ∀ es, eFinalize A u env slot o size s es = hFinalize A u env slot o size s >>= fun x => .ok (x.1, x.2.1, x.2.2, es ++ f x) := by
  unfold eFinalize hFinalize
  cases slot with
  | none => exact ⟨fun _ => [.argInvalid], by rintro _ ⟨⟩; exact .inr ⟨rfl, by simp⟩, fun es => rfl⟩
  | some p =>
    simp only
    cases hg : getKey p s.live with
    | none => exact ⟨fun _ => [], by rintro _ ⟨⟩, fun es => rfl⟩
    | some ob =>
      cases ob with
      | bytes d => exact ⟨fun _ => [], by rintro _ ⟨⟩, fun es => rfl⟩
      | ctx c =>
        obtain ⟨f, g, e⟩ := eCtxFinalize_eq A u env.scr (some c) o size
        simp only [e]
        cases hx : ctxFinalize A u env.scr (some c) o size with
        | ub => exact ⟨fun _ => [], by rintro _ ⟨⟩, fun es => rfl⟩
        | diverge => exact ⟨fun _ => [], by rintro _ ⟨⟩, fun es => rfl⟩
        | ok x =>
          obtain ⟨r, c', h⟩ := x
          cases c' with
          | none => exact ⟨fun _ => [], by rintro _ ⟨⟩, fun es => rfl⟩
          | some c' => exact ⟨fun _ => f (r, some c', h), by rintro _ ⟨⟩; exact g _ hx, fun es => rfl⟩

theorem eInitialize_eq (A : Alg w) (env : Env w) (slot : Option Nat) (s : St w) :
    ∃ f : Int × Option Nat × St w → List Err, (∀ x, hInitialize A env slot s = .ok x → Errs x.1 (f x)) ∧
      ∀ es, eInitialize A env (some slot) s es = hInitialize A env slot s >>= fun x => .ok (x.1, some x.2.1, x.2.2, es ++ f x) := by
  unfold eInitialize hInitialize ctxInitialize
  cases slot with
  | some p => exact ⟨fun _ => [.rtAlreadySet], by rintro _ ⟨⟩; exact .inr ⟨rfl, by simp⟩, fun es => rfl⟩
  | none =>
    simp only
    by_cases h : env.allocOk s.count = true
    · simp only [h, if_true]
      cases hm : memCopy (zeroCtx A).hashValues 0 A.iv 0 A.nHash with
      | ub => exact ⟨fun _ => [], by rintro _ ⟨⟩, fun es => rfl⟩
      | diverge => exact ⟨fun _ => [], by rintro _ ⟨⟩, fun es => rfl⟩
      | ok hv => exact ⟨fun _ => [], by rintro _ ⟨⟩; exact .inl ⟨rfl, rfl⟩, fun es => by simp⟩
    · simp only [h, if_false]
      exact ⟨fun _ => [.memInsufficient], by rintro _ ⟨⟩; exact .inr ⟨rfl, by simp⟩, fun es => rfl⟩

theorem eFree_eq (slot : Option Nat) (s : St w) (es : List Err) :
    eFree (some slot) s es = hFree slot s >>= fun x => .ok (x.1, some x.2.1, x.2.2, es) := by
  unfold eFree hFree
  cases slot with
  | none => rfl
  | some p => simp only [Res.bind_assoc]; rfl

theorem failed_errs {r : Int} {es' : List Err} (e : Err) (h : Errs r es') (es : List Err) : ∃ es2, Errs r es2 ∧ failed r e (es ++ es') = es ++ es2 := by
  rcases h with ⟨rfl, rfl⟩ | ⟨rfl, h⟩
  · exact ⟨[], .inl ⟨rfl, rfl⟩, by simp [failed]⟩
  · exact ⟨es' ++ [e], .inr ⟨rfl, by simp⟩, by simp [failed]⟩

/-- The errors of a failed call with the one of the caller. -/
def failedErrs (r : Int) (e : Err) (es : List Err) : List Err := if r ≠ 1 then es ++ [e] else es

theorem failed_eq (r : Int) (e : Err) (es es' : List Err) : failed r e (es ++ es') = es ++ failedErrs r e es' := by
  unfold failed failedErrs
  split <;> simp

theorem failedErrs_errs {r : Int} {es : List Err} (e : Err) (h : Errs r es) : Errs r (failedErrs r e es) := by
  rcases h with ⟨rfl, rfl⟩ | ⟨rfl, h⟩
  · exact .inl ⟨rfl, by simp [failedErrs]⟩
  · exact .inr ⟨rfl, by simp [failedErrs]⟩

theorem eLocalInit_eq (A : Alg w) (env : Env w) (slot : Option Nat) (s : St w) :
    ∃ f : Int × Option Nat × St w → List Err, (∀ x, hInitialize A env slot s = .ok x → Errs x.1 (f x)) ∧
      ∀ es, eLocalInit A env slot s es = hInitialize A env slot s >>= fun x => .ok (x.1, x.2.1, x.2.2, es ++ f x) := by
  obtain ⟨f, g, e⟩ := eInitialize_eq A env slot s
  refine ⟨fun x => failedErrs x.1 .rtInitializeFailed (f x), fun x hx => failedErrs_errs _ (g x hx), fun es => ?_⟩
  unfold eLocalInit
  rw [e]
  cases hInitialize A env slot s with
  | ub => rfl
  | diverge => rfl
  | ok x => simp [failed_eq]

theorem eLocalFree_eq (slot : Option Nat) (s : St w) :
    (∀ x, hFree slot s = .ok x → x.1 = 1) ∧ ∀ es, eLocalFree slot s es = hFree slot s >>= fun x => .ok (x.1, x.2.1, x.2.2, es) := by
  have h : ∀ x, hFree slot s = .ok x → x.1 = 1 := by
    intro x hx
    unfold hFree at hx
    cases slot with
    | none => cases hx; rfl
    | some p =>
      simp only at hx
      cases hm : memFree p s with
      | ub => rw [hm] at hx; cases hx
      | diverge => rw [hm] at hx; cases hx
      | ok t => rw [hm] at hx; cases hx; rfl
  refine ⟨h, fun es => ?_⟩
  unfold eLocalFree
  rw [eFree_eq]
  cases hx : hFree slot s with
  | ub => rfl
  | diverge => rfl
  | ok x => simp [failed, h x hx]

theorem calculateError_r {context : Option Nat} {s s' : St w} {r : Int} (h : calculateError context s = .ok (r, s')) : r = -1 := by
  unfold calculateError at h
  cases context with
  | none => cases h; rfl
  | some p =>
    simp only at h
    cases hm : hFree (some p) s with
    | ub => rw [hm] at h; cases h
    | diverge => rw [hm] at h; cases h
    | ok t => rw [hm] at h; cases h; rfl

theorem calculateError_step {context : Option Nat} {s : St w} (es2 : List Err) (h2 : es2 ≠ []) :
    ∃ f : Int × St w → List Err, (∀ x, calculateError context s = .ok x → Errs x.1 (f x)) ∧
      ∀ es, (calculateError context s >>= fun x => .ok (x.1, x.2, es ++ es2)) = calculateError context s >>= fun x => .ok (x.1, x.2, es ++ f x) :=
  ⟨fun _ => es2, fun x hx => .inr ⟨calculateError_r (r := x.1) (s' := x.2) hx, h2⟩, fun _ => rfl⟩

/-- `calculate` with error output. -/
theorem eCalculate_eq (A : Alg w) (u : Bool) (env : Env w) (buffer : Option Nat) (size : Nat) (hash : Option Nat) (hashSize : Nat) (s : St w) :
    ∃ f : Int × St w → List Err, (∀ x, calculate A u env buffer size hash hashSize s = .ok x → Errs x.1 (f x)) ∧
      ∀ es, eCalculate A u env buffer size hash hashSize s es = calculate A u env buffer size hash hashSize s >>= fun x => .ok (x.1, x.2, es ++ f x) := by
  unfold eCalculate calculate
  obtain ⟨f1, g1, e1⟩ := eLocalInit_eq A env none s
  simp only [e1]
  cases h1 : hInitialize A env none s with
  | ub => exact ⟨fun _ => [], by rintro _ ⟨⟩, fun es => rfl⟩
  | diverge => exact ⟨fun _ => [], by rintro _ ⟨⟩, fun es => rfl⟩
  | ok x =>
    have g1 := g1 x h1
    obtain ⟨r, context, s⟩ := x
    simp only [Res.ok_bind]
    rcases g1 with ⟨k1, k2⟩ | ⟨k1, k2⟩
    on_goal 2 =>
      change r = _ at k1
      subst k1
      rw [if_pos (by decide)]
      simp only [if_pos (show ((-1 : Int) ≠ 1) from by decide)]
      exact calculateError_step _ k2
    change r = _ at k1
    subst k1
    simp only [k2, ne_eq, not_true_eq_false, if_false, List.append_nil]
    obtain ⟨f2, g2, e2⟩ := eUpdate_eq A u env context (region s buffer size) size s
    simp only [e2]
    cases h2 : hUpdate A u env context (region s buffer size) size s with
    | ub => exact ⟨fun _ => [], by rintro _ ⟨⟩, fun es => rfl⟩
    | diverge => exact ⟨fun _ => [], by rintro _ ⟨⟩, fun es => rfl⟩
    | ok x =>
      have g2 := failedErrs_errs .rtSetFailed (g2 x h2)
      obtain ⟨r, s⟩ := x
      simp only [Res.ok_bind, failed_eq]
      rcases g2 with ⟨k1, k2⟩ | ⟨k1, k2⟩
      on_goal 2 =>
        change r = _ at k1
        subst k1
        simp only [show ¬ ((-1 : Int) = 1) from by decide, not_false_eq_true, if_true]
        exact calculateError_step _ k2
      change r = _ at k1
      subst k1
      simp only [k2, ne_eq, not_true_eq_false, if_false, List.append_nil]
      obtain ⟨f3, g3, e3⟩ := eFinalize_eq A u env context (region s hash hashSize) hashSize s
      simp only [e3]
      cases h3 : hFinalize A u env context (region s hash hashSize) hashSize s with
      | ub => exact ⟨fun _ => [], by rintro _ ⟨⟩, fun es => rfl⟩
      | diverge => exact ⟨fun _ => [], by rintro _ ⟨⟩, fun es => rfl⟩
      | ok x =>
        have g3 := failedErrs_errs .rtFinalizeFailed (g3 x h3)
        obtain ⟨r, h, s⟩ := x
        simp only [Res.ok_bind, failed_eq]
        rcases g3 with ⟨k1, k2⟩ | ⟨k1, k2⟩
        on_goal 2 =>
          change r = _ at k1
          subst k1
          simp only [show ¬ ((-1 : Int) = 1) from by decide, not_false_eq_true, if_true]
          exact calculateError_step _ k2
        change r = _ at k1
        subst k1
        simp only [k2, ne_eq, not_true_eq_false, if_false, List.append_nil]
        obtain ⟨g4, e4⟩ := eLocalFree_eq context (setRegion s hash h)
        simp only [e4]
        cases h4 : hFree context (setRegion s hash h) with
        | ub => exact ⟨fun _ => [], by rintro _ ⟨⟩, fun es => rfl⟩
        | diverge => exact ⟨fun _ => [], by rintro _ ⟨⟩, fun es => rfl⟩
        | ok x =>
          have g4 := g4 x h4
          obtain ⟨r, context, s⟩ := x
          simp only at g4
          subst g4
          exact ⟨fun _ => [], by rintro _ ⟨⟩; exact .inl ⟨rfl, rfl⟩, fun es => by simp⟩

/-- The errors of a part of `calculate_hmac`. -/
def BErrs (b : Bool) (es : List Err) : Prop := (b = true ∧ es = []) ∨ (b = false ∧ es ≠ [])

theorem eHmacPads_exact (A : Alg w) (env : Env w) (l : Loc) (s : St w) (es : List Err) :
    eHmacPads A env l s es = hmacPads A env l s >>= fun x => .ok (x.1, x.2.1, x.2.2, es ++ if x.1 = true then [] else [.memInsufficient]) := by
  unfold eHmacPads hmacPads
  obtain ⟨p, s1⟩ := allocBytes env A.hmacBlockSize s
  cases p with
  | none => rfl
  | some p =>
    simp only [Res.bind_assoc]
    refine congrArg _ (funext fun d => congrArg _ (funext fun d => congrArg _ (funext fun s2 => ?_)))
    obtain ⟨q, s3⟩ := allocBytes env A.hmacBlockSize s2
    cases q with
    | none => rfl
    | some q => simp only [Res.bind_assoc, Res.pure_eq, Res.ok_bind, if_true, List.append_nil]

theorem eHmacPads_eq (A : Alg w) (env : Env w) (l : Loc) (s : St w) :
    ∃ f : Bool × Loc × St w → List Err, (∀ x, hmacPads A env l s = .ok x → BErrs x.1 (f x)) ∧
      ∀ es, eHmacPads A env l s es = hmacPads A env l s >>= fun x => .ok (x.1, x.2.1, x.2.2, es ++ f x) := by
  refine ⟨fun x => if x.1 = true then [] else [.memInsufficient], fun x _ => ?_, fun es => eHmacPads_exact A env l s es⟩
  obtain ⟨b, l, s⟩ := x
  cases b
  · exact .inr ⟨rfl, by simp⟩
  · exact .inl ⟨rfl, rfl⟩

theorem eHmacKey_eq (A : Alg w) (u : Bool) (env : Env w) (key : Option Nat) (keySize : Nat) (l : Loc) (s : St w) :
    ∃ f : Bool × Loc × St w → List Err, (∀ x, hmacKey A u env key keySize l s = .ok x → BErrs x.1 (f x)) ∧
      ∀ es, eHmacKey A u env key keySize l s es = hmacKey A u env key keySize l s >>= fun x => .ok (x.1, x.2.1, x.2.2, es ++ f x) := by
  unfold eHmacKey hmacKey
  obtain ⟨p, s⟩ := allocBytes env A.hmacBlockSize s
  cases p with
  | none => exact ⟨fun _ => [.memInsufficient], by rintro _ ⟨⟩; exact .inr ⟨rfl, by simp⟩, fun es => rfl⟩
  | some p =>
    simp only
    by_cases hk : keySize ≤ A.hmacBlockSize
    · simp only [hk, if_true]
      cases hg : region s key keySize with
      | none => exact ⟨fun _ => [], by rintro _ ⟨⟩, fun es => rfl⟩
      | some k =>
        simp only
        cases h1 : loadBytes (some p) s with
        | ub => exact ⟨fun _ => [], by rintro _ ⟨⟩, fun es => rfl⟩
        | diverge => exact ⟨fun _ => [], by rintro _ ⟨⟩, fun es => rfl⟩
        | ok d =>
          simp only [Res.ok_bind]
          cases h2 : memCopy d 0 k 0 keySize with
          | ub => exact ⟨fun _ => [], by rintro _ ⟨⟩, fun es => rfl⟩
          | diverge => exact ⟨fun _ => [], by rintro _ ⟨⟩, fun es => rfl⟩
          | ok d =>
            simp only [Res.ok_bind]
            cases h3 : memSet d keySize 0 (szSub A.hmacBlockSize keySize) with
            | ub => exact ⟨fun _ => [], by rintro _ ⟨⟩, fun es => rfl⟩
            | diverge => exact ⟨fun _ => [], by rintro _ ⟨⟩, fun es => rfl⟩
            | ok d => exact ⟨fun _ => [], by rintro _ ⟨⟩; exact .inl ⟨rfl, rfl⟩, fun es => by simp [storeBytes]⟩
    · simp only [hk, if_false]
      obtain ⟨f1, g1, e1⟩ := eLocalInit_eq A env l.context s
      simp only [e1]
      cases h1 : hInitialize A env l.context s with
      | ub => exact ⟨fun _ => [], by rintro _ ⟨⟩, fun es => rfl⟩
      | diverge => exact ⟨fun _ => [], by rintro _ ⟨⟩, fun es => rfl⟩
      | ok x =>
        have g1 := g1 x h1
        obtain ⟨r, context, s⟩ := x
        simp only [Res.ok_bind]
        rcases g1 with ⟨k1, k2⟩ | ⟨k1, k2⟩
        on_goal 2 =>
          change r = _ at k1
          subst k1
          exact ⟨fun _ => f1 (-1, context, s), by rintro _ ⟨⟩; exact .inr ⟨rfl, k2⟩, fun es => rfl⟩
        change r = _ at k1
        subst k1
        simp only [k2, ne_eq, not_true_eq_false, if_false, List.append_nil]
        obtain ⟨f2, g2, e2⟩ := eUpdate_eq A u env context (region s key keySize) keySize s
        simp only [e2]
        cases h2 : hUpdate A u env context (region s key keySize) keySize s with
        | ub => exact ⟨fun _ => [], by rintro _ ⟨⟩, fun es => rfl⟩
        | diverge => exact ⟨fun _ => [], by rintro _ ⟨⟩, fun es => rfl⟩
        | ok x =>
          have g2 := failedErrs_errs .rtSetFailed (g2 x h2)
          obtain ⟨r, s⟩ := x
          simp only [Res.ok_bind, failed_eq]
          rcases g2 with ⟨k1, k2⟩ | ⟨k1, k2⟩
          on_goal 2 =>
            change r = _ at k1
            subst k1
            exact ⟨fun _ => failedErrs (-1) .rtSetFailed (f2 (-1, s)), by rintro _ ⟨⟩; exact .inr ⟨rfl, k2⟩, fun es => rfl⟩
          change r = _ at k1
          subst k1
          simp only [k2, ne_eq, not_true_eq_false, if_false, List.append_nil]
          obtain ⟨f3, g3, e3⟩ := eFinalize_eq A u env context (some l.keyHash) A.hashSize s
          simp only [e3]
          cases h3 : hFinalize A u env context (some l.keyHash) A.hashSize s with
          | ub => exact ⟨fun _ => [], by rintro _ ⟨⟩, fun es => rfl⟩
          | diverge => exact ⟨fun _ => [], by rintro _ ⟨⟩, fun es => rfl⟩
          | ok x =>
            have g3 := failedErrs_errs .rtFinalizeFailed (g3 x h3)
            obtain ⟨r, h, s⟩ := x
            simp only [Res.ok_bind, failed_eq]
            cases h with
            | none => exact ⟨fun _ => [], by rintro _ ⟨⟩, fun es => rfl⟩
            | some h =>
              simp only
              rcases g3 with ⟨k1, k2⟩ | ⟨k1, k2⟩
              on_goal 2 =>
                change r = _ at k1
                subst k1
                exact ⟨fun _ => failedErrs (-1) .rtFinalizeFailed (f3 (-1, some h, s)), by rintro _ ⟨⟩; exact .inr ⟨rfl, k2⟩, fun es => rfl⟩
              change r = _ at k1
              subst k1
              simp only [k2, ne_eq, not_true_eq_false, if_false, List.append_nil]
              obtain ⟨g4, e4⟩ := eLocalFree_eq context s
              simp only [e4]
              cases h4 : hFree context s with
              | ub => exact ⟨fun _ => [], by rintro _ ⟨⟩, fun es => rfl⟩
              | diverge => exact ⟨fun _ => [], by rintro _ ⟨⟩, fun es => rfl⟩
              | ok x =>
                have g4 := g4 x h4
                obtain ⟨r, context, s⟩ := x
                change r = _ at g4
                subst g4
                simp only [Res.ok_bind, not_true_eq_false, if_false]
                cases h1 : loadBytes (some p) s with
                | ub => exact ⟨fun _ => [], by rintro _ ⟨⟩, fun es => rfl⟩
                | diverge => exact ⟨fun _ => [], by rintro _ ⟨⟩, fun es => rfl⟩
                | ok d =>
                  simp only [Res.ok_bind]
                  by_cases hb : A.hashSize < A.hmacBlockSize
                  · simp only [hb, if_true]
                    cases h5 : memSet d A.hashSize 0 (szSub A.hmacBlockSize A.hashSize) with
                    | ub => exact ⟨fun _ => [], by rintro _ ⟨⟩, fun es => rfl⟩
                    | diverge => exact ⟨fun _ => [], by rintro _ ⟨⟩, fun es => rfl⟩
                    | ok d =>
                      simp only [Res.ok_bind]
                      cases h6 : memCopy d 0 h 0 A.hashSize with
                      | ub => exact ⟨fun _ => [], by rintro _ ⟨⟩, fun es => rfl⟩
                      | diverge => exact ⟨fun _ => [], by rintro _ ⟨⟩, fun es => rfl⟩
                      | ok d => exact ⟨fun _ => [], by rintro _ ⟨⟩; exact .inl ⟨rfl, rfl⟩, fun es => by simp [storeBytes]⟩
                  · simp only [hb, if_false, Res.pure_eq, Res.ok_bind]
                    cases h6 : memCopy d 0 h 0 A.hashSize with
                    | ub => exact ⟨fun _ => [], by rintro _ ⟨⟩, fun es => rfl⟩
                    | diverge => exact ⟨fun _ => [], by rintro _ ⟨⟩, fun es => rfl⟩
                    | ok d => exact ⟨fun _ => [], by rintro _ ⟨⟩; exact .inl ⟨rfl, rfl⟩, fun es => by simp [storeBytes]⟩

theorem eHmacPass_eq (A : Alg w) (u : Bool) (env : Env w) (padding buffer : Option Nat) (size : Nat) (hmac : Option Nat) (hmacSize : Nat) (l : Loc) (s : St w) :
    ∃ f : Bool × Loc × St w → List Err, (∀ x, hmacPass A u env padding buffer size hmac hmacSize l s = .ok x → BErrs x.1 (f x)) ∧
      ∀ es, eHmacPass A u env padding buffer size hmac hmacSize l s es =
        hmacPass A u env padding buffer size hmac hmacSize l s >>= fun x => .ok (x.1, x.2.1, x.2.2, es ++ f x) := by
  unfold eHmacPass hmacPass
  obtain ⟨f1, g1, e1⟩ := eLocalInit_eq A env l.context s
  simp only [e1]
  cases h1 : hInitialize A env l.context s with
  | ub => exact ⟨fun _ => [], by rintro _ ⟨⟩, fun es => rfl⟩
  | diverge => exact ⟨fun _ => [], by rintro _ ⟨⟩, fun es => rfl⟩
  | ok x =>
    have g1 := g1 x h1
    obtain ⟨r, context, s⟩ := x
    simp only [Res.ok_bind]
    rcases g1 with ⟨k1, k2⟩ | ⟨k1, k2⟩
    on_goal 2 =>
      change r = _ at k1
      subst k1
      exact ⟨fun _ => f1 (-1, context, s), by rintro _ ⟨⟩; exact .inr ⟨rfl, k2⟩, fun es => rfl⟩
    change r = _ at k1
    subst k1
    simp only [k2, ne_eq, not_true_eq_false, if_false, List.append_nil]
    cases hd : loadBytes padding s with
    | ub => exact ⟨fun _ => [], by rintro _ ⟨⟩, fun es => rfl⟩
    | diverge => exact ⟨fun _ => [], by rintro _ ⟨⟩, fun es => rfl⟩
    | ok d =>
      simp only [Res.ok_bind]
      obtain ⟨f2, g2, e2⟩ := eUpdate_eq A u env context (some d) A.hmacBlockSize s
      simp only [e2]
      cases h2 : hUpdate A u env context (some d) A.hmacBlockSize s with
      | ub => exact ⟨fun _ => [], by rintro _ ⟨⟩, fun es => rfl⟩
      | diverge => exact ⟨fun _ => [], by rintro _ ⟨⟩, fun es => rfl⟩
      | ok x =>
        have g2 := failedErrs_errs .rtSetFailed (g2 x h2)
        obtain ⟨r, s⟩ := x
        simp only [Res.ok_bind, failed_eq]
        rcases g2 with ⟨k1, k2⟩ | ⟨k1, k2⟩
        on_goal 2 =>
          change r = _ at k1
          subst k1
          exact ⟨fun _ => failedErrs (-1) .rtSetFailed (f2 (-1, s)), by rintro _ ⟨⟩; exact .inr ⟨rfl, k2⟩, fun es => rfl⟩
        change r = _ at k1
        subst k1
        simp only [k2, ne_eq, not_true_eq_false, if_false, List.append_nil]
        obtain ⟨f3, g3, e3⟩ := eUpdate_eq A u env context (region s buffer size) size s
        simp only [e3]
        cases h3 : hUpdate A u env context (region s buffer size) size s with
        | ub => exact ⟨fun _ => [], by rintro _ ⟨⟩, fun es => rfl⟩
        | diverge => exact ⟨fun _ => [], by rintro _ ⟨⟩, fun es => rfl⟩
        | ok x =>
          have g3 := failedErrs_errs .rtSetFailed (g3 x h3)
          obtain ⟨r, s⟩ := x
          simp only [Res.ok_bind, failed_eq]
          rcases g3 with ⟨k1, k2⟩ | ⟨k1, k2⟩
          on_goal 2 =>
            change r = _ at k1
            subst k1
            exact ⟨fun _ => failedErrs (-1) .rtSetFailed (f3 (-1, s)), by rintro _ ⟨⟩; exact .inr ⟨rfl, k2⟩, fun es => rfl⟩
          change r = _ at k1
          subst k1
          simp only [k2, ne_eq, not_true_eq_false, if_false, List.append_nil]
          obtain ⟨f4, g4, e4⟩ := eFinalize_eq A u env context (region s hmac hmacSize) hmacSize s
          simp only [e4]
          cases h4 : hFinalize A u env context (region s hmac hmacSize) hmacSize s with
          | ub => exact ⟨fun _ => [], by rintro _ ⟨⟩, fun es => rfl⟩
          | diverge => exact ⟨fun _ => [], by rintro _ ⟨⟩, fun es => rfl⟩
          | ok x =>
            have g4 := failedErrs_errs .rtFinalizeFailed (g4 x h4)
            obtain ⟨r, h, s⟩ := x
            simp only [Res.ok_bind, failed_eq]
            rcases g4 with ⟨k1, k2⟩ | ⟨k1, k2⟩
            on_goal 2 =>
              change r = _ at k1
              subst k1
              exact ⟨fun _ => failedErrs (-1) .rtFinalizeFailed (f4 (-1, h, s)), by rintro _ ⟨⟩; exact .inr ⟨rfl, k2⟩, fun es => rfl⟩
            change r = _ at k1
            subst k1
            simp only [k2, ne_eq, not_true_eq_false, if_false, List.append_nil]
            obtain ⟨g5, e5⟩ := eLocalFree_eq context (setRegion s hmac h)
            simp only [e5]
            cases h5 : hFree context (setRegion s hmac h) with
            | ub => exact ⟨fun _ => [], by rintro _ ⟨⟩, fun es => rfl⟩
            | diverge => exact ⟨fun _ => [], by rintro _ ⟨⟩, fun es => rfl⟩
            | ok x =>
              have g5 := g5 x h5
              obtain ⟨r, context, s⟩ := x
              change r = _ at g5
              subst g5
              exact ⟨fun _ => [], by rintro _ ⟨⟩; exact .inl ⟨rfl, rfl⟩, fun es => by simp⟩

theorem hmacError_r {l : Loc} {s : St w} {x : Int × Loc × St w} (h : hmacError A l s = .ok x) : x.1 = -1 := by
  unfold hmacError at h
  cases h1 : freeOpt l.context s with
  | ub => rw [h1] at h; cases h
  | diverge => rw [h1] at h; cases h
  | ok s1 =>
    rw [h1, Res.ok_bind] at h
    cases h2 : wipeFreeOpt A l.outer s1 with
    | ub => rw [h2] at h; cases h
    | diverge => rw [h2] at h; cases h
    | ok s2 =>
      rw [h2, Res.ok_bind] at h
      cases h3 : wipeFreeOpt A l.inner s2 with
      | ub => rw [h3] at h; cases h
      | diverge => rw [h3] at h; cases h
      | ok s3 =>
        rw [h3, Res.ok_bind] at h
        cases h4 : wipeFreeOpt A l.keyData s3 with
        | ub => rw [h4] at h; cases h
        | diverge => rw [h4] at h; cases h
        | ok s4 => rw [h4] at h; cases h; rfl

theorem hmacError_step {l : Loc} {s : St w} (es2 : List Err) (h2 : es2 ≠ []) :
    ∃ f : Int × Loc × St w → List Err, (∀ x, hmacError A l s = .ok x → Errs x.1 (f x)) ∧
      ∀ es, (hmacError A l s >>= fun x => .ok (x.1, x.2.1, x.2.2, es ++ es2)) = hmacError A l s >>= fun x => .ok (x.1, x.2.1, x.2.2, es ++ f x) :=
  ⟨fun _ => es2, fun _ hx => .inr ⟨hmacError_r hx, h2⟩, fun _ => rfl⟩

/-- `calculate_hmac` with error output. -/
theorem eCalculateHmac_eq (A : Alg w) (u : Bool) (env : Env w) (kh : List Byte) (key : Option Nat) (keySize : Nat) (buffer : Option Nat) (size : Nat) (hmac : Option Nat) (hmacSize : Nat) (s : St w) :
    ∃ f : Int × Loc × St w → List Err, (∀ x, calculateHmac A u env kh key keySize buffer size hmac hmacSize s = .ok x → Errs x.1 (f x)) ∧
      ∀ es, eCalculateHmac A u env kh key keySize buffer size hmac hmacSize s es =
        calculateHmac A u env kh key keySize buffer size hmac hmacSize s >>= fun x => .ok (x.1, x.2.1, x.2.2, es ++ f x) := by
  unfold eCalculateHmac calculateHmac hmacRest
  cases key with
  | none => exact ⟨fun _ => [.argInvalid], by rintro _ ⟨⟩; exact .inr ⟨rfl, by simp⟩, fun es => rfl⟩
  | some k =>
    simp only
    by_cases hs : ssizeMax < keySize
    · simp only [hs, if_true]
      exact ⟨fun _ => [.argExceeds], by rintro _ ⟨⟩; exact .inr ⟨rfl, by simp⟩, fun es => rfl⟩
    by_cases hn : hmacSize < A.hashSize
    · simp only [hs, hn, if_true, if_false]
      exact ⟨fun _ => [.argTooSmall], by rintro _ ⟨⟩; exact .inr ⟨rfl, by simp⟩, fun es => rfl⟩
    simp only [hs, hn, if_false]
    obtain ⟨f1, g1, e1⟩ := eHmacKey_eq A u env (some k) keySize ⟨none, none, none, none, kh⟩ s
    simp only [e1]
    cases h1 : hmacKey A u env (some k) keySize ⟨none, none, none, none, kh⟩ s with
    | ub => exact ⟨fun _ => [], by rintro _ ⟨⟩, fun es => rfl⟩
    | diverge => exact ⟨fun _ => [], by rintro _ ⟨⟩, fun es => rfl⟩
    | ok x =>
      have g1 := g1 x h1
      obtain ⟨b, l, s⟩ := x
      simp only [Res.ok_bind]
      rcases g1 with ⟨k1, k2⟩ | ⟨k1, k2⟩
      on_goal 2 =>
        change b = _ at k1
        subst k1
        exact hmacError_step _ k2
      change b = _ at k1
      subst k1
      simp only [k2, Bool.not_true, Bool.false_eq_true, if_false, List.append_nil]
      obtain ⟨f2, g2, e2⟩ := eHmacPads_eq A env l s
      simp only [e2]
      cases h2 : hmacPads A env l s with
      | ub => exact ⟨fun _ => [], by rintro _ ⟨⟩, fun es => rfl⟩
      | diverge => exact ⟨fun _ => [], by rintro _ ⟨⟩, fun es => rfl⟩
      | ok x =>
        have g2 := g2 x h2
        obtain ⟨b, l, s⟩ := x
        simp only [Res.ok_bind]
        rcases g2 with ⟨k1, k2⟩ | ⟨k1, k2⟩
        on_goal 2 =>
          change b = _ at k1
          subst k1
          exact hmacError_step _ k2
        change b = _ at k1
        subst k1
        simp only [k2, Bool.not_true, Bool.false_eq_true, if_false, List.append_nil]
        obtain ⟨f3, g3, e3⟩ := eHmacPass_eq A u env l.inner buffer size hmac hmacSize l s
        simp only [e3]
        cases h3 : hmacPass A u env l.inner buffer size hmac hmacSize l s with
        | ub => exact ⟨fun _ => [], by rintro _ ⟨⟩, fun es => rfl⟩
        | diverge => exact ⟨fun _ => [], by rintro _ ⟨⟩, fun es => rfl⟩
        | ok x =>
          have g3 := g3 x h3
          obtain ⟨b, l, s⟩ := x
          simp only [Res.ok_bind]
          rcases g3 with ⟨k1, k2⟩ | ⟨k1, k2⟩
          on_goal 2 =>
            change b = _ at k1
            subst k1
            exact hmacError_step _ k2
          change b = _ at k1
          subst k1
          simp only [k2, Bool.not_true, Bool.false_eq_true, if_false, List.append_nil]
          obtain ⟨f4, g4, e4⟩ := eHmacPass_eq A u env l.outer hmac A.hashSize hmac hmacSize l s
          simp only [e4]
          cases h4 : hmacPass A u env l.outer hmac A.hashSize hmac hmacSize l s with
          | ub => exact ⟨fun _ => [], by rintro _ ⟨⟩, fun es => rfl⟩
          | diverge => exact ⟨fun _ => [], by rintro _ ⟨⟩, fun es => rfl⟩
          | ok x =>
            have g4 := g4 x h4
            obtain ⟨b, l, s⟩ := x
            simp only [Res.ok_bind]
            rcases g4 with ⟨k1, k2⟩ | ⟨k1, k2⟩
            on_goal 2 =>
              change b = _ at k1
              subst k1
              exact hmacError_step _ k2
            change b = _ at k1
            subst k1
            simp only [k2, Bool.not_true, Bool.false_eq_true, if_false, List.append_nil]
            cases w1 : wipeFree A l.outer s with
            | ub => exact ⟨fun _ => [], by rintro _ ⟨⟩, fun es => rfl⟩
            | diverge => exact ⟨fun _ => [], by rintro _ ⟨⟩, fun es => rfl⟩
            | ok s =>
              simp only [Res.ok_bind]
              cases w2 : wipeFree A l.inner s with
              | ub => exact ⟨fun _ => [], by rintro _ ⟨⟩, fun es => rfl⟩
              | diverge => exact ⟨fun _ => [], by rintro _ ⟨⟩, fun es => rfl⟩
              | ok s =>
                simp only [Res.ok_bind]
                cases w3 : wipeFree A l.keyData s with
                | ub => exact ⟨fun _ => [], by rintro _ ⟨⟩, fun es => rfl⟩
                | diverge => exact ⟨fun _ => [], by rintro _ ⟨⟩, fun es => rfl⟩
                | ok s => exact ⟨fun _ => [], by rintro _ ⟨⟩; exact .inl ⟨rfl, rfl⟩, fun es => by simp⟩

end Model
