import Verif.Model.Notes
import Verif.Proofs.Errors
/-! The functions with messages: their other behaviour is that of the functions without, and which messages they record. Written after Proofs/Errors. -/

set_option linter.unusedSimpArgs false

namespace Model

open Spec (IterHash slice overwrite AreaOk Err Note Fn Txt)

variable {w : Nat} {A : Alg w} {H : IterHash w} {enc : Nat → List Byte}

/-- The messages of the transform. -/
def transformNotes (c : Option (Ctx w)) (b : Option (List Byte)) (size : Nat) : List Note :=
  if c = none then [⟨.transform, .argInvalid, .invalidInternal⟩] else if b = none then [⟨.transform, .argInvalid, .invalidBuffer⟩]
  else if ssizeMax < size then [⟨.transform, .argExceeds, .sizeExceeds⟩] else []

theorem nTransform_eq (A : Alg w) (u : Bool) (scr : Scr w) (c : Option (Ctx w)) (b : Option (List Byte)) (size : Nat) (ns : List Note) :
    nTransform A u scr c b size ns = transform A u scr c b size >>= fun x => .ok (x.1, x.2.1, x.2.2, ns ++ transformNotes c b size) := by
  unfold nTransform transform transformNotes
  cases c with
  | none => simp
  | some c =>
    cases b with
    | none => simp
    | some b =>
      by_cases h : ssizeMax < size
      · simp [h]
      · simp only [h, if_false, Res.bind_assoc, reduceCtorEq, List.append_nil]
        rfl

theorem transform_nat_notes {A : Alg w} {u : Bool} {scr : Scr w} {c c' : Option (Ctx w)} {b : Option (List Byte)} {size : Nat} {n : Int} {scr' : Scr w}
    (h : transform A u scr c b size = .ok (n, c', scr')) : n = -1 ↔ transformNotes c b size ≠ [] := by
  unfold transform at h
  unfold transformNotes
  cases c with
  | none => simp_all
  | some c =>
    cases b with
    | none =>
      simp only [Res.ok.injEq, Prod.mk.injEq] at h
      simp [← h.1]
    | some b =>
      by_cases hs : ssizeMax < size
      · simp only [hs, if_true, Res.ok.injEq, Prod.mk.injEq] at h
        simp [hs, ← h.1]
      · simp only [hs, if_false] at h
        simp only [hs, if_false, reduceCtorEq, not_true_eq_false, iff_false, ne_eq]
        cases hl : transformLoop A u b (size + 1) size 0 c.hashValues scr with
        | ub => rw [hl] at h; cases h
        | diverge => rw [hl] at h; cases h
        | ok x =>
          rw [hl, Res.ok_bind] at h
          cases h1 : memSet x.2.2.hv 0 0 A.wipeHv with
          | ub => simp only [h1] at h; cases h
          | diverge => simp only [h1] at h; cases h
          | ok y =>
            simp only [h1, Res.ok_bind] at h
            cases h2 : memSet x.2.2.vals 0 0 A.wipeVals with
            | ub => simp only [h2] at h; cases h
            | diverge => simp only [h2] at h; cases h
            | ok z =>
              simp only [h2, Res.ok_bind, Res.pure_eq, Res.ok.injEq, Prod.mk.injEq] at h
              omega

/-- The last message is of the function `fn`. -/
def Named (fn : Fn) (ns : List Note) : Prop := ns.getLast?.map (·.fn) = some fn

theorem Named.ne {fn : Fn} {ns : List Note} (h : Named fn ns) : ns ≠ [] := by
  rintro rfl
  cases h

/-- The messages of a call of `fn`, given its result. -/
def NErrs (fn : Fn) (r : Int) (ns : List Note) : Prop := (r = 1 ∧ ns = []) ∨ (r = -1 ∧ Named fn ns)

theorem nUpdateFill_eq (A : Alg w) (u : Bool) (scr : Scr w) (c : Ctx w) (b : List Byte) (size : Nat) :
    ∃ f : Int × Ctx w × Option (Nat × Nat) → List Note, (∀ x, updateFill A u scr c b size = .ok x → NErrs .ctxUpdate x.1 (f x) ∧ (x.2.2 ≠ none → x.1 = 1)) ∧
      ∀ ns, nUpdateFill A u scr c b size ns = updateFill A u scr c b size >>= fun x => .ok (x.1, x.2.1, x.2.2, ns ++ f x) := by
  unfold nUpdateFill updateFill
  by_cases h0 : 0 < c.blockOffset
  · simp only [h0, if_true]
    by_cases h1 : A.blockSize ≤ c.blockOffset
    · simp only [h1, if_true]
      exact ⟨fun _ => [⟨.ctxUpdate, .rtOutOfBounds, .offsetOut⟩], by rintro _ ⟨⟩; exact ⟨.inr ⟨rfl, by simp [Named]⟩, by simp⟩, fun ns => rfl⟩
    · simp only [h1, if_false]
      cases hm : memCopy c.block c.blockOffset b 0 (if size < szSub A.blockSize c.blockOffset then size else szSub A.blockSize c.blockOffset) with
      | ub => exact ⟨fun _ => [], by rintro _ ⟨⟩, fun ns => rfl⟩
      | diverge => exact ⟨fun _ => [], by rintro _ ⟨⟩, fun ns => rfl⟩
      | ok blk =>
        simp only [Res.ok_bind]
        generalize hc2 : Ctx.mk c.hashCount c.hashValues (c.blockOffset + if size < szSub A.blockSize c.blockOffset then size else szSub A.blockSize c.blockOffset) blk = c2
        by_cases h2 : c2.blockOffset < A.blockSize
        · have h2' := h2
          rw [← hc2] at h2'
          simp only at h2'
          simp only [h2', if_true]
          exact ⟨fun _ => [], by rintro _ ⟨⟩; exact ⟨.inl ⟨rfl, rfl⟩, by simp⟩, fun ns => by simp⟩
        · have h2' := h2
          rw [← hc2] at h2'
          simp only at h2'
          simp only [h2', if_false, nTransform_eq]
          have hb : c2.block = blk := by rw [← hc2]
          cases ht : transform A u scr (some c2) (some blk) A.blockSize with
          | ub => exact ⟨fun _ => [], by rintro _ ⟨⟩, fun ns => rfl⟩
          | diverge => exact ⟨fun _ => [], by rintro _ ⟨⟩, fun ns => rfl⟩
          | ok x =>
            obtain ⟨n, c', scr'⟩ := x
            simp only [Res.ok_bind]
            cases c' with
            | none => exact ⟨fun _ => [], by rintro _ ⟨⟩, fun ns => rfl⟩
            | some c' =>
              have hn := transform_nat_notes ht
              simp only
              by_cases hm1 : n = -1
              · simp only [hm1, if_true]
                exact ⟨fun _ => transformNotes (some c2) (some blk) A.blockSize ++ [⟨.ctxUpdate, .rtSetFailed, .transformBlock⟩], by rintro _ ⟨⟩; exact ⟨.inr ⟨rfl, by simp [Named]⟩, by simp⟩, fun ns => by simp⟩
              · simp only [hm1, if_false]
                refine ⟨fun _ => [], by rintro _ ⟨⟩; exact ⟨.inl ⟨rfl, rfl⟩, by simp⟩, fun ns => ?_⟩
                have : transformNotes (some c2) (some blk) A.blockSize = [] := by
                  by_contra hne
                  exact hm1 (hn.mpr hne)
                simp [this]
  · simp only [h0, if_false]
    exact ⟨fun _ => [], by rintro _ ⟨⟩; exact ⟨.inl ⟨rfl, rfl⟩, by simp⟩, fun ns => by simp⟩

theorem nUpdateBulk_eq (A : Alg w) (u : Bool) (scr : Scr w) (c : Ctx w) (b : List Byte) (o size : Nat) :
    ∃ f : Int × Ctx w × Nat × Nat → List Note, (∀ x, updateBulk A u scr c b o size = .ok x → NErrs .ctxUpdate x.1 (f x)) ∧
      ∀ ns, nUpdateBulk A u scr c b o size ns = updateBulk A u scr c b o size >>= fun x => .ok (x.1, x.2.1, x.2.2.1, x.2.2.2, ns ++ f x) := by
  unfold nUpdateBulk updateBulk
  by_cases h0 : 0 < size
  · simp only [h0, if_true]
    cases hp : ptrAt b o with
    | ub => exact ⟨fun _ => [], by rintro _ ⟨⟩, fun ns => rfl⟩
    | diverge => exact ⟨fun _ => [], by rintro _ ⟨⟩, fun ns => rfl⟩
    | ok p =>
      simp only [Res.ok_bind, nTransform_eq]
      cases ht : transform A u scr (some c) (some p) size with
      | ub => exact ⟨fun _ => [], by rintro _ ⟨⟩, fun ns => rfl⟩
      | diverge => exact ⟨fun _ => [], by rintro _ ⟨⟩, fun ns => rfl⟩
      | ok x =>
        obtain ⟨n, c', scr'⟩ := x
        simp only [Res.ok_bind]
        cases c' with
        | none => exact ⟨fun _ => [], by rintro _ ⟨⟩, fun ns => rfl⟩
        | some c' =>
          have hn := transform_nat_notes ht
          simp only
          by_cases hm1 : n = -1
          · simp only [hm1, if_true]
            exact ⟨fun _ => transformNotes (some c) (some p) size ++ [⟨.ctxUpdate, .rtSetFailed, .transformBuffer⟩], by rintro _ ⟨⟩; exact .inr ⟨rfl, by simp [Named]⟩, fun ns => by simp⟩
          · simp only [hm1, if_false]
            refine ⟨fun _ => [], by rintro _ ⟨⟩; exact .inl ⟨rfl, rfl⟩, fun ns => ?_⟩
            have : transformNotes (some c) (some p) size = [] := by
              by_contra hne
              exact hm1 (hn.mpr hne)
            simp [this]
  · simp only [h0, if_false]
    exact ⟨fun _ => [], by rintro _ ⟨⟩; exact .inl ⟨rfl, rfl⟩, fun ns => by simp⟩

theorem nUpdateTail_eq (A : Alg w) (c : Ctx w) (b : List Byte) (o size : Nat) :
    ∃ f : Int × Ctx w → List Note, (∀ x, updateTail A c b o size = .ok x → NErrs .ctxUpdate x.1 (f x)) ∧
      ∀ ns, nUpdateTail A c b o size ns = updateTail A c b o size >>= fun x => .ok (x.1, x.2, ns ++ f x) := by
  unfold nUpdateTail updateTail
  by_cases h0 : 0 < size
  · simp only [h0, if_true]
    by_cases h1 : A.blockSize ≤ size
    · simp only [h1, if_true]
      exact ⟨fun _ => [⟨.ctxUpdate, .rtOutOfBounds, .sizeOut⟩], by rintro _ ⟨⟩; exact .inr ⟨rfl, by simp [Named]⟩, fun ns => rfl⟩
    · simp only [h1, if_false]
      refine ⟨fun _ => [], ?_, fun ns => ?_⟩
      · intro x hx
        cases hm : memCopy c.block 0 b o size with
        | ub => rw [hm] at hx; cases hx
        | diverge => rw [hm] at hx; cases hx
        | ok blk => rw [hm] at hx; cases hx; exact .inl ⟨rfl, rfl⟩
      · rw [Res.bind_assoc]
        simp
  · simp only [h0, if_false]
    exact ⟨fun _ => [], by rintro _ ⟨⟩; exact .inl ⟨rfl, rfl⟩, fun ns => by simp⟩

/-- `update` with messages: the rest of its behaviour, and that the last message is its own if it fails. -/
theorem nCtxUpdate_eq (A : Alg w) (u : Bool) (scr : Scr w) (c : Option (Ctx w)) (b : Option (List Byte)) (size : Nat) :
    ∃ f : Int × Option (Ctx w) → List Note, (∀ x, ctxUpdate A u scr c b size = .ok x → NErrs .ctxUpdate x.1 (f x)) ∧
      ∀ ns, nCtxUpdate A u scr c b size ns = ctxUpdate A u scr c b size >>= fun x => .ok (x.1, x.2, ns ++ f x) := by
  unfold nCtxUpdate ctxUpdate
  cases c with
  | none => exact ⟨fun _ => [⟨.ctxUpdate, .argInvalid, .invalidContext⟩], by rintro _ ⟨⟩; exact .inr ⟨rfl, by simp [Named]⟩, fun ns => rfl⟩
  | some c =>
    cases b with
    | none => exact ⟨fun _ => [⟨.ctxUpdate, .argInvalid, .invalidBuffer⟩], by rintro _ ⟨⟩; exact .inr ⟨rfl, by simp [Named]⟩, fun ns => rfl⟩
    | some b =>
      simp only
      by_cases hs : ssizeMax < size
      · simp only [hs, if_true]
        exact ⟨fun _ => [⟨.ctxUpdate, .argExceeds, .sizeExceeds⟩], by rintro _ ⟨⟩; exact .inr ⟨rfl, by simp [Named]⟩, fun ns => rfl⟩
      · simp only [hs, if_false]
        by_cases h0 : size = 0
        · simp only [h0, if_true]
          exact ⟨fun _ => [], by rintro _ ⟨⟩; exact .inl ⟨rfl, rfl⟩, fun ns => by simp⟩
        · simp only [h0, if_false]
          obtain ⟨f1, g1, e1⟩ := nUpdateFill_eq A u scr c b size
          simp only [e1]
          cases hf : updateFill A u scr c b size with
          | ub => exact ⟨fun _ => [], by rintro _ ⟨⟩, fun ns => rfl⟩
          | diverge => exact ⟨fun _ => [], by rintro _ ⟨⟩, fun ns => rfl⟩
          | ok x =>
            obtain ⟨g1, g1'⟩ := g1 x hf
            obtain ⟨r, c, next⟩ := x
            simp only [Res.ok_bind]
            cases next with
            | none => exact ⟨fun _ => f1 (r, c, none), by rintro _ ⟨⟩; exact g1, fun ns => rfl⟩
            | some p =>
              obtain ⟨o, sz⟩ := p
              have hr : r = 1 := g1' (by simp)
              have hf1 : f1 (r, c, some (o, sz)) = [] := by
                rcases g1 with ⟨-, h⟩ | ⟨h, -⟩
                · exact h
                · simp only at h; omega
              simp only [hf1, List.append_nil]
              obtain ⟨f2, g2, e2⟩ := nUpdateBulk_eq A u scr c b o sz
              simp only [e2]
              cases hb : updateBulk A u scr c b o sz with
              | ub => exact ⟨fun _ => [], by rintro _ ⟨⟩, fun ns => rfl⟩
              | diverge => exact ⟨fun _ => [], by rintro _ ⟨⟩, fun ns => rfl⟩
              | ok y =>
                have g2 := g2 y hb
                obtain ⟨r2, c2, o2, sz2⟩ := y
                simp only [Res.ok_bind]
                by_cases hr2 : r2 = -1
                · simp only [hr2, if_true]
                  refine ⟨fun _ => f2 (-1, c2, o2, sz2), ?_, fun ns => rfl⟩
                  rintro _ ⟨⟩
                  rw [hr2] at g2
                  exact g2
                · simp only [hr2, if_false]
                  have hf2 : f2 (r2, c2, o2, sz2) = [] := by
                    rcases g2 with ⟨-, h⟩ | ⟨h, -⟩
                    · exact h
                    · exact (hr2 h).elim
                  simp only [hf2, List.append_nil]
                  obtain ⟨f3, g3, e3⟩ := nUpdateTail_eq A c2 b o2 sz2
                  simp only [e3]
                  cases ht : updateTail A c2 b o2 sz2 with
                  | ub => exact ⟨fun _ => [], by rintro _ ⟨⟩, fun ns => rfl⟩
                  | diverge => exact ⟨fun _ => [], by rintro _ ⟨⟩, fun ns => rfl⟩
                  | ok z => exact ⟨fun _ => f3 z, by rintro _ ⟨⟩; exact g3 z ht, fun ns => rfl⟩

/-- `finalize` with messages: the rest of its behaviour, and that the last message is its own if it fails. -/
theorem nCtxFinalize_eq (A : Alg w) (u : Bool) (scr : Scr w) (c : Option (Ctx w)) (o : Option (List Byte)) (size : Nat) :
    ∃ f : Int × Option (Ctx w) × Option (List Byte) → List Note, (∀ x, ctxFinalize A u scr c o size = .ok x → NErrs .ctxFinalize x.1 (f x)) ∧
      ∀ ns, nCtxFinalize A u scr c o size ns = ctxFinalize A u scr c o size >>= fun x => .ok (x.1, x.2.1, x.2.2, ns ++ f x) := by
  unfold nCtxFinalize ctxFinalize
  cases c with
  | none => exact ⟨fun _ => [⟨.ctxFinalize, .argInvalid, .invalidContext⟩], by rintro _ ⟨⟩; exact .inr ⟨rfl, by simp [Named]⟩, fun ns => rfl⟩
  | some c =>
    cases o with
    | none => exact ⟨fun _ => [⟨.ctxFinalize, .argInvalid, .invalidHash⟩], by rintro _ ⟨⟩; exact .inr ⟨rfl, by simp [Named]⟩, fun ns => rfl⟩
    | some o =>
      simp only
      by_cases h1 : size < A.hashSize
      · simp only [h1, if_true]
        exact ⟨fun _ => [⟨.ctxFinalize, .argTooSmall, .hashTooSmall⟩], by rintro _ ⟨⟩; exact .inr ⟨rfl, by simp [Named]⟩, fun ns => rfl⟩
      · by_cases h2 : ssizeMax < size
        · simp only [h1, h2, if_false, if_true]
          exact ⟨fun _ => [⟨.ctxFinalize, .argExceeds, .hashExceeds⟩], by rintro _ ⟨⟩; exact .inr ⟨rfl, by simp [Named]⟩, fun ns => rfl⟩
        · simp only [h1, h2, if_false, nTransform_eq]
          generalize (if A.padLimit < c.blockOffset then 1 + 1 else 1) * A.blockSize = bs
          cases hm : memSet c.block c.blockOffset 0 (szSub bs c.blockOffset) with
          | ub => exact ⟨fun _ => [], by rintro _ ⟨⟩, fun ns => rfl⟩
          | diverge => exact ⟨fun _ => [], by rintro _ ⟨⟩, fun ns => rfl⟩
          | ok blk =>
            simp only [Res.ok_bind]
            cases hw : wr blk c.blockOffset (0x80 : Byte) with
            | ub => exact ⟨fun _ => [], by rintro _ ⟨⟩, fun ns => rfl⟩
            | diverge => exact ⟨fun _ => [], by rintro _ ⟨⟩, fun ns => rfl⟩
            | ok blk =>
              simp only [Res.ok_bind]
              cases hst : runStore A.lenProg blk (bs - 8) ((c.hashCount + BitVec.ofNat 64 c.blockOffset) * 8) with
              | ub => exact ⟨fun _ => [], by rintro _ ⟨⟩, fun ns => rfl⟩
              | diverge => exact ⟨fun _ => [], by rintro _ ⟨⟩, fun ns => rfl⟩
              | ok blk =>
                simp only [Res.ok_bind]
                generalize Ctx.mk c.hashCount c.hashValues c.blockOffset blk = c2
                cases ht : transform A u scr (some c2) (some blk) bs with
                | ub => exact ⟨fun _ => [], by rintro _ ⟨⟩, fun ns => rfl⟩
                | diverge => exact ⟨fun _ => [], by rintro _ ⟨⟩, fun ns => rfl⟩
                | ok x =>
                  obtain ⟨n, c', scr'⟩ := x
                  simp only [Res.ok_bind]
                  cases c' with
                  | none => exact ⟨fun _ => [], by rintro _ ⟨⟩, fun ns => rfl⟩
                  | some c' =>
                    have hn := transform_nat_notes ht
                    simp only
                    by_cases hm1 : n = -1
                    · simp only [hm1, if_true]
                      exact ⟨fun _ => transformNotes (some c2) (some blk) bs ++ [⟨.ctxFinalize, .rtSetFailed, .transformBlock⟩], by rintro _ ⟨⟩; exact .inr ⟨rfl, by simp [Named]⟩, fun ns => by simp⟩
                    · simp only [hm1, if_false]
                      have : transformNotes (some c2) (some blk) bs = [] := by
                        by_contra hne
                        exact hm1 (hn.mpr hne)
                      simp only [this, List.append_nil]
                      cases hh : storeHash A u c'.hashValues o with
                      | ub => exact ⟨fun _ => [], by rintro _ ⟨⟩, fun ns => rfl⟩
                      | diverge => exact ⟨fun _ => [], by rintro _ ⟨⟩, fun ns => rfl⟩
                      | ok h => exact ⟨fun _ => [], by rintro _ ⟨⟩; exact .inl ⟨rfl, rfl⟩, fun ns => by simp⟩

theorem nErrs_one {fn : Fn} {r : Int} {ns : List Note} (h : NErrs fn r ns) (hr : r = 1) : ns = [] := by
  rcases h with ⟨-, h⟩ | ⟨h, -⟩
  · exact h
  · omega

theorem nUpdate_eq (A : Alg w) (u : Bool) (env : Env w) (slot : Option Nat) (b : Option (List Byte)) (size : Nat) (s : St w) :
    ∃ f : Int × St w → List Note, (∀ x, hUpdate A u env slot b size s = .ok x → NErrs .ctxUpdate x.1 (f x)) ∧
      ∀ ns, nUpdate A u env slot b size s ns = hUpdate A u env slot b size s >>= fun x => .ok (x.1, x.2, ns ++ f x) := by
  unfold nUpdate hUpdate
  cases slot with
  | none => exact ⟨fun _ => [⟨.ctxUpdate, .argInvalid, .invalidContext⟩], by rintro _ ⟨⟩; exact .inr ⟨rfl, by simp [Named]⟩, fun ns => rfl⟩
  | some p =>
    simp only
    cases hg : getKey p s.live with
    | none => exact ⟨fun _ => [], by rintro _ ⟨⟩, fun ns => rfl⟩
    | some o =>
      cases o with
      | bytes d => exact ⟨fun _ => [], by rintro _ ⟨⟩, fun ns => rfl⟩
      | ctx c =>
        obtain ⟨f, g, e⟩ := nCtxUpdate_eq A u env.scr (some c) b size
        simp only [e]
        cases hx : ctxUpdate A u env.scr (some c) b size with
        | ub => exact ⟨fun _ => [], by rintro _ ⟨⟩, fun ns => rfl⟩
        | diverge => exact ⟨fun _ => [], by rintro _ ⟨⟩, fun ns => rfl⟩
        | ok x =>
          obtain ⟨r, c'⟩ := x
          cases c' with
          | none => exact ⟨fun _ => [], by rintro _ ⟨⟩, fun ns => rfl⟩
          | some c' => exact ⟨fun _ => f (r, some c'), by rintro _ ⟨⟩; exact g _ hx, fun ns => rfl⟩

theorem nFinalize_eq (A : Alg w) (u : Bool) (env : Env w) (slot : Option Nat) (o : Option (List Byte)) (size : Nat) (s : St w) :
    ∃ f : Int × Option (List Byte) × St w → List Note, (∀ x, hFinalize A u env slot o size s = .ok x → NErrs .ctxFinalize x.1 (f x)) ∧
      ∀ ns, nFinalize A u env slot o size s ns = hFinalize A u env slot o size s >>= fun x => .ok (x.1, x.2.1, x.2.2, ns ++ f x) := by
  unfold nFinalize hFinalize
  cases slot with
  | none => exact ⟨fun _ => [⟨.ctxFinalize, .argInvalid, .invalidContext⟩], by rintro _ ⟨⟩; exact .inr ⟨rfl, by simp [Named]⟩, fun ns => rfl⟩
  | some p =>
    simp only
    cases hg : getKey p s.live with
    | none => exact ⟨fun _ => [], by rintro _ ⟨⟩, fun ns => rfl⟩
    | some ob =>
      cases ob with
      | bytes d => exact ⟨fun _ => [], by rintro _ ⟨⟩, fun ns => rfl⟩
      | ctx c =>
        obtain ⟨f, g, e⟩ := nCtxFinalize_eq A u env.scr (some c) o size
        simp only [e]
        cases hx : ctxFinalize A u env.scr (some c) o size with
        | ub => exact ⟨fun _ => [], by rintro _ ⟨⟩, fun ns => rfl⟩
        | diverge => exact ⟨fun _ => [], by rintro _ ⟨⟩, fun ns => rfl⟩
        | ok x =>
          obtain ⟨r, c', h⟩ := x
          cases c' with
          | none => exact ⟨fun _ => [], by rintro _ ⟨⟩, fun ns => rfl⟩
          | some c' => exact ⟨fun _ => f (r, some c', h), by rintro _ ⟨⟩; exact g _ hx, fun ns => rfl⟩

theorem nInitialize_eq (A : Alg w) (env : Env w) (slot : Option Nat) (s : St w) :
    ∃ f : Int × Option Nat × St w → List Note, (∀ x, hInitialize A env slot s = .ok x → NErrs .ctxInitialize x.1 (f x)) ∧
      ∀ ns, nInitialize A env (some slot) s ns = hInitialize A env slot s >>= fun x => .ok (x.1, some x.2.1, x.2.2, ns ++ f x) := by
  unfold nInitialize hInitialize ctxInitialize
  cases slot with
  | some p => exact ⟨fun _ => [⟨.ctxInitialize, .rtAlreadySet, .alreadySet⟩], by rintro _ ⟨⟩; exact .inr ⟨rfl, by simp [Named]⟩, fun ns => rfl⟩
  | none =>
    simp only
    by_cases h : env.allocOk s.count = true
    · simp only [h, if_true]
      cases hm : memCopy (zeroCtx A).hashValues 0 A.iv 0 A.nHash with
      | ub => exact ⟨fun _ => [], by rintro _ ⟨⟩, fun ns => rfl⟩
      | diverge => exact ⟨fun _ => [], by rintro _ ⟨⟩, fun ns => rfl⟩
      | ok hv => exact ⟨fun _ => [], by rintro _ ⟨⟩; exact .inl ⟨rfl, rfl⟩, fun ns => by simp⟩
    · simp only [h, if_false]
      exact ⟨fun _ => [⟨.ctxInitialize, .memInsufficient, .createContext⟩], by rintro _ ⟨⟩; exact .inr ⟨rfl, by simp [Named]⟩, fun ns => rfl⟩

theorem nFree_eq (slot : Option Nat) (s : St w) (ns : List Note) :
    nFree (some slot) s ns = hFree slot s >>= fun x => .ok (x.1, some x.2.1, x.2.2, ns) := by
  unfold nFree hFree
  cases slot with
  | none => rfl
  | some p => simp only [Res.bind_assoc]; rfl

/-- The errors of a noteFailed call with the one of the caller. -/
def failedNotes (r : Int) (e : Note) (ns : List Note) : List Note := if r ≠ 1 then ns ++ [e] else ns

theorem noteFailed_eq (r : Int) (e : Note) (ns ns' : List Note) : noteFailed r e (ns ++ ns') = ns ++ failedNotes r e ns' := by
  unfold noteFailed failedNotes
  split <;> simp

theorem failedNotes_errs {fn : Fn} {r : Int} {ns : List Note} (e : Note) (h : NErrs fn r ns) : NErrs e.fn r (failedNotes r e ns) := by
  rcases h with ⟨rfl, rfl⟩ | ⟨rfl, h⟩
  · exact .inl ⟨rfl, by simp [failedNotes]⟩
  · exact .inr ⟨rfl, by simp [failedNotes, Named]⟩

theorem nLocalInit_eq (fn : Fn) (A : Alg w) (env : Env w) (slot : Option Nat) (s : St w) :
    ∃ f : Int × Option Nat × St w → List Note, (∀ x, hInitialize A env slot s = .ok x → NErrs fn x.1 (f x)) ∧
      ∀ ns, nLocalInit fn A env slot s ns = hInitialize A env slot s >>= fun x => .ok (x.1, x.2.1, x.2.2, ns ++ f x) := by
  obtain ⟨f, g, e⟩ := nInitialize_eq A env slot s
  refine ⟨fun x => failedNotes x.1 ⟨fn, .rtInitializeFailed, .initialize⟩ (f x), fun x hx => failedNotes_errs _ (g x hx), fun ns => ?_⟩
  unfold nLocalInit
  rw [e]
  cases hInitialize A env slot s with
  | ub => rfl
  | diverge => rfl
  | ok x => simp [noteFailed_eq]

theorem nLocalFree_eq (fn : Fn) (slot : Option Nat) (s : St w) :
    (∀ x, hFree slot s = .ok x → x.1 = 1) ∧ ∀ ns, nLocalFree fn slot s ns = hFree slot s >>= fun x => .ok (x.1, x.2.1, x.2.2, ns) := by
  have h : ∀ x, hFree slot s = .ok x → x.1 = 1 := by
    intro x hx
    unfold hFree at hx
    cases slot with
    | none => cases hx; rfl
    | some p =>
      simp only at hx
      cases hm : memFree p s with
      | ub => rw [hm] at hx; cases hx
      | diverge => rw [hm] at hx; cases hx
      | ok t => rw [hm] at hx; cases hx; rfl
  refine ⟨h, fun ns => ?_⟩
  unfold nLocalFree
  rw [nFree_eq]
  cases hx : hFree slot s with
  | ub => rfl
  | diverge => rfl
  | ok x => simp [noteFailed, h x hx]

theorem nCalculateError_step {fn : Fn} {context : Option Nat} {s : St w} (ns2 : List Note) (h2 : Named fn ns2) :
    ∃ f : Int × St w → List Note, (∀ x, calculateError context s = .ok x → NErrs fn x.1 (f x)) ∧
      ∀ ns, (calculateError context s >>= fun x => .ok (x.1, x.2, ns ++ ns2)) = calculateError context s >>= fun x => .ok (x.1, x.2, ns ++ f x) :=
  ⟨fun _ => ns2, fun x hx => .inr ⟨calculateError_r (r := x.1) (s' := x.2) hx, h2⟩, fun _ => rfl⟩

/-- `calculate` with messages. -/
theorem nCalculate_eq (A : Alg w) (u : Bool) (env : Env w) (buffer : Option Nat) (size : Nat) (hash : Option Nat) (hashSize : Nat) (s : St w) :
    ∃ f : Int × St w → List Note, (∀ x, calculate A u env buffer size hash hashSize s = .ok x → NErrs .calculate x.1 (f x)) ∧
      ∀ ns, nCalculate A u env buffer size hash hashSize s ns = calculate A u env buffer size hash hashSize s >>= fun x => .ok (x.1, x.2, ns ++ f x) := by
  unfold nCalculate calculate
  obtain ⟨f1, g1, e1⟩ := nLocalInit_eq .calculate A env none s
  simp only [e1]
  cases h1 : hInitialize A env none s with
  | ub => exact ⟨fun _ => [], by rintro _ ⟨⟩, fun ns => rfl⟩
  | diverge => exact ⟨fun _ => [], by rintro _ ⟨⟩, fun ns => rfl⟩
  | ok x =>
    have g1 := g1 x h1
    obtain ⟨r, context, s⟩ := x
    simp only [Res.ok_bind]
    rcases g1 with ⟨k1, k2⟩ | ⟨k1, k2⟩
    on_goal 2 =>
      change r = _ at k1
      subst k1
      rw [if_pos (by decide)]
      simp only [if_pos (show ((-1 : Int) ≠ 1) from by decide)]
      exact nCalculateError_step _ k2
    change r = _ at k1
    subst k1
    simp only [k2, ne_eq, not_true_eq_false, if_false, List.append_nil]
    obtain ⟨f2, g2, e2⟩ := nUpdate_eq A u env context (region s buffer size) size s
    simp only [e2]
    cases h2 : hUpdate A u env context (region s buffer size) size s with
    | ub => exact ⟨fun _ => [], by rintro _ ⟨⟩, fun ns => rfl⟩
    | diverge => exact ⟨fun _ => [], by rintro _ ⟨⟩, fun ns => rfl⟩
    | ok x =>
      have g2 := failedNotes_errs ⟨.calculate, .rtSetFailed, .update⟩ (g2 x h2)
      obtain ⟨r, s⟩ := x
      simp only [Res.ok_bind, noteFailed_eq]
      rcases g2 with ⟨k1, k2⟩ | ⟨k1, k2⟩
      on_goal 2 =>
        change r = _ at k1
        subst k1
        simp only [show ¬ ((-1 : Int) = 1) from by decide, not_false_eq_true, if_true]
        exact nCalculateError_step _ k2
      change r = _ at k1
      subst k1
      simp only [k2, ne_eq, not_true_eq_false, if_false, List.append_nil]
      obtain ⟨f3, g3, e3⟩ := nFinalize_eq A u env context (region s hash hashSize) hashSize s
      simp only [e3]
      cases h3 : hFinalize A u env context (region s hash hashSize) hashSize s with
      | ub => exact ⟨fun _ => [], by rintro _ ⟨⟩, fun ns => rfl⟩
      | diverge => exact ⟨fun _ => [], by rintro _ ⟨⟩, fun ns => rfl⟩
      | ok x =>
        have g3 := failedNotes_errs ⟨.calculate, .rtFinalizeFailed, .finalize⟩ (g3 x h3)
        obtain ⟨r, h, s⟩ := x
        simp only [Res.ok_bind, noteFailed_eq]
        rcases g3 with ⟨k1, k2⟩ | ⟨k1, k2⟩
        on_goal 2 =>
          change r = _ at k1
          subst k1
          simp only [show ¬ ((-1 : Int) = 1) from by decide, not_false_eq_true, if_true]
          exact nCalculateError_step _ k2
        change r = _ at k1
        subst k1
        simp only [k2, ne_eq, not_true_eq_false, if_false, List.append_nil]
        obtain ⟨g4, e4⟩ := nLocalFree_eq .calculate context (setRegion s hash h)
        simp only [e4]
        cases h4 : hFree context (setRegion s hash h) with
        | ub => exact ⟨fun _ => [], by rintro _ ⟨⟩, fun ns => rfl⟩
        | diverge => exact ⟨fun _ => [], by rintro _ ⟨⟩, fun ns => rfl⟩
        | ok x =>
          have g4 := g4 x h4
          obtain ⟨r, context, s⟩ := x
          simp only at g4
          subst g4
          exact ⟨fun _ => [], by rintro _ ⟨⟩; exact .inl ⟨rfl, rfl⟩, fun ns => by simp⟩

/-- The messages of a part of `calculate_hmac`. -/
def NBErrs (fn : Fn) (b : Bool) (ns : List Note) : Prop := (b = true ∧ ns = []) ∨ (b = false ∧ Named fn ns)

/-- The messages of the paddings. -/
def padNotes (ok : Bool) (l : Loc) : List Note :=
  if ok = true then [] else if l.inner = none then [⟨.calculateHmac, .memInsufficient, .createInner⟩] else [⟨.calculateHmac, .memInsufficient, .createOuter⟩]

theorem nHmacPads_exact (A : Alg w) (env : Env w) (l : Loc) (s : St w) (ns : List Note) :
    nHmacPads A env l s ns = hmacPads A env l s >>= fun x => .ok (x.1, x.2.1, x.2.2, ns ++ padNotes x.1 x.2.1) := by
  unfold nHmacPads hmacPads
  obtain ⟨p, s1⟩ := allocBytes env A.hmacBlockSize s
  cases p with
  | none => rfl
  | some p =>
    simp only [Res.bind_assoc]
    refine congrArg _ (funext fun d => congrArg _ (funext fun d => congrArg _ (funext fun s2 => ?_)))
    obtain ⟨q, s3⟩ := allocBytes env A.hmacBlockSize s2
    cases q with
    | none => simp only [Res.pure_eq, Res.ok_bind, padNotes]; rfl
    | some q => simp only [Res.bind_assoc, Res.pure_eq, Res.ok_bind, padNotes, if_true, List.append_nil]

theorem nHmacPads_eq (A : Alg w) (env : Env w) (l : Loc) (s : St w) :
    ∃ f : Bool × Loc × St w → List Note, (∀ x, hmacPads A env l s = .ok x → NBErrs .calculateHmac x.1 (f x)) ∧
      ∀ ns, nHmacPads A env l s ns = hmacPads A env l s >>= fun x => .ok (x.1, x.2.1, x.2.2, ns ++ f x) := by
  refine ⟨fun x => padNotes x.1 x.2.1, fun x _ => ?_, fun ns => nHmacPads_exact A env l s ns⟩
  obtain ⟨b, l, s⟩ := x
  cases b
  · refine .inr ⟨rfl, ?_⟩
    simp only [padNotes, Bool.false_eq_true, if_false]
    split <;> simp [Named]
  · exact .inl ⟨rfl, rfl⟩

theorem nHmacKey_eq (A : Alg w) (u : Bool) (env : Env w) (key : Option Nat) (keySize : Nat) (l : Loc) (s : St w) :
    ∃ f : Bool × Loc × St w → List Note, (∀ x, hmacKey A u env key keySize l s = .ok x → NBErrs .calculateHmac x.1 (f x)) ∧
      ∀ ns, nHmacKey A u env key keySize l s ns = hmacKey A u env key keySize l s >>= fun x => .ok (x.1, x.2.1, x.2.2, ns ++ f x) := by
  unfold nHmacKey hmacKey
  obtain ⟨p, s⟩ := allocBytes env A.hmacBlockSize s
  cases p with
  | none => exact ⟨fun _ => [⟨.calculateHmac, .memInsufficient, .createKey⟩], by rintro _ ⟨⟩; exact .inr ⟨rfl, by simp [Named]⟩, fun ns => rfl⟩
  | some p =>
    simp only
    by_cases hk : keySize ≤ A.hmacBlockSize
    · simp only [hk, if_true]
      cases hg : region s key keySize with
      | none => exact ⟨fun _ => [], by rintro _ ⟨⟩, fun ns => rfl⟩
      | some k =>
        simp only
        cases h1 : loadBytes (some p) s with
        | ub => exact ⟨fun _ => [], by rintro _ ⟨⟩, fun ns => rfl⟩
        | diverge => exact ⟨fun _ => [], by rintro _ ⟨⟩, fun ns => rfl⟩
        | ok d =>
          simp only [Res.ok_bind]
          cases h2 : memCopy d 0 k 0 keySize with
          | ub => exact ⟨fun _ => [], by rintro _ ⟨⟩, fun ns => rfl⟩
          | diverge => exact ⟨fun _ => [], by rintro _ ⟨⟩, fun ns => rfl⟩
          | ok d =>
            simp only [Res.ok_bind]
            cases h3 : memSet d keySize 0 (szSub A.hmacBlockSize keySize) with
            | ub => exact ⟨fun _ => [], by rintro _ ⟨⟩, fun ns => rfl⟩
            | diverge => exact ⟨fun _ => [], by rintro _ ⟨⟩, fun ns => rfl⟩
            | ok d => exact ⟨fun _ => [], by rintro _ ⟨⟩; exact .inl ⟨rfl, rfl⟩, fun ns => by simp [storeBytes]⟩
    · simp only [hk, if_false]
      obtain ⟨f1, g1, e1⟩ := nLocalInit_eq .calculateHmac A env l.context s
      simp only [e1]
      cases h1 : hInitialize A env l.context s with
      | ub => exact ⟨fun _ => [], by rintro _ ⟨⟩, fun ns => rfl⟩
      | diverge => exact ⟨fun _ => [], by rintro _ ⟨⟩, fun ns => rfl⟩
      | ok x =>
        have g1 := g1 x h1
        obtain ⟨r, context, s⟩ := x
        simp only [Res.ok_bind]
        rcases g1 with ⟨k1, k2⟩ | ⟨k1, k2⟩
        on_goal 2 =>
          change r = _ at k1
          subst k1
          exact ⟨fun _ => f1 (-1, context, s), by rintro _ ⟨⟩; exact .inr ⟨rfl, k2⟩, fun ns => rfl⟩
        change r = _ at k1
        subst k1
        simp only [k2, ne_eq, not_true_eq_false, if_false, List.append_nil]
        obtain ⟨f2, g2, e2⟩ := nUpdate_eq A u env context (region s key keySize) keySize s
        simp only [e2]
        cases h2 : hUpdate A u env context (region s key keySize) keySize s with
        | ub => exact ⟨fun _ => [], by rintro _ ⟨⟩, fun ns => rfl⟩
        | diverge => exact ⟨fun _ => [], by rintro _ ⟨⟩, fun ns => rfl⟩
        | ok x =>
          have g2 := failedNotes_errs ⟨.calculateHmac, .rtSetFailed, .update⟩ (g2 x h2)
          obtain ⟨r, s⟩ := x
          simp only [Res.ok_bind, noteFailed_eq]
          rcases g2 with ⟨k1, k2⟩ | ⟨k1, k2⟩
          on_goal 2 =>
            change r = _ at k1
            subst k1
            exact ⟨fun _ => failedNotes (-1) ⟨.calculateHmac, .rtSetFailed, .update⟩ (f2 (-1, s)), by rintro _ ⟨⟩; exact .inr ⟨rfl, k2⟩, fun ns => rfl⟩
          change r = _ at k1
          subst k1
          simp only [k2, ne_eq, not_true_eq_false, if_false, List.append_nil]
          obtain ⟨f3, g3, e3⟩ := nFinalize_eq A u env context (some l.keyHash) A.hashSize s
          simp only [e3]
          cases h3 : hFinalize A u env context (some l.keyHash) A.hashSize s with
          | ub => exact ⟨fun _ => [], by rintro _ ⟨⟩, fun ns => rfl⟩
          | diverge => exact ⟨fun _ => [], by rintro _ ⟨⟩, fun ns => rfl⟩
          | ok x =>
            have g3 := failedNotes_errs ⟨.calculateHmac, .rtFinalizeFailed, .finalize⟩ (g3 x h3)
            obtain ⟨r, h, s⟩ := x
            simp only [Res.ok_bind, noteFailed_eq]
            cases h with
            | none => exact ⟨fun _ => [], by rintro _ ⟨⟩, fun ns => rfl⟩
            | some h =>
              simp only
              rcases g3 with ⟨k1, k2⟩ | ⟨k1, k2⟩
              on_goal 2 =>
                change r = _ at k1
                subst k1
                exact ⟨fun _ => failedNotes (-1) ⟨.calculateHmac, .rtFinalizeFailed, .finalize⟩ (f3 (-1, some h, s)), by rintro _ ⟨⟩; exact .inr ⟨rfl, k2⟩, fun ns => rfl⟩
              change r = _ at k1
              subst k1
              simp only [k2, ne_eq, not_true_eq_false, if_false, List.append_nil]
              obtain ⟨g4, e4⟩ := nLocalFree_eq .calculateHmac context s
              simp only [e4]
              cases h4 : hFree context s with
              | ub => exact ⟨fun _ => [], by rintro _ ⟨⟩, fun ns => rfl⟩
              | diverge => exact ⟨fun _ => [], by rintro _ ⟨⟩, fun ns => rfl⟩
              | ok x =>
                have g4 := g4 x h4
                obtain ⟨r, context, s⟩ := x
                change r = _ at g4
                subst g4
                simp only [Res.ok_bind, not_true_eq_false, if_false]
                cases h1 : loadBytes (some p) s with
                | ub => exact ⟨fun _ => [], by rintro _ ⟨⟩, fun ns => rfl⟩
                | diverge => exact ⟨fun _ => [], by rintro _ ⟨⟩, fun ns => rfl⟩
                | ok d =>
                  simp only [Res.ok_bind]
                  by_cases hb : A.hashSize < A.hmacBlockSize
                  · simp only [hb, if_true]
                    cases h5 : memSet d A.hashSize 0 (szSub A.hmacBlockSize A.hashSize) with
                    | ub => exact ⟨fun _ => [], by rintro _ ⟨⟩, fun ns => rfl⟩
                    | diverge => exact ⟨fun _ => [], by rintro _ ⟨⟩, fun ns => rfl⟩
                    | ok d =>
                      simp only [Res.ok_bind]
                      cases h6 : memCopy d 0 h 0 A.hashSize with
                      | ub => exact ⟨fun _ => [], by rintro _ ⟨⟩, fun ns => rfl⟩
                      | diverge => exact ⟨fun _ => [], by rintro _ ⟨⟩, fun ns => rfl⟩
                      | ok d => exact ⟨fun _ => [], by rintro _ ⟨⟩; exact .inl ⟨rfl, rfl⟩, fun ns => by simp [storeBytes]⟩
                  · simp only [hb, if_false, Res.pure_eq, Res.ok_bind]
                    cases h6 : memCopy d 0 h 0 A.hashSize with
                    | ub => exact ⟨fun _ => [], by rintro _ ⟨⟩, fun ns => rfl⟩
                    | diverge => exact ⟨fun _ => [], by rintro _ ⟨⟩, fun ns => rfl⟩
                    | ok d => exact ⟨fun _ => [], by rintro _ ⟨⟩; exact .inl ⟨rfl, rfl⟩, fun ns => by simp [storeBytes]⟩

theorem nHmacPass_eq (A : Alg w) (u : Bool) (env : Env w) (padding buffer : Option Nat) (size : Nat) (hmac : Option Nat) (hmacSize : Nat) (l : Loc) (s : St w) :
    ∃ f : Bool × Loc × St w → List Note, (∀ x, hmacPass A u env padding buffer size hmac hmacSize l s = .ok x → NBErrs .calculateHmac x.1 (f x)) ∧
      ∀ ns, nHmacPass A u env padding buffer size hmac hmacSize l s ns =
        hmacPass A u env padding buffer size hmac hmacSize l s >>= fun x => .ok (x.1, x.2.1, x.2.2, ns ++ f x) := by
  unfold nHmacPass hmacPass
  obtain ⟨f1, g1, e1⟩ := nLocalInit_eq .calculateHmac A env l.context s
  simp only [e1]
  cases h1 : hInitialize A env l.context s with
  | ub => exact ⟨fun _ => [], by rintro _ ⟨⟩, fun ns => rfl⟩
  | diverge => exact ⟨fun _ => [], by rintro _ ⟨⟩, fun ns => rfl⟩
  | ok x =>
    have g1 := g1 x h1
    obtain ⟨r, context, s⟩ := x
    simp only [Res.ok_bind]
    rcases g1 with ⟨k1, k2⟩ | ⟨k1, k2⟩
    on_goal 2 =>
      change r = _ at k1
      subst k1
      exact ⟨fun _ => f1 (-1, context, s), by rintro _ ⟨⟩; exact .inr ⟨rfl, k2⟩, fun ns => rfl⟩
    change r = _ at k1
    subst k1
    simp only [k2, ne_eq, not_true_eq_false, if_false, List.append_nil]
    cases hd : loadBytes padding s with
    | ub => exact ⟨fun _ => [], by rintro _ ⟨⟩, fun ns => rfl⟩
    | diverge => exact ⟨fun _ => [], by rintro _ ⟨⟩, fun ns => rfl⟩
    | ok d =>
      simp only [Res.ok_bind]
      obtain ⟨f2, g2, e2⟩ := nUpdate_eq A u env context (some d) A.hmacBlockSize s
      simp only [e2]
      cases h2 : hUpdate A u env context (some d) A.hmacBlockSize s with
      | ub => exact ⟨fun _ => [], by rintro _ ⟨⟩, fun ns => rfl⟩
      | diverge => exact ⟨fun _ => [], by rintro _ ⟨⟩, fun ns => rfl⟩
      | ok x =>
        have g2 := failedNotes_errs ⟨.calculateHmac, .rtSetFailed, .update⟩ (g2 x h2)
        obtain ⟨r, s⟩ := x
        simp only [Res.ok_bind, noteFailed_eq]
        rcases g2 with ⟨k1, k2⟩ | ⟨k1, k2⟩
        on_goal 2 =>
          change r = _ at k1
          subst k1
          exact ⟨fun _ => failedNotes (-1) ⟨.calculateHmac, .rtSetFailed, .update⟩ (f2 (-1, s)), by rintro _ ⟨⟩; exact .inr ⟨rfl, k2⟩, fun ns => rfl⟩
        change r = _ at k1
        subst k1
        simp only [k2, ne_eq, not_true_eq_false, if_false, List.append_nil]
        obtain ⟨f3, g3, e3⟩ := nUpdate_eq A u env context (region s buffer size) size s
        simp only [e3]
        cases h3 : hUpdate A u env context (region s buffer size) size s with
        | ub => exact ⟨fun _ => [], by rintro _ ⟨⟩, fun ns => rfl⟩
        | diverge => exact ⟨fun _ => [], by rintro _ ⟨⟩, fun ns => rfl⟩
        | ok x =>
          have g3 := failedNotes_errs ⟨.calculateHmac, .rtSetFailed, .update⟩ (g3 x h3)
          obtain ⟨r, s⟩ := x
          simp only [Res.ok_bind, noteFailed_eq]
          rcases g3 with ⟨k1, k2⟩ | ⟨k1, k2⟩
          on_goal 2 =>
            change r = _ at k1
            subst k1
            exact ⟨fun _ => failedNotes (-1) ⟨.calculateHmac, .rtSetFailed, .update⟩ (f3 (-1, s)), by rintro _ ⟨⟩; exact .inr ⟨rfl, k2⟩, fun ns => rfl⟩
          change r = _ at k1
          subst k1
          simp only [k2, ne_eq, not_true_eq_false, if_false, List.append_nil]
          obtain ⟨f4, g4, e4⟩ := nFinalize_eq A u env context (region s hmac hmacSize) hmacSize s
          simp only [e4]
          cases h4 : hFinalize A u env context (region s hmac hmacSize) hmacSize s with
          | ub => exact ⟨fun _ => [], by rintro _ ⟨⟩, fun ns => rfl⟩
          | diverge => exact ⟨fun _ => [], by rintro _ ⟨⟩, fun ns => rfl⟩
          | ok x =>
            have g4 := failedNotes_errs ⟨.calculateHmac, .rtFinalizeFailed, .finalize⟩ (g4 x h4)
            obtain ⟨r, h, s⟩ := x
            simp only [Res.ok_bind, noteFailed_eq]
            rcases g4 with ⟨k1, k2⟩ | ⟨k1, k2⟩
            on_goal 2 =>
              change r = _ at k1
              subst k1
              exact ⟨fun _ => failedNotes (-1) ⟨.calculateHmac, .rtFinalizeFailed, .finalize⟩ (f4 (-1, h, s)), by rintro _ ⟨⟩; exact .inr ⟨rfl, k2⟩, fun ns => rfl⟩
            change r = _ at k1
            subst k1
            simp only [k2, ne_eq, not_true_eq_false, if_false, List.append_nil]
            obtain ⟨g5, e5⟩ := nLocalFree_eq .calculateHmac context (setRegion s hmac h)
            simp only [e5]
            cases h5 : hFree context (setRegion s hmac h) with
            | ub => exact ⟨fun _ => [], by rintro _ ⟨⟩, fun ns => rfl⟩
            | diverge => exact ⟨fun _ => [], by rintro _ ⟨⟩, fun ns => rfl⟩
            | ok x =>
              have g5 := g5 x h5
              obtain ⟨r, context, s⟩ := x
              change r = _ at g5
              subst g5
              exact ⟨fun _ => [], by rintro _ ⟨⟩; exact .inl ⟨rfl, rfl⟩, fun ns => by simp⟩

theorem nHmacError_step {fn : Fn} {l : Loc} {s : St w} (ns2 : List Note) (h2 : Named fn ns2) :
    ∃ f : Int × Loc × St w → List Note, (∀ x, hmacError A l s = .ok x → NErrs fn x.1 (f x)) ∧
      ∀ ns, (hmacError A l s >>= fun x => .ok (x.1, x.2.1, x.2.2, ns ++ ns2)) = hmacError A l s >>= fun x => .ok (x.1, x.2.1, x.2.2, ns ++ f x) :=
  ⟨fun _ => ns2, fun _ hx => .inr ⟨hmacError_r hx, h2⟩, fun _ => rfl⟩

/-- `calculate_hmac` with messages. -/
theorem nCalculateHmac_eq (A : Alg w) (u : Bool) (env : Env w) (kh : List Byte) (key : Option Nat) (keySize : Nat) (buffer : Option Nat) (size : Nat) (hmac : Option Nat) (hmacSize : Nat) (s : St w) :
    ∃ f : Int × Loc × St w → List Note, (∀ x, calculateHmac A u env kh key keySize buffer size hmac hmacSize s = .ok x → NErrs .calculateHmac x.1 (f x)) ∧
      ∀ ns, nCalculateHmac A u env kh key keySize buffer size hmac hmacSize s ns =
        calculateHmac A u env kh key keySize buffer size hmac hmacSize s >>= fun x => .ok (x.1, x.2.1, x.2.2, ns ++ f x) := by
  unfold nCalculateHmac calculateHmac hmacRest
  cases key with
  | none => exact ⟨fun _ => [⟨.calculateHmac, .argInvalid, .invalidKey⟩], by rintro _ ⟨⟩; exact .inr ⟨rfl, by simp [Named]⟩, fun ns => rfl⟩
  | some k =>
    simp only
    by_cases hs : ssizeMax < keySize
    · simp only [hs, if_true]
      exact ⟨fun _ => [⟨.calculateHmac, .argExceeds, .keyExceeds⟩], by rintro _ ⟨⟩; exact .inr ⟨rfl, by simp [Named]⟩, fun ns => rfl⟩
    by_cases hn : hmacSize < A.hashSize
    · simp only [hs, hn, if_true, if_false]
      exact ⟨fun _ => [⟨.calculateHmac, .argTooSmall, .hmacTooSmall⟩], by rintro _ ⟨⟩; exact .inr ⟨rfl, by simp [Named]⟩, fun ns => rfl⟩
    simp only [hs, hn, if_false]
    obtain ⟨f1, g1, e1⟩ := nHmacKey_eq A u env (some k) keySize ⟨none, none, none, none, kh⟩ s
    simp only [e1]
    cases h1 : hmacKey A u env (some k) keySize ⟨none, none, none, none, kh⟩ s with
    | ub => exact ⟨fun _ => [], by rintro _ ⟨⟩, fun ns => rfl⟩
    | diverge => exact ⟨fun _ => [], by rintro _ ⟨⟩, fun ns => rfl⟩
    | ok x =>
      have g1 := g1 x h1
      obtain ⟨b, l, s⟩ := x
      simp only [Res.ok_bind]
      rcases g1 with ⟨k1, k2⟩ | ⟨k1, k2⟩
      on_goal 2 =>
        change b = _ at k1
        subst k1
        exact nHmacError_step _ k2
      change b = _ at k1
      subst k1
      simp only [k2, Bool.not_true, Bool.false_eq_true, if_false, List.append_nil]
      obtain ⟨f2, g2, e2⟩ := nHmacPads_eq A env l s
      simp only [e2]
      cases h2 : hmacPads A env l s with
      | ub => exact ⟨fun _ => [], by rintro _ ⟨⟩, fun ns => rfl⟩
      | diverge => exact ⟨fun _ => [], by rintro _ ⟨⟩, fun ns => rfl⟩
      | ok x =>
        have g2 := g2 x h2
        obtain ⟨b, l, s⟩ := x
        simp only [Res.ok_bind]
        rcases g2 with ⟨k1, k2⟩ | ⟨k1, k2⟩
        on_goal 2 =>
          change b = _ at k1
          subst k1
          exact nHmacError_step _ k2
        change b = _ at k1
        subst k1
        simp only [k2, Bool.not_true, Bool.false_eq_true, if_false, List.append_nil]
        obtain ⟨f3, g3, e3⟩ := nHmacPass_eq A u env l.inner buffer size hmac hmacSize l s
        simp only [e3]
        cases h3 : hmacPass A u env l.inner buffer size hmac hmacSize l s with
        | ub => exact ⟨fun _ => [], by rintro _ ⟨⟩, fun ns => rfl⟩
        | diverge => exact ⟨fun _ => [], by rintro _ ⟨⟩, fun ns => rfl⟩
        | ok x =>
          have g3 := g3 x h3
          obtain ⟨b, l, s⟩ := x
          simp only [Res.ok_bind]
          rcases g3 with ⟨k1, k2⟩ | ⟨k1, k2⟩
          on_goal 2 =>
            change b = _ at k1
            subst k1
            exact nHmacError_step _ k2
          change b = _ at k1
          subst k1
          simp only [k2, Bool.not_true, Bool.false_eq_true, if_false, List.append_nil]
          obtain ⟨f4, g4, e4⟩ := nHmacPass_eq A u env l.outer hmac A.hashSize hmac hmacSize l s
          simp only [e4]
          cases h4 : hmacPass A u env l.outer hmac A.hashSize hmac hmacSize l s with
          | ub => exact ⟨fun _ => [], by rintro _ ⟨⟩, fun ns => rfl⟩
          | diverge => exact ⟨fun _ => [], by rintro _ ⟨⟩, fun ns => rfl⟩
          | ok x =>
            have g4 := g4 x h4
            obtain ⟨b, l, s⟩ := x
            simp only [Res.ok_bind]
            rcases g4 with ⟨k1, k2⟩ | ⟨k1, k2⟩
            on_goal 2 =>
              change b = _ at k1
              subst k1
              exact nHmacError_step _ k2
            change b = _ at k1
            subst k1
            simp only [k2, Bool.not_true, Bool.false_eq_true, if_false, List.append_nil]
            cases w1 : wipeFree A l.outer s with
            | ub => exact ⟨fun _ => [], by rintro _ ⟨⟩, fun ns => rfl⟩
            | diverge => exact ⟨fun _ => [], by rintro _ ⟨⟩, fun ns => rfl⟩
            | ok s =>
              simp only [Res.ok_bind]
              cases w2 : wipeFree A l.inner s with
              | ub => exact ⟨fun _ => [], by rintro _ ⟨⟩, fun ns => rfl⟩
              | diverge => exact ⟨fun _ => [], by rintro _ ⟨⟩, fun ns => rfl⟩
              | ok s =>
                simp only [Res.ok_bind]
                cases w3 : wipeFree A l.keyData s with
                | ub => exact ⟨fun _ => [], by rintro _ ⟨⟩, fun ns => rfl⟩
                | diverge => exact ⟨fun _ => [], by rintro _ ⟨⟩, fun ns => rfl⟩
                | ok s => exact ⟨fun _ => [], by rintro _ ⟨⟩; exact .inl ⟨rfl, rfl⟩, fun ns => by simp⟩

end Model
