import Verif.Model.Deprecated
/-! The context functions return 1 or -1, in every state and for all arguments. -/

namespace Model

variable {w : Nat} {α β : Type}

/-- If the outcome is a return, its result code is 1 or -1. -/
def Codes (x : Res (Int × α)) : Prop := ∀ r a, x = .ok (r, a) → r = 1 ∨ r = -1

theorem Codes.one (a : α) : Codes (.ok (1, a)) := fun r b h => by simp only [Res.ok.injEq, Prod.mk.injEq] at h; exact .inl h.1.symm
theorem Codes.neg (a : α) : Codes (.ok (-1, a)) := fun r b h => by simp only [Res.ok.injEq, Prod.mk.injEq] at h; exact .inr h.1.symm
theorem Codes.ub : Codes (.ub : Res (Int × α)) := fun r b h => by cases h

theorem Codes.bind (x : Res β) (f : β → Res (Int × α)) (h : ∀ b, x = .ok b → Codes (f b)) : Codes (x >>= f) := by
  cases x with
  | ok b => exact h b rfl
  | ub => exact Codes.ub
  | diverge => exact fun r b h => by cases h

theorem ctxInitialize_codes (A : Alg w) (alloc : Option (Ctx w)) (context : Option (Option (Ctx w))) : Codes (ctxInitialize A alloc context) := by
  unfold ctxInitialize
  split
  · exact Codes.neg _
  · exact Codes.neg _
  · split
    · exact Codes.neg _
    · exact Codes.bind _ _ fun _ _ => Codes.one _

theorem updateFill_codes (A : Alg w) (u : Bool) (scr : Scr w) (c : Ctx w) (b : List Byte) (size : Nat) : Codes (updateFill A u scr c b size) := by
  unfold updateFill
  split
  · split
    · exact Codes.neg _
    · refine Codes.bind _ _ fun blk _ => ?_
      dsimp only
      generalize (if size < szSub A.blockSize c.blockOffset then size else szSub A.blockSize c.blockOffset) = rem
      split
      · exact Codes.one _
      · refine Codes.bind _ _ fun x _ => ?_
        obtain ⟨n, c', s⟩ := x
        dsimp only
        split
        · exact Codes.ub
        · split
          · exact Codes.neg _
          · exact Codes.one _
  · exact Codes.one _

theorem updateBulk_codes (A : Alg w) (u : Bool) (scr : Scr w) (c : Ctx w) (b : List Byte) (o size : Nat) : Codes (updateBulk A u scr c b o size) := by
  unfold updateBulk
  split
  · refine Codes.bind _ _ fun p _ => ?_
    refine Codes.bind _ _ fun x _ => ?_
    obtain ⟨n, c', s⟩ := x
    dsimp only
    split
    · exact Codes.ub
    · split
      · exact Codes.neg _
      · exact Codes.one _
  · exact Codes.one _

theorem updateTail_codes (A : Alg w) (c : Ctx w) (b : List Byte) (o size : Nat) : Codes (updateTail A c b o size) := by
  unfold updateTail
  split
  · split
    · exact Codes.neg _
    · exact Codes.bind _ _ fun _ _ => Codes.one _
  · exact Codes.one _

theorem ctxUpdate_codes (A : Alg w) (u : Bool) (scr : Scr w) (ctx : Option (Ctx w)) (buf : Option (List Byte)) (size : Nat) :
    Codes (ctxUpdate A u scr ctx buf size) := by
  unfold ctxUpdate
  split
  · exact Codes.neg _
  · exact Codes.neg _
  · split
    · exact Codes.neg _
    · split
      · exact Codes.one _
      · refine Codes.bind _ _ fun x hx => ?_
        obtain ⟨r, c', next⟩ := x
        have hr := updateFill_codes _ _ _ _ _ _ _ _ hx
        dsimp only
        split
        · rcases hr with rfl | rfl
          · exact Codes.one _
          · exact Codes.neg _
        · refine Codes.bind _ _ fun y _ => ?_
          obtain ⟨r, c', o, sz⟩ := y
          dsimp only
          split
          · exact Codes.neg _
          · refine Codes.bind _ _ fun z hz => ?_
            obtain ⟨r, c'⟩ := z
            rcases updateTail_codes _ _ _ _ _ _ _ hz with rfl | rfl
            · exact Codes.one _
            · exact Codes.neg _

theorem ctxFinalize_codes (A : Alg w) (u : Bool) (scr : Scr w) (ctx : Option (Ctx w)) (hash : Option (List Byte)) (n : Nat) :
    Codes (ctxFinalize A u scr ctx hash n) := by
  unfold ctxFinalize
  split
  · exact Codes.neg _
  · exact Codes.neg _
  · split
    · exact Codes.neg _
    · split
      · exact Codes.neg _
      · refine Codes.bind _ _ fun _ _ => ?_
        refine Codes.bind _ _ fun _ _ => ?_
        refine Codes.bind _ _ fun _ _ => ?_
        refine Codes.bind _ _ fun x _ => ?_
        obtain ⟨n, c', s⟩ := x
        dsimp only
        split
        · exact Codes.ub
        · split
          · exact Codes.neg _
          · exact Codes.bind _ _ fun _ _ => Codes.one _

/-- The deprecated wrappers' treatment of the result changes nothing. -/
theorem Codes.wrap {x : Res (Int × α)} (h : Codes x) : (x >>= fun y => if y.1 ≠ 1 then (pure (-1, y.2) : Res (Int × α)) else pure (1, y.2)) = x := by
  cases x with
  | ok y =>
    obtain ⟨r, a⟩ := y
    rcases h r a rfl with rfl | rfl <;> rfl
  | ub => rfl
  | diverge => rfl

theorem hInitialize_codes (A : Alg w) (env : Env w) (slot : Option Nat) (s : St w) : Codes (hInitialize A env slot s) := by
  unfold hInitialize
  split
  · exact Codes.neg _
  · split
    · refine Codes.bind _ _ fun x hx => ?_
      obtain ⟨r, c⟩ := x
      have hr := ctxInitialize_codes _ _ _ _ _ hx
      dsimp only
      split
      · rcases hr with rfl | rfl
        · exact Codes.one _
        · exact Codes.neg _
      · exact Codes.ub
    · refine Codes.bind _ _ fun x hx => ?_
      obtain ⟨r, c⟩ := x
      rcases ctxInitialize_codes _ _ _ _ _ hx with rfl | rfl
      · exact Codes.one _
      · exact Codes.neg _

theorem apiInitialize_codes (A : Alg w) (env : Env w) (context : Option (Option Nat)) (s : St w) : Codes (apiInitialize A env context s) := by
  unfold apiInitialize
  split
  · refine Codes.bind _ _ fun x hx => ?_
    obtain ⟨r, c⟩ := x
    rcases ctxInitialize_codes _ _ _ _ _ hx with rfl | rfl
    · exact Codes.one _
    · exact Codes.neg _
  · refine Codes.bind _ _ fun x hx => ?_
    obtain ⟨r, c⟩ := x
    rcases hInitialize_codes _ _ _ _ _ _ hx with rfl | rfl
    · exact Codes.one _
    · exact Codes.neg _

theorem apiFree_codes (context : Option (Option Nat)) (s : St w) : Codes (apiFree context s) := by
  unfold apiFree
  split
  · exact Codes.neg _
  · unfold hFree
    split
    · exact Codes.one _
    · unfold memFree
      split
      · exact Codes.ub
      · exact Codes.one _

theorem hUpdate_codes (A : Alg w) (u : Bool) (env : Env w) (slot : Option Nat) (buf : Option (List Byte)) (size : Nat) (s : St w) :
    Codes (hUpdate A u env slot buf size s) := by
  unfold hUpdate
  split
  · refine Codes.bind _ _ fun x hx => ?_
    obtain ⟨r, c⟩ := x
    rcases ctxUpdate_codes _ _ _ _ _ _ _ _ hx with rfl | rfl
    · exact Codes.one _
    · exact Codes.neg _
  · split
    · refine Codes.bind _ _ fun x hx => ?_
      obtain ⟨r, c⟩ := x
      have hr := ctxUpdate_codes _ _ _ _ _ _ _ _ hx
      dsimp only
      split
      · rcases hr with rfl | rfl
        · exact Codes.one _
        · exact Codes.neg _
      · exact Codes.ub
    · exact Codes.ub

theorem hFinalize_codes (A : Alg w) (u : Bool) (env : Env w) (slot : Option Nat) (hash : Option (List Byte)) (n : Nat) (s : St w) :
    Codes (hFinalize A u env slot hash n s) := by
  unfold hFinalize
  split
  · refine Codes.bind _ _ fun x hx => ?_
    obtain ⟨r, c⟩ := x
    rcases ctxFinalize_codes _ _ _ _ _ _ _ _ hx with rfl | rfl
    · exact Codes.one _
    · exact Codes.neg _
  · split
    · refine Codes.bind _ _ fun x hx => ?_
      obtain ⟨r, c, h⟩ := x
      have hr := ctxFinalize_codes _ _ _ _ _ _ _ _ hx
      dsimp only
      split
      · rcases hr with rfl | rfl
        · exact Codes.one _
        · exact Codes.neg _
      · exact Codes.ub
    · exact Codes.ub

end Model
