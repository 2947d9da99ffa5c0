import Verif.Model.PyThreads
import Verif.Proofs.Kinds
import Verif.Proofs.Context
/-! Steps of a thread in `update`, made one after the other, are the library function. -/

namespace Model

open Spec (Kind PyArg PyExc PyResult IterHash)

variable {w : Nat}

/-- `n` steps of a thread in the library. -/
def updIter (A : Alg w) (u : Bool) (scr : Scr w) (b : List Byte) : Nat → UpdPc × Ctx w → Res (UpdPc × Ctx w)
  | 0, x => .ok x
  | n + 1, x => updStep A u scr b x.2 x.1 >>= updIter A u scr b n

/-- `n` steps of a thread. -/
def pyIter (A : Alg w) (u : Bool) (scr : Scr w) : Nat → PyPc × Ctx w → Res (PyPc × Ctx w)
  | 0, x => .ok x
  | n + 1, x => pyThreadStep A u scr x.2 x.1 >>= pyIter A u scr n

variable (A : Alg w) (u : Bool) (scr : Scr w) (b : List Byte)

theorem updIter_ret (n : Nat) (r : Int) (c : Ctx w) : updIter A u scr b n (.ret r, c) = .ok (.ret r, c) := by
  induction n with
  | zero => rfl
  | succ n ih => exact ih

theorem pyIter_done (n : Nat) (r : PyResult) (c : Ctx w) : pyIter A u scr n (.done r, c) = .ok (.done r, c) := by
  induction n with
  | zero => rfl
  | succ n ih => exact ih

/-- The end of a call. -/
def updEnd (x : Int × Ctx w) : Res (UpdPc × Ctx w) := .ok (.ret x.1, x.2)

theorem tail_iter (n off size : Nat) (c : Ctx w) : updIter A u scr b (n + 2) (.tail off size, c) = updateTail A c b off size >>= updEnd := by
  unfold updIter
  unfold updStep updateTail
  dsimp only
  split
  · split
    · exact updIter_ret A u scr b _ _ _
    · cases memCopy c.block 0 b off size with
      | ub => rfl
      | diverge => rfl
      | ok blk =>
        simp only [Res.ok_bind, Res.pure_eq]
        unfold updIter updStep
        exact updIter_ret A u scr b n _ _
  · exact updIter_ret A u scr b _ _ _

/-- The end of `update` from the second part on. -/
def updBulkEnd (c : Ctx w) (off size : Nat) : Res (UpdPc × Ctx w) := do
  let (r, c, off, size) ← updateBulk A u scr c b off size
  if r = -1 then .ok (.ret (-1), c) else updateTail A c b off size >>= updEnd

theorem bulk_iter (n off size : Nat) (c : Ctx w) : updIter A u scr b (n + 4) (.bulk off size, c) = updBulkEnd A u scr b c off size := by
  unfold updIter updBulkEnd
  unfold updStep updateBulk
  dsimp only
  split
  · cases ptrAt b off with
    | ub => rfl
    | diverge => rfl
    | ok p =>
      simp only [Res.ok_bind]
      cases transform A u scr (some c) (some p) size with
      | ub => rfl
      | diverge => rfl
      | ok x =>
        obtain ⟨m, c', s'⟩ := x
        simp only [Res.ok_bind]
        cases c' with
        | none => rfl
        | some c' =>
          by_cases hm : m = -1
          · simp only [hm, if_true, Res.ok_bind, Res.pure_eq]
            exact updIter_ret A u scr b _ _ _
          · simp only [hm, if_false, Res.ok_bind, Res.pure_eq]
            rw [if_neg (by decide)]
            unfold updIter updStep
            exact tail_iter A u scr b n _ _ _
  · simp only [Res.ok_bind]
    rw [if_neg (by decide)]
    exact tail_iter A u scr b (n + 1) _ _ _

/-- The end of `update` from the first part on. -/
def updFillEnd (c : Ctx w) : Res (UpdPc × Ctx w) := do
  let (r, c, next) ← updateFill A u scr c b b.length
  match next with
  | none => .ok (.ret r, c)
  | some (off, size) => updBulkEnd A u scr b c off size

theorem fill_iter (n : Nat) (c : Ctx w) : updIter A u scr b (n + 13) (.checkPending, c) = updFillEnd A u scr b c := by
  unfold updIter updFillEnd
  unfold updStep updateFill
  dsimp only
  by_cases h1 : 0 < c.blockOffset
  · rw [if_pos h1, if_pos h1, Res.ok_bind]
    unfold updIter updStep
    dsimp only
    by_cases h2 : A.blockSize ≤ c.blockOffset
    · rw [if_pos h2, if_pos h2]
      exact updIter_ret A u scr b _ _ _
    · rw [if_neg h2, if_neg h2, Res.ok_bind]
      unfold updIter updStep
      dsimp only
      rw [Res.ok_bind]
      generalize (if b.length < szSub A.blockSize c.blockOffset then b.length else szSub A.blockSize c.blockOffset) = r
      unfold updIter updStep
      dsimp only
      cases memCopy c.block c.blockOffset b 0 r with
      | ub => rfl
      | diverge => rfl
      | ok blk =>
        simp only [Res.ok_bind, Res.pure_eq]
        unfold updIter updStep
        simp only [Res.ok_bind]
        unfold updIter updStep
        simp only [Res.ok_bind]
        by_cases h3 : c.blockOffset + r < A.blockSize
        · rw [if_pos h3, if_pos h3]
          exact updIter_ret A u scr b _ _ _
        · rw [if_neg h3, if_neg h3]
          unfold updIter updStep
          simp only
          cases transform A u scr (some { c with block := blk, blockOffset := c.blockOffset + r }) (some blk) A.blockSize with
          | ub => rfl
          | diverge => rfl
          | ok x =>
            obtain ⟨m, c', s'⟩ := x
            simp only [Res.ok_bind]
            cases c' with
            | none => rfl
            | some c' =>
              by_cases hm : m = -1
              · simp only [hm, if_true, Res.ok_bind, Res.pure_eq]
                exact updIter_ret A u scr b _ _ _
              · simp only [hm, if_false, Res.ok_bind, Res.pure_eq]
                unfold updIter updStep
                simp only [Res.ok_bind]
                unfold updIter updStep
                simp only [Res.ok_bind]
                exact bulk_iter A u scr b n _ _ _
  · rw [if_neg h1, if_neg h1, Res.ok_bind]
    exact bulk_iter A u scr b (n + 8) _ _ _

theorem enter_iter (n : Nat) (c c' : Ctx w) (r : Int) (e : ctxUpdate A u scr (some c) (some b) b.length = .ok (r, some c')) :
    updIter A u scr b (n + 14) (.enter, c) = .ok (.ret r, c') := by
  unfold updIter
  unfold updStep
  unfold ctxUpdate at e
  dsimp only at e ⊢
  by_cases h1 : ssizeMax < b.length
  · rw [if_pos h1] at e ⊢
    cases e
    exact updIter_ret A u scr b _ _ _
  · rw [if_neg h1] at e ⊢
    by_cases h2 : b.length = 0
    · rw [if_pos h2] at e ⊢
      cases e
      exact updIter_ret A u scr b _ _ _
    · rw [if_neg h2] at e ⊢
      refine (fill_iter A u scr b n c).trans ?_
      unfold updFillEnd
      revert e
      cases updateFill A u scr c b b.length with
      | ub => intro e; cases e
      | diverge => intro e; cases e
      | ok x =>
        obtain ⟨r1, c1, next⟩ := x
        cases next with
        | none =>
          intro e
          cases e
          rfl
        | some y =>
          obtain ⟨off, size⟩ := y
          simp only [Res.ok_bind]
          unfold updBulkEnd
          cases updateBulk A u scr c1 b off size with
          | ub => intro e; cases e
          | diverge => intro e; cases e
          | ok x =>
            obtain ⟨r2, c2, off2, size2⟩ := x
            simp only [Res.ok_bind]
            by_cases h3 : r2 = -1
            · rw [if_pos h3, if_pos h3]
              intro e
              cases e
              rfl
            · rw [if_neg h3, if_neg h3]
              cases updateTail A c2 b off2 size2 with
              | ub => intro e; cases e
              | diverge => intro e; cases e
              | ok x =>
                intro e
                cases e
                rfl

/-- In the library the method only makes steps of the library. -/
theorem pyThreadStep_lib (c : Ctx w) (pc : UpdPc) (h : ∀ r, pc ≠ .ret r) :
    pyThreadStep A u scr c (.lib b pc) = (do let (pc, c) ← updStep A u scr b c pc; pure (.lib b pc, c)) := by
  cases pc <;> first | rfl | exact absurd rfl (h _)

theorem pyIter_lib (r : Int) (c' : Ctx w) : ∀ (n : Nat) (pc : UpdPc) (c : Ctx w), updIter A u scr b n (pc, c) = .ok (.ret r, c') →
    pyIter A u scr (n + 1) (.lib b pc, c) = .ok (.done (if r ≠ 1 then .raised .io else .none), c')
  | 0, pc, c, e => by cases e; rfl
  | n + 1, pc, c, e => by
    by_cases h : ∃ r', pc = .ret r'
    · obtain ⟨r', rfl⟩ := h
      rw [updIter_ret] at e
      cases e
      unfold pyIter
      exact pyIter_done A u scr _ _ _
    · have h : ∀ r', pc ≠ .ret r' := fun r' e => h ⟨r', e⟩
      unfold pyIter
      dsimp only
      rw [pyThreadStep_lib A u scr b c pc h]
      unfold updIter at e
      dsimp only at e
      revert e
      cases updStep A u scr b c pc with
      | ub => intro e; cases e
      | diverge => intro e; cases e
      | ok x => exact fun e => pyIter_lib r c' n x.1 x.2 e

/-- What a thread does if no other one touches its object. -/
theorem pyIter_call (arg : Option PyArg) (c : Ctx w) (n : Nat) :
    (∀ x, pyData arg = .inl x → pyIter A u scr (n + 16) (.call arg, c) = .ok (.done (.raised x), c)) ∧
    (∀ b r c', pyData arg = .inr b → ctxUpdate A u scr (some c) (some b) b.length = .ok (r, some c') →
      pyIter A u scr (n + 16) (.call arg, c) = .ok (.done (if r ≠ 1 then .raised .io else .none), c')) := by
  constructor
  · intro x h
    unfold pyIter pyThreadStep
    dsimp only
    rw [h]
    exact pyIter_done A u scr _ _ _
  · intro b r c' h e
    unfold pyIter pyThreadStep
    dsimp only
    rw [h]
    exact pyIter_lib A u scr b r c' (n + 14) .enter c (enter_iter A u scr b n c c' r e)

/-- A thread at work: some number of steps leads to the end. -/
def Ends (pc : PyPc) (c : Ctx w) (r : PyResult) (c' : Ctx w) : Prop := ∃ n, pyIter A u scr n (pc, c) = .ok (.done r, c')

theorem Ends.step {A : Alg w} {u : Bool} {scr : Scr w} {pc : PyPc} {c : Ctx w} {r : PyResult} {c' : Ctx w} (h : Ends A u scr pc c r c') :
    ∃ pc₁ c₁, pyThreadStep A u scr c pc = .ok (pc₁, c₁) ∧ Ends A u scr pc₁ c₁ r c' := by
  obtain ⟨n, e⟩ := h
  cases n with
  | zero =>
    cases e
    exact ⟨_, _, rfl, 0, rfl⟩
  | succ n =>
    unfold pyIter at e
    dsimp only at e
    revert e
    cases pyThreadStep A u scr c pc with
    | ub => intro e; cases e
    | diverge => intro e; cases e
    | ok x => exact fun e => ⟨x.1, x.2, rfl, n, e⟩

theorem Ends.done {A : Alg w} {u : Bool} {scr : Scr w} {c : Ctx w} {q r : PyResult} {c' : Ctx w} (h : Ends A u scr (.done q) c r c') : q = r ∧ c = c' := by
  obtain ⟨n, e⟩ := h
  rw [pyIter_done] at e
  cases e
  exact ⟨rfl, rfl⟩

end Model
