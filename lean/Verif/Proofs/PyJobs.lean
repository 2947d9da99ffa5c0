import Verif.Model.PyJobs
import Verif.Proofs.PyThreads
import Verif.Proofs.Messages
/-! Steps of a thread in a method, made one after the other without another thread in the same object, are the method. -/

namespace Model

open Spec (Kind PyArg PyExc PyResult PyCall PySerial PyObjects pyStep IterHash)

variable {w : Nat}

/-- `n` steps of a thread in finalize. -/
def finIter (A : Alg w) (u : Bool) (scr : Scr w) (out : List Byte) (m : Nat) : Nat → FinPc × Ctx w → Res (FinPc × Ctx w)
  | 0, x => .ok x
  | n + 1, x => finStep A u scr out m x.2 x.1 >>= finIter A u scr out m n

theorem finIter_ret (A : Alg w) (u : Bool) (scr : Scr w) (out : List Byte) (m n : Nat) (r : Int) (h : List Byte) (c : Ctx w) : finIter A u scr out m n (.ret r h, c) = .ok (.ret r h, c) := by
  induction n with
  | zero => rfl
  | succ n ih => exact ih

theorem fin_iter (A : Alg w) (u : Bool) (scr : Scr w) (out : List Byte) (m : Nat) (c c' : Ctx w) (r : Int) (h : List Byte) (e : ctxFinalize A u scr (some c) (some out) m = .ok (r, some c', some h)) :
    finIter A u scr out m 9 (.enter, c) = .ok (.ret r h, c') := by
  unfold finIter
  unfold finStep
  unfold ctxFinalize at e
  dsimp only at e ⊢
  by_cases h1 : m < A.hashSize
  · rw [if_pos h1] at e ⊢
    cases e
    exact finIter_ret A u scr out m _ _ _ _
  rw [if_neg h1] at e ⊢
  by_cases h2 : ssizeMax < m
  · rw [if_pos h2] at e ⊢
    cases e
    exact finIter_ret A u scr out m _ _ _ _
  rw [if_neg h2] at e ⊢
  rw [Res.ok_bind]
  unfold finIter finStep
  simp only [Res.ok_bind]
  revert e
  generalize (if A.padLimit < c.blockOffset then 1 + 1 else 1) * A.blockSize = size
  unfold finIter finStep
  simp only
  cases memSet c.block c.blockOffset 0 (szSub size c.blockOffset) with
  | ub => intro e; cases e
  | diverge => intro e; cases e
  | ok b1 =>
    simp only [Res.ok_bind, Res.pure_eq]
    unfold finIter finStep
    simp only
    cases wr b1 c.blockOffset 0x80 with
    | ub => intro e; cases e
    | diverge => intro e; cases e
    | ok b2 =>
      simp only [Res.ok_bind, Res.pure_eq]
      unfold finIter finStep
      simp only [Res.ok_bind]
      unfold finIter finStep
      simp only
      cases runStore A.lenProg b2 (size - 8) ((c.hashCount + BitVec.ofNat 64 c.blockOffset) * 8) with
      | ub => intro e; cases e
      | diverge => intro e; cases e
      | ok b3 =>
        simp only [Res.ok_bind, Res.pure_eq]
        unfold finIter finStep
        simp only
        cases transform A u scr (some { c with block := b3 }) (some b3) size with
        | ub => intro e; cases e
        | diverge => intro e; cases e
        | ok x =>
          obtain ⟨n, c1, s1⟩ := x
          simp only [Res.ok_bind]
          cases c1 with
          | none => intro e; cases e
          | some c1 =>
            by_cases hn : n = -1
            · simp only [hn, if_true, Res.ok_bind, Res.pure_eq]
              intro e
              cases e
              exact finIter_ret A u scr out m _ _ _ _
            · simp only [hn, if_false, Res.ok_bind, Res.pure_eq]
              unfold finIter finStep
              simp only
              cases storeHash A u c1.hashValues out with
              | ub => intro e; cases e
              | diverge => intro e; cases e
              | ok h =>
                intro e
                cases e
                rfl

/-- A thread in a method: its further steps, without another thread in the object, end the method with the result `r` and the context `c'`. -/
inductive Leads (A : Alg w) (u : Bool) (scr : Scr w) (out : List Byte) : JobPc → Ctx w → PyResult → Ctx w → Prop
  | ret {pc : JobPc} {c : Ctx w} {r : PyResult} {c' : Ctx w} : libStep A u scr out c pc = .ok (.inl r, c') → Leads A u scr out pc c r c'
  | step {pc pc₁ : JobPc} {c c₁ : Ctx w} {r : PyResult} {c' : Ctx w} : libStep A u scr out c pc = .ok (.inr pc₁, c₁) → pc₁.obj = pc.obj → Leads A u scr out pc₁ c₁ r c' → Leads A u scr out pc c r c'

variable (A : Alg w) (u : Bool) (scr : Scr w) (out : List Byte)

theorem libStep_upd (c : Ctx w) (o : Nat) (b : List Byte) (pc : UpdPc) (h : ∀ r, pc ≠ .ret r) :
    libStep A u scr out c (.upd o b pc) = (do let (pc, c) ← updStep A u scr b c pc; pure (.inr (.upd o b pc), c)) := by
  cases pc <;> first | rfl | exact absurd rfl (h _)

theorem libStep_fin (c : Ctx w) (o : Nat) (ok : Bool) (pc : FinPc) (h : ∀ r x, pc ≠ .ret r x) :
    libStep A u scr out c (.fin o ok pc) = (do let (pc, c) ← finStep A u scr out A.hashSize c pc; pure (.inr (.fin o ok pc), c)) := by
  cases pc <;> first | rfl | exact absurd rfl (h _ _)

theorem leads_upd (o : Nat) (b : List Byte) (r : Int) (c' : Ctx w) : ∀ (n : Nat) (pc : UpdPc) (c : Ctx w), updIter A u scr b n (pc, c) = .ok (.ret r, c') →
    Leads A u scr out (.upd o b pc) c (if r ≠ 1 then .raised .io else .none) c'
  | 0, pc, c, e => by cases e; exact .ret rfl
  | n + 1, pc, c, e => by
    by_cases h : ∃ r', pc = .ret r'
    · obtain ⟨r', rfl⟩ := h
      rw [updIter_ret] at e
      cases e
      exact .ret rfl
    · have hs := libStep_upd A u scr out c o b pc fun r' e => h ⟨r', e⟩
      unfold updIter at e
      dsimp only at e
      revert e hs
      cases updStep A u scr b c pc with
      | ub => intro _ e; cases e
      | diverge => intro _ e; cases e
      | ok x => exact fun hs e => .step hs rfl (leads_upd o b r c' n x.1 x.2 e)

theorem leads_fin (o : Nat) (ok : Bool) (r : Int) (h : List Byte) (c' : Ctx w) : ∀ (n : Nat) (pc : FinPc) (c : Ctx w), finIter A u scr out A.hashSize n (pc, c) = .ok (.ret r h, c') →
    Leads A u scr out (.fin o ok pc) c (if r ≠ 1 then .raised .io else if ok then .bytes h else .raised .io) c'
  | 0, pc, c, e => by cases e; exact .ret rfl
  | n + 1, pc, c, e => by
    by_cases hr : ∃ r' h', pc = .ret r' h'
    · obtain ⟨r', h', rfl⟩ := hr
      rw [finIter_ret] at e
      cases e
      exact .ret rfl
    · have hs := libStep_fin A u scr out c o ok pc fun r' h' e => hr ⟨r', h', e⟩
      unfold finIter at e
      dsimp only at e
      revert e hs
      cases finStep A u scr out A.hashSize c pc with
      | ub => intro _ e; cases e
      | diverge => intro _ e; cases e
      | ok x => exact fun hs e => .step hs rfl (leads_fin o ok r h c' n x.1 x.2 e)

/-! ## How many steps a method has left -/

/-- At most so many steps, whatever other threads do to the context. -/
def UpdPc.left : UpdPc → Nat
  | .enter => 14
  | .checkPending => 13
  | .checkBound => 12
  | .remaining => 11
  | .fillCopy _ => 10
  | .fillAdvance _ => 9
  | .fillTest _ => 8
  | .fillTransform _ => 7
  | .fillCount _ _ => 6
  | .fillReset _ => 5
  | .bulk _ _ => 4
  | .bulkCount _ _ _ => 3
  | .tail _ _ => 2
  | .tailOffset _ => 1
  | .ret _ => 0

/-- At most so many steps, whatever other threads do to the context. -/
def FinPc.left : FinPc → Nat
  | .enter => 9
  | .blocks => 8
  | .clear _ => 7
  | .mark _ => 6
  | .bits _ => 5
  | .length _ _ => 4
  | .transform _ => 3
  | .digest => 2
  | .wipe _ => 1
  | .ret _ _ => 0

/-- At most so many steps, whatever other threads do to the context. -/
def JobPc.left : JobPc → Nat
  | .idle => 0
  | .upd _ _ pc => pc.left + 1
  | .fin _ _ pc => pc.left + 1

theorem updStep_left (b : List Byte) (c c' : Ctx w) (pc pc' : UpdPc) (h : ∀ r, pc ≠ .ret r) (e : updStep A u scr b c pc = .ok (pc', c')) : pc'.left < pc.left := by
  cases pc <;> unfold updStep at e <;> dsimp only at e
  case enter => cases e; (repeat' split) <;> decide
  case checkPending => cases e; split <;> simp [UpdPc.left]
  case checkBound => cases e; split <;> simp [UpdPc.left]
  case remaining => cases e; simp [UpdPc.left]
  case fillCopy r =>
    obtain ⟨x, -, e⟩ := Res.bind_eq_ok e
    cases e
    simp [UpdPc.left]
  case fillAdvance => cases e; simp [UpdPc.left]
  case fillTest => cases e; split <;> simp [UpdPc.left]
  case fillTransform r =>
    obtain ⟨⟨n, c1, s1⟩, -, e⟩ := Res.bind_eq_ok e
    cases c1 with
    | none => cases e
    | some c1 => cases e; split <;> simp [UpdPc.left]
  case fillCount => cases e; simp [UpdPc.left]
  case fillReset => cases e; simp [UpdPc.left]
  case bulk off size =>
    split at e
    · obtain ⟨p, -, e⟩ := Res.bind_eq_ok e
      obtain ⟨⟨n, c1, s1⟩, -, e⟩ := Res.bind_eq_ok e
      cases c1 with
      | none => cases e
      | some c1 => cases e; split <;> simp [UpdPc.left]
    · cases e; simp [UpdPc.left]
  case bulkCount => cases e; simp [UpdPc.left]
  case tail off size =>
    split at e
    · split at e
      · cases e; simp [UpdPc.left]
      · obtain ⟨x, -, e⟩ := Res.bind_eq_ok e
        cases e
        simp [UpdPc.left]
    · cases e; simp [UpdPc.left]
  case tailOffset => cases e; simp [UpdPc.left]
  case ret r => exact absurd rfl (h r)

theorem finStep_left (n : Nat) (c c' : Ctx w) (pc pc' : FinPc) (h : ∀ r x, pc ≠ .ret r x) (e : finStep A u scr out n c pc = .ok (pc', c')) : pc'.left < pc.left := by
  cases pc <;> unfold finStep at e <;> dsimp only at e
  case enter => cases e; (repeat' split) <;> simp [FinPc.left]
  case blocks => cases e; simp [FinPc.left]
  case clear =>
    obtain ⟨x, -, e⟩ := Res.bind_eq_ok e
    cases e
    simp [FinPc.left]
  case mark =>
    obtain ⟨x, -, e⟩ := Res.bind_eq_ok e
    cases e
    simp [FinPc.left]
  case bits => cases e; simp [FinPc.left]
  case length =>
    obtain ⟨x, -, e⟩ := Res.bind_eq_ok e
    cases e
    simp [FinPc.left]
  case transform =>
    obtain ⟨⟨n, c1, s1⟩, -, e⟩ := Res.bind_eq_ok e
    cases c1 with
    | none => cases e
    | some c1 => cases e; split <;> simp [FinPc.left]
  case digest =>
    obtain ⟨x, -, e⟩ := Res.bind_eq_ok e
    cases e
    simp [FinPc.left]
  case wipe => cases e; simp [FinPc.left]
  case ret r x => exact absurd rfl (h r x)

/-- A step in a method leads on in the method, with fewer steps left, or ends it. -/
theorem libStep_left (c c' : Ctx w) (pc : JobPc) (x : PyResult ⊕ JobPc) (o : Nat) (ho : pc.obj = some o) (e : libStep A u scr out c pc = .ok (x, c')) : ∀ pc', x = .inr pc' → pc'.obj = some o ∧ pc'.left < pc.left := by
  intro pc' hx
  subst hx
  cases pc with
  | idle => cases ho
  | upd o' b pc =>
    cases ho
    by_cases h : ∃ r', pc = .ret r'
    · obtain ⟨r', rfl⟩ := h
      cases e
    · have h : ∀ r', pc ≠ .ret r' := fun r' e => h ⟨r', e⟩
      rw [libStep_upd A u scr out c o b pc h] at e
      obtain ⟨⟨pc1, c1⟩, e1, e⟩ := Res.bind_eq_ok e
      cases e
      exact ⟨rfl, Nat.succ_lt_succ (updStep_left A u scr b c _ pc _ h e1)⟩
  | fin o' ok pc =>
    cases ho
    by_cases h : ∃ r' x', pc = .ret r' x'
    · obtain ⟨r', x', rfl⟩ := h
      cases e
    · have h : ∀ r' x', pc ≠ .ret r' x' := fun r' x' e => h ⟨r', x', e⟩
      rw [libStep_fin A u scr out c o ok pc h] at e
      obtain ⟨⟨pc1, c1⟩, e1, e⟩ := Res.bind_eq_ok e
      cases e
      exact ⟨rfl, Nat.succ_lt_succ (finStep_left A u scr out _ c _ pc _ h e1)⟩

theorem jobCall_left (call : PyCall) (pc : JobPc) (h : jobCall call = .inr pc) : pc.obj = some call.obj ∧ pc.left ≤ 15 := by
  cases call with
  | update o arg =>
    unfold jobCall at h
    dsimp only at h
    split at h
    · cases h
    · cases h; exact ⟨rfl, by simp [JobPc.left, UpdPc.left]⟩
  | finalize o ok => cases h; exact ⟨rfl, by simp [JobPc.left, FinPc.left]⟩

end Model
