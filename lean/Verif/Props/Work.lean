import Verif.Proofs.WorkRun
import Verif.Props.Trace
/-! C62: the work of a call is proportional to the bytes given. C63: calls touch only their own context, areas and stack. -/

namespace Props

open Model Spec

/-- No context in memory holds a whole block of pending bytes: so it is when contexts are only used through the API. -/
def Tidy (k : Kind) (s : St k.width) : Prop := ∀ p c, (p, Obj.ctx c) ∈ s.live → c.blockOffset < k.blockSize

theorem blockSize_alg (k : Kind) : (talgOf k).alg.blockSize = k.blockSize := by cases k <;> rfl

theorem Tidy.ok {k : Kind} {s : St k.width} (h : Tidy k s) : HeapOk (talgOf k).alg s := by
  rintro ⟨p, o⟩ he
  cases o with
  | bytes b => trivial
  | ctx c =>
    change c.blockOffset < (talgOf k).alg.blockSize
    rw [blockSize_alg]
    exact h p c he

theorem works (k : Kind) : (talgOf k).Works (k.blockWork - 1) := by
  cases k
  · exact fun n u c b o s => tMd5Block_bd u c b o s
  · exact fun n u c b o s => tSha1Block_bd u c b o s
  · exact fun n u c b o s => (tSha2Block_bd sha224P u c b o s).le (by decide)
  · exact fun n u c b o s => (tSha2Block_bd sha256P u c b o s).le (by decide)
  · exact fun n u c b o s => (tSha2Block_bd sha512P u c b o s).le (by decide)

theorem sane (k : Kind) : (talgOf k).alg.Sane := by cases k <;> exact ⟨by decide, by decide⟩

theorem updateWork_le (k : Kind) (size : Nat) : updateWork (talgOf k) (k.blockWork - 1) size + 1 ≤ k.blockWork * (size / k.blockSize + 1) + 500 := by
  cases k <;> simp [updateWork, transformWork, talgOf, Kind.blockWork, Kind.blockSize, Model.md5, Model.sha1, Model.sha224, Model.sha256, Model.sha512] <;> omega

theorem finalizeWork_le (k : Kind) : finalizeWork (talgOf k) (k.blockWork - 1) + 1 ≤ k.blockWork * 2 + 1000 := by
  cases k <;> decide

theorem initWork_le (k : Kind) : initWork (talgOf k).alg ≤ 300 := by cases k <;> decide

theorem stepWork_le (k : Kind) (c : ApiCall) : stepWork (talgOf k) (k.blockWork - 1) c ≤ callWork k c := by
  cases c with
  | update b size => exact updateWork_le k size
  | finalize o size => exact finalizeWork_le k
  | init => exact initWork_le k
  | initNull => exact initWork_le k
  | free => exact (by decide : 3 ≤ 300)
  | freeNull => exact (by decide : 3 ≤ 300)

/-! ## C62 -/

/-- C62. The work of one call, in any memory with contexts used through the API only. -/
theorem C62_call (k : Kind) (u : Bool) (env : Env k.width) (call : ApiCall) (scr : Scr k.width) (slot : Option Nat) (s : St k.width) (h : Tidy k s) :
    totalWork (tStep (talgOf k) u env call scr slot s).trace ≤ callWork k call :=
  Nat.le_trans (tStep_bd (works k) (sane k) u env call scr slot s h.ok).work (stepWork_le k call)

/-- C62. The work of a history of calls, valid or not, is at most the sum of the bounds of its calls: no call makes a later one cost more. -/
theorem C62_histories (k : Kind) (u : Bool) (env : Env k.width) (calls : List (ApiCall × Scr k.width)) (slot : Option Nat) (s : St k.width) (h : Tidy k s) :
    totalWork (tRun (talgOf k) u env calls slot s).trace ≤ (calls.map fun c => callWork k c.1).sum := by
  refine Nat.le_trans (tRun_bd (works k) (sane k) u env (fun _ => True) calls slot s h.ok (fun _ _ => trivial) fun _ _ => trivial).work ?_
  induction calls with
  | nil => exact Nat.le_refl _
  | cons c cs ih =>
    rw [List.map_cons, List.sum_cons, List.map_cons, List.sum_cons]
    exact Nat.add_le_add (stepWork_le k c.1) ih

theorem add_div_le (a b : Nat) {c : Nat} (h : 0 < c) : a / c + b / c ≤ (a + b) / c := by
  rw [Nat.le_div_iff_mul_le h, Nat.add_mul]
  exact Nat.add_le_add (Nat.div_mul_le_self _ _) (Nat.div_mul_le_self _ _)

/-- C62. Histories keep memory so: the condition of these theorems holds after any calls that begin with no contexts. -/
theorem C62_tidy (k : Kind) (u : Bool) (env : Env k.width) (calls : List (ApiCall × Scr k.width)) (slot : Option Nat) (s : St k.width) (h : Tidy k s) (rs : List Reply) (slot' : Option Nat) (s' : St k.width)
    (e : run (algOf k) u env calls slot s = .ok (rs, slot', s')) : Tidy k s' := by
  rw [← C56_histories_values] at e
  have := (tRun_bd (works k) (sane k) u env (fun _ => True) calls slot s h.ok (fun _ _ => trivial) fun _ _ => trivial).post _ e
  intro p c hc
  rw [← blockSize_alg]
  exact this _ hc

theorem callWork_le (k : Kind) (c : ApiCall) : callWork k c ≤ k.blockWork * (callBytes c / k.blockSize) + (k.blockWork * 2 + 1000) := by
  cases c with
  | update b size =>
    simp only [callWork, callBytes]
    rw [Nat.mul_add]
    omega
  | finalize o n => exact Nat.le_add_left _ _
  | init => exact Nat.le_trans (by simp only [callWork]; omega) (Nat.le_add_left _ _)
  | initNull => exact Nat.le_trans (by simp only [callWork]; omega) (Nat.le_add_left _ _)
  | free => exact Nat.le_trans (by simp only [callWork]; omega) (Nat.le_add_left _ _)
  | freeNull => exact Nat.le_trans (by simp only [callWork]; omega) (Nat.le_add_left _ _)

/-- C62. The work of a history is linear in the number of blocks in all bytes given and in the number of calls, however the bytes are split. -/
theorem C62_linear (k : Kind) (u : Bool) (env : Env k.width) (calls : List (ApiCall × Scr k.width)) (slot : Option Nat) (s : St k.width) (h : Tidy k s) :
    totalWork (tRun (talgOf k) u env calls slot s).trace ≤
      k.blockWork * ((calls.map fun c => callBytes c.1).sum / k.blockSize) + (k.blockWork * 2 + 1000) * calls.length := by
  refine Nat.le_trans (C62_histories k u env calls slot s h) ?_
  induction calls with
  | nil => simp
  | cons c cs ih =>
    rw [List.map_cons, List.sum_cons, List.map_cons, List.sum_cons, List.length_cons]
    have h1 := callWork_le k c.1
    have h2 : callBytes c.1 / k.blockSize + (cs.map fun c => callBytes c.1).sum / k.blockSize ≤ (callBytes c.1 + (cs.map fun c => callBytes c.1).sum) / k.blockSize :=
      add_div_le _ _ (by cases k <;> decide)
    have h3 := Nat.mul_le_mul_left k.blockWork h2
    rw [Nat.mul_add] at h3
    rw [Nat.mul_succ]
    omega

theorem Tidy.mem {k : Kind} {s : St k.width} (h : Tidy k s) {D : Nat → Prop} (hd : ∀ p, s.count ≤ p → D p) : WorkMem (talgOf k).alg D s := ⟨h.ok, hd⟩

/-- C62. The work of `calculate`. -/
theorem C62_calculate (k : Kind) (u : Bool) (env : Env k.width) (buffer : Option Nat) (size : Nat) (hash : Option Nat) (n : Nat) (s : St k.width) (h : Tidy k s) :
    totalWork (tCalculate (talgOf k) u env buffer size hash n s).trace ≤ k.blockWork * (size / k.blockSize + 3) + 2000 := by
  refine Nat.le_trans (tCalculate_bd (D := fun _ => True) (E := fun _ _ => True) (works k) (sane k) u env buffer size hash n s (h.mem fun _ _ => trivial) trivial trivial).work ?_
  have h1 := updateWork_le k size
  have h2 := finalizeWork_le k
  have h3 := initWork_le k
  unfold calculateWork
  rw [Nat.mul_add] at h1 ⊢
  omega

/-- C62. The work of `calculate_hmac`: linear in the lengths of the key and of the message. -/
theorem C62_hmac (k : Kind) (u : Bool) (env : Env k.width) (kh : List Byte) (key : Option Nat) (ks : Nat) (buffer : Option Nat) (size : Nat) (hmac : Option Nat) (n : Nat) (s : St k.width) (h : Tidy k s) :
    totalWork (tCalculateHmac (talgOf k) u env kh key ks buffer size hmac n s).trace ≤ k.blockWork * (ks / k.blockSize + size / k.blockSize + 13) + 9000 := by
  refine Nat.le_trans (tCalculateHmac_bd (D := fun _ => True) (E := fun _ _ => True) (works k) (sane k) (by cases k <;> decide) u env kh key ks buffer size hmac n s (h.mem fun _ _ => trivial)
    trivial trivial trivial trivial).work ?_
  have h0 := updateWork_le k ks
  have h1 := updateWork_le k size
  have h2 := finalizeWork_le k
  have h3 := initWork_le k
  have h4 := updateWork_le k k.blockSize
  have h5 := updateWork_le k k.hashSize
  rw [Nat.div_self (by cases k <;> decide)] at h4
  rw [Nat.div_eq_of_lt (by cases k <;> decide)] at h5
  have e1 : (talgOf k).alg.hmacBlockSize = k.blockSize := by cases k <;> rfl
  have e2 : (talgOf k).alg.hashSize = k.hashSize := by cases k <;> rfl
  have h6 : k.blockSize ≤ 128 := by cases k <;> decide
  have h7 : k.hashSize ≤ 64 := by cases k <;> decide
  unfold hmacWork keyWork padsWork passWork
  rw [e1, e2]
  rw [Nat.mul_add] at h0 h1 h4 h5 ⊢
  rw [Nat.mul_add]
  omega

/-! ## C63 -/

theorem stepRights_eq (slot : Option Nat) (c : ApiCall) : stepRights (slot = some ·) c = callRights slot c := by cases c <;> rfl

/-- C63. What a call touches: its context, the areas given to it, its own stack and constants; `update` writes no area and `finalize` reads none; the constant tables are never written. -/
theorem C63_call (k : Kind) (u : Bool) (env : Env k.width) (call : ApiCall) (scr : Scr k.width) (slot : Option Nat) (s : St k.width) (h : Tidy k s) :
    ∀ o ∈ (tStep (talgOf k) u env call scr slot s).trace, Allowed (callRights slot call) o := by
  rw [← stepRights_eq]
  exact (tStep_bd (works k) (sane k) u env call scr slot s h.ok).obs

/-- C63. What `calculate` touches: objects it has allocated itself, the areas given, its own stack and constants; the message and the constant tables are not written. -/
theorem C63_calculate (k : Kind) (u : Bool) (env : Env k.width) (buffer : Option Nat) (size : Nat) (hash : Option Nat) (n : Nat) (s : St k.width) (h : Tidy k s) :
    ∀ o ∈ (tCalculate (talgOf k) u env buffer size hash n s).trace, Allowed (oneShotRights (s.count ≤ ·) fun p m => (p, m) ∈ [(buffer, size), (hash, n)]) o :=
  (tCalculate_bd (works k) (sane k) u env buffer size hash n s (h.mem fun _ hp => hp) (by simp) (by simp)).obs

/-- C63. What `calculate_hmac` touches: likewise; neither the key nor the message nor the constant tables are written. -/
theorem C63_hmac (k : Kind) (u : Bool) (env : Env k.width) (kh : List Byte) (key : Option Nat) (ks : Nat) (buffer : Option Nat) (size : Nat) (hmac : Option Nat) (n : Nat) (s : St k.width) (h : Tidy k s) :
    ∀ o ∈ (tCalculateHmac (talgOf k) u env kh key ks buffer size hmac n s).trace,
      Allowed (oneShotRights (s.count ≤ ·) fun p m => (p, m) ∈ [(key, ks), (buffer, size), (hmac, n), (hmac, k.hashSize)]) o := by
  have e2 : (talgOf k).alg.hashSize = k.hashSize := by cases k <;> rfl
  exact (tCalculateHmac_bd (works k) (sane k) (by cases k <;> decide) u env kh key ks buffer size hmac n s (h.mem fun _ hp => hp) (by simp) (by simp) (by simp) (by simp [e2])).obs

/-- The accesses of a call: constants and input are only read; all else is its own stack, context or output. -/
theorem place_of_access {t : Thread} {slot : Option Nat} {call : ApiCall} (hc : ∀ p, slot = some p → p = t.context) {o : Obs} (ho : Allowed (callRights slot call) o) {x : Place × Bool}
    (hx : x ∈ t.accesses o) : x = (.constants, false) ∨ x.1 = .stack t.id ∨ x.1 = .heap t.context ∨ x = (.area t.input.1 t.input.2, false) ∨ x.1 = .area t.output.1 t.output.2 := by
  rw [← stepRights_eq] at ho
  have ho := allowed_mono (stepRights_le _ _ hc call) ho
  have rdCase : ∀ a, a ∈ (runRights (· = t.context)).reads → (t.place a, false) = (Place.constants, false) ∨ t.place a = .stack t.id ∨ t.place a = .heap t.context ∨
      (t.place a, false) = (.area t.input.1 t.input.2, false) ∨ t.place a = .area t.output.1 t.output.2 := by
    intro a ha
    cases a <;> simp [runRights, Thread.place] at ha ⊢
  have wrCase : ∀ a, a ∈ (runRights (· = t.context)).writes → t.place a = .stack t.id ∨ t.place a = .heap t.context ∨ t.place a = .area t.output.1 t.output.2 := by
    intro a ha
    cases a <;> simp [runRights, Thread.place] at ha ⊢
  have wr' : ∀ a, a ∈ (runRights (· = t.context)).writes → ∀ x : Place × Bool, x = (t.place a, true) →
      x = (.constants, false) ∨ x.1 = .stack t.id ∨ x.1 = .heap t.context ∨ x = (.area t.input.1 t.input.2, false) ∨ x.1 = .area t.output.1 t.output.2 := by
    rintro a ha x rfl
    rcases wrCase a ha with h | h | h
    · exact .inr (.inl h)
    · exact .inr (.inr (.inl h))
    · exact .inr (.inr (.inr (.inr h)))
  cases o with
  | read a i => rw [List.mem_singleton.mp hx]; exact rdCase a ho
  | write a i => exact wr' a ho x (List.mem_singleton.mp hx)
  | copy d i s j n =>
    rcases List.mem_cons.mp hx with h | h
    · exact wr' d ho.1 x h
    · rw [List.mem_singleton.mp h]; exact rdCase s ho.2
  | set d i n => exact wr' d ho x (List.mem_singleton.mp hx)
  | free p =>
    rw [List.mem_singleton.mp hx]
    exact .inr (.inr (.inl (congrArg Place.heap ho)))
  | deref p =>
    cases p with
    | none => cases hx
    | some p =>
      rw [List.mem_singleton.mp hx]
      exact .inr (.inr (.inl (congrArg Place.heap (ho p rfl))))
  | _ => cases hx

/-- C63. Two calls that run at the same time on different contexts, with output areas that do not meet the areas of the other, have no data race; they may be given the same input.
The contexts may be of different kinds. -/
theorem C63_race (k k' : Kind) (u u' : Bool) (env : Env k.width) (env' : Env k'.width) (call call' : ApiCall) (scr : Scr k.width) (scr' : Scr k'.width) (slot slot' : Option Nat)
    (s : St k.width) (s' : St k'.width) (t t' : Thread) (h : Tidy k s) (h' : Tidy k' s') (ht : ∀ p, slot = some p → p = t.context) (ht' : ∀ p, slot' = some p → p = t'.context)
    (ha : t.Apart t') :
    ¬Race t t' (tStep (talgOf k) u env call scr slot s).trace (tStep (talgOf k') u' env' call' scr' slot' s').trace := by
  rintro ⟨o, ho, o', ho', x, hx, y, hy, hw, hov⟩
  obtain ⟨a1, a2, a3, a4, a5⟩ := ha
  have hx := place_of_access ht (C63_call k u env call scr slot s h o ho) hx
  have hy := place_of_access ht' (C63_call k' u' env' call' scr' slot' s' h' o' ho') hy
  obtain ⟨x, bx⟩ := x
  obtain ⟨y, bY⟩ := y
  simp only [Prod.mk.injEq] at hx hy hw hov
  rcases hx with ⟨rfl, rfl⟩ | rfl | rfl | ⟨rfl, rfl⟩ | rfl <;> rcases hy with ⟨rfl, rfl⟩ | rfl | rfl | ⟨rfl, rfl⟩ | rfl <;>
    first
    | exact hov.elim
    | exact a1 hov
    | exact a2 hov
    | exact a3 hov
    | exact a4 hov
    | exact a5 hov
    | simp at hw

/-- A memory without contexts is as the theorems want it; a context with a pending byte is, too. -/
theorem tidy_st1 (k : Kind) : Tidy k (st1 k.width) := by
  intro p c h
  rw [st1, List.mem_singleton] at h
  cases h

example : Tidy .sha256 { st1 32 with live := [(7, .ctx { zeroCtx (algOf .sha256) with blockOffset := 1 })] } := by
  intro p c h
  rw [List.mem_singleton] at h
  cases h
  decide

/-- The bound for a thousand updates of a block each. -/
example (k : Kind) (b : List Byte) : totalWork (tRun (talgOf k) true (env0 k) (List.replicate 1000 (.update (some b) k.blockSize, junk0 k)) none (st1 k.width)).trace ≤
    k.blockWork * 1000 + (k.blockWork * 2 + 1000) * 1000 := by
  refine Nat.le_trans (C62_linear k true (env0 k) _ none (st1 k.width) (tidy_st1 k)) ?_
  have h : 0 < k.blockSize := by cases k <;> decide
  have e : ∀ n m : Nat, (List.replicate n m).sum = n * m := by
    intro n m
    induction n with
    | zero => simp
    | succ n ih => rw [List.replicate_succ, List.sum_cons, ih, Nat.succ_mul, Nat.add_comm]
  rw [List.map_replicate, e, List.length_replicate]
  exact Nat.le_of_eq (by rw [callBytes, Nat.mul_div_cancel _ h])

/-- Work is done: setting up a context is no less than writing its arrays. -/
example : 100 ≤ totalWork (tStep (talgOf .sha256) true (env0 .sha256) .init (junk0 .sha256) none (st1 32)).trace := by decide

/-- Threads that are apart, with the same input. -/
example : Thread.Apart ⟨0, 5, (100, 50), (200, 32)⟩ ⟨1, 6, (100, 50), (232, 32)⟩ := by
  refine ⟨by decide, by decide, ?_, ?_, ?_⟩ <;> rintro ⟨x, h⟩ <;> simp only at h <;> omega

/-- Two calls on one context do race. -/
example (k : Kind) (u : Bool) (env : Env k.width) (b : List Byte) (n m : Nat) (scr : Scr k.width) (s : St k.width) :
    Race ⟨0, 5, (100, 50), (200, 0)⟩ ⟨1, 5, (300, 50), (400, 0)⟩ (tStep (talgOf k) u env (.update (some b) n) scr (some 5) s).trace (tStep (talgOf k) u env (.update (some b) m) scr (some 5) s).trace := by
  have key : ∀ n, Obs.deref (some 5) ∈ (tStep (talgOf k) u env (.update (some b) n) scr (some 5) s).trace := by
    intro n
    simp [tStep, tHUpdate, Tr.bind_trace]
  exact ⟨_, key n, _, key m, _, List.mem_singleton_self _, _, List.mem_singleton_self _, .inl rfl, rfl⟩

end Props
