import Verif.Proofs.PyThreads
import Verif.Proofs.History
import Verif.Props.Histories
import Verif.Props.Vectors
/-! C66: Python threads. -/

namespace Props

open Model Spec

/-- The context `c` belongs to an object that has been given the bytes `m` (since it was made): it is the result of some sequence of library calls. -/
def Given (k : Kind) (m : List Byte) (c : Ctx k.width) : Prop :=
  ∃ (u : Bool) (env : Env k.width) (calls : List (ApiCall × Scr k.width)) (s₀ s : St k.width) (rs : List Reply) (p : Nat), ValidCalls k calls ∧
    run (algOf k) u env calls none s₀ = .ok (rs, some p, s) ∧ s.live = (p, .ctx c) :: s₀.live ∧ received ((calls.map (·.1)).zip rs) [] = m ∧
    started k.std.iv (List.replicate k.words 0) ((calls.map (·.1)).zip rs) [] = k.std.iv

/-- What `finalize` gives for a context. -/
def Digests (k : Kind) (c : Ctx k.width) (d : List Byte) : Prop :=
  ∀ (u : Bool) (scr : Scr k.width) (out : List Byte) (n : Nat), Kind.Junk k scr → k.hashSize ≤ n → n ≤ maxSize → n ≤ out.length →
    ctxFinalize (algOf k) u scr (some c) (some out) n = .ok (1, some (zeroCtx (algOf k)), some (d ++ out.drop k.hashSize))

/-- The outcome of `x.update(arg)`. -/
def outcome (arg : Option PyArg) : PyResult :=
  match pyBytes arg with
  | .inl x => .raised x
  | .inr _ => .none

/-- The bytes that `x.update(arg)` adds to the message of `x`. -/
def added (arg : Option PyArg) : List Byte :=
  match pyBytes arg with
  | .inl _ => []
  | .inr b => b

theorem given_rep {k : Kind} {m : List Byte} {c : Ctx k.width} (h : Given k m c) : Rep (algOf k) k.len64 k.len64.iv m c := by
  obtain ⟨u, env, calls, s₀, s, rs, p, hv, e, hl, rfl, hst⟩ := h
  obtain ⟨c', hl', -, hr⟩ := reach_ctx hv e
  rw [hl'] at hl
  cases hl
  rw [std_iv] at hst
  rw [hst] at hr
  exact hr

theorem rep_digests {k : Kind} {m : List Byte} {c : Ctx k.width} (h : Rep (algOf k) k.len64 k.len64.iv m c) : Digests k c (k.len64.digest m) := by
  obtain ⟨enc, L⟩ := lawful k
  intro u scr out n hj h1 h2 h3
  have := ctxFinalize_ok L (h0 := k.len64.iv) (by rw [algOf_nHash]; exact iv_length k) u scr (scrOk_of_junk hj) c out n h2 (by rw [algOf_hashSize]; exact h1) h3 h
  rw [algOf_hashSize] at this
  exact this

theorem pyData_eq (arg : Option PyArg) : pyData arg = pyBytes arg := by
  unfold pyData pyBytes
  split <;> try rfl
  rename_i b
  rw [maxSize_eq]
  by_cases h : ssizeMax < b.length
  · rw [if_pos h]
    exact (if_neg (by omega)).symm
  · rw [if_neg h]
    exact (if_pos (by omega)).symm

/-- The whole method, alone. -/
theorem method_ok (k : Kind) (u : Bool) (scr : Scr k.width) (hj : Kind.Junk k scr) (arg : Option PyArg) (m : List Byte) (c : Ctx k.width) (h : Rep (algOf k) k.len64 k.len64.iv m c) :
    ∃ c', pyIter (algOf k) u scr 16 (.call arg, c) = .ok (.done (outcome arg), c') ∧ Rep (algOf k) k.len64 k.len64.iv (m ++ added arg) c' := by
  obtain ⟨h1, h2⟩ := pyIter_call (algOf k) u scr arg c 0
  unfold outcome added
  rw [← pyData_eq]
  cases hd : pyData arg with
  | inl x => exact ⟨c, h1 x hd, by simpa using h⟩
  | inr b =>
    have hb : b.length ≤ ssizeMax := by
      rw [pyData_eq] at hd
      unfold pyBytes at hd
      split at hd <;> try cases hd
      rw [← maxSize_eq]
      split at hd
      · cases hd; assumption
      · cases hd
    obtain ⟨enc, L⟩ := lawful k
    obtain ⟨c', e, hr⟩ := ctxUpdate_ok L (h0 := k.len64.iv) (by rw [algOf_nHash]; exact iv_length k) u scr (scrOk_of_junk hj) c b b.length hb (Nat.le_refl _) h
    rw [List.take_length] at hr
    exact ⟨c', (h2 b 1 c' hd e).trans rfl, hr⟩

/-! ## Threads with objects of their own -/

theorem own_objects {w : Nat} (A : Alg w) (u : Bool) (scr : Nat → Scr w) (R : Nat → PyResult) (C : Nat → Ctx w) (obj : Nat → Nat) (hobj : ∀ t t', obj t = obj t' → t = t') :
    ∀ (sched : List Nat) (W : PyWorld w) (N : Nat → Nat), (∀ t, (W.threads t).obj = obj t) →
      (∀ t, pyIter A u (scr t) (N t) ((W.threads t).pc, W.ctxs (obj t)) = .ok (.done (R t), C t)) →
      ∃ W', pyWorldRun A u scr sched W = .ok W' ∧ (∀ t, (W'.threads t).obj = obj t) ∧
        ∀ t, pyIter A u (scr t) (N t - sched.count t) ((W'.threads t).pc, W'.ctxs (obj t)) = .ok (.done (R t), C t)
  | [], W, N, ho, h => ⟨W, rfl, ho, h⟩
  | t :: ts, W, N, ho, h => by
    have key : ∃ pc c, pyThreadStep A u (scr t) (W.ctxs (obj t)) (W.threads t).pc = .ok (pc, c) ∧ pyIter A u (scr t) (N t - 1) (pc, c) = .ok (.done (R t), C t) := by
      have ht := h t
      cases hn : N t with
      | zero =>
        rw [hn] at ht
        change Res.ok _ = _ at ht
        simp only [Res.ok.injEq, Prod.mk.injEq] at ht
        rw [ht.1, ht.2]
        exact ⟨_, _, rfl, rfl⟩
      | succ n =>
        rw [hn] at ht
        unfold pyIter at ht
        dsimp only at ht
        revert ht
        cases pyThreadStep A u (scr t) (W.ctxs (obj t)) (W.threads t).pc with
        | ub => intro e; cases e
        | diverge => intro e; cases e
        | ok x => exact fun e => ⟨x.1, x.2, rfl, e⟩
    obtain ⟨pc, c, e, e'⟩ := key
    have hs : pyWorldStep A u scr t W = .ok ⟨Function.update W.threads t ⟨obj t, pc⟩, Function.update W.ctxs (obj t) c⟩ := by
      unfold pyWorldStep
      rw [ho t, e]
      rfl
    obtain ⟨W', r, o, i⟩ := own_objects A u scr R C obj hobj ts ⟨Function.update W.threads t ⟨obj t, pc⟩, Function.update W.ctxs (obj t) c⟩ (fun t' => if t' = t then N t - 1 else N t')
      (by
        intro t'
        by_cases ht : t' = t
        · subst ht; simp
        · simp [ht, ho])
      (by
        intro t'
        by_cases ht : t' = t
        · subst ht
          simpa using e'
        · have : obj t' ≠ obj t := fun x => ht (hobj _ _ x)
          simpa [ht, this] using h t')
    refine ⟨W', ?_, o, ?_⟩
    · show pyWorldStep A u scr t W >>= _ = _
      rw [hs]
      exact r
    · intro t'
      have := i t'
      by_cases ht : t' = t
      · subst ht
        rw [List.count_cons_self]
        simp only [if_true] at this
        rw [show N t' - (ts.count t' + 1) = N t' - 1 - ts.count t' by omega]
        exact this
      · rw [List.count_cons_of_ne (fun x => ht x.symm)]
        simpa only [ht, if_false] using this

/-- C66. Any number of threads that call `update`, each on an object of its own, in any interleaving: no undefined behaviour; every call that has returned has the outcome it would have alone, and its object has exactly its bytes
added to its message. A thread that gets 16 steps has returned. -/
theorem C66_own_objects (k : Kind) (u : Bool) (scr : Nat → Scr k.width) (hscr : ∀ t, Kind.Junk k (scr t)) (W : PyWorld k.width) (arg : Nat → Option PyArg) (m : Nat → List Byte)
    (hobj : ∀ t t', (W.threads t).obj = (W.threads t').obj → t = t') (hpc : ∀ t, (W.threads t).pc = .call (arg t)) (hctx : ∀ t, Given k (m t) (W.ctxs (W.threads t).obj)) (sched : List Nat) :
    ∃ W', pyWorldRun (algOf k) u scr sched W = .ok W' ∧
      (∀ t r, (W'.threads t).pc = .done r → r = outcome (arg t) ∧ Digests k (W'.ctxs (W.threads t).obj) (k.len64.digest (m t ++ added (arg t)))) ∧
      ∀ t, 16 ≤ sched.count t → ∃ r, (W'.threads t).pc = .done r := by
  have hm : ∀ t, ∃ c', pyIter (algOf k) u (scr t) 16 ((W.threads t).pc, W.ctxs (W.threads t).obj) = .ok (.done (outcome (arg t)), c') ∧ Rep (algOf k) k.len64 k.len64.iv (m t ++ added (arg t)) c' := by
    intro t
    rw [hpc t]
    exact method_ok k u (scr t) (hscr t) (arg t) (m t) _ (given_rep (hctx t))
  choose C hC using hm
  obtain ⟨W', e, -, h⟩ := own_objects (algOf k) u scr (fun t => outcome (arg t)) C (fun t => (W.threads t).obj) hobj sched W (fun _ => 16) (fun _ => rfl) (fun t => (hC t).1)
  refine ⟨W', e, ?_, ?_⟩
  · intro t r hr
    have := h t
    rw [hr, pyIter_done] at this
    simp only [Res.ok.injEq, Prod.mk.injEq, PyPc.done.injEq] at this
    refine ⟨this.1, ?_⟩
    rw [this.2]
    exact rep_digests (hC t).2
  · intro t ht
    have := h t
    rw [show 16 - sched.count t = 0 by omega] at this
    change Res.ok _ = _ at this
    simp only [Res.ok.injEq, Prod.mk.injEq] at this
    exact ⟨_, this.1⟩

/-! ## Threads with one object -/

theorem run_append {w : Nat} (A : Alg w) (u : Bool) (scr : Nat → Scr w) : ∀ (a b : List Nat) (W : PyWorld w), pyWorldRun A u scr (a ++ b) W = pyWorldRun A u scr a W >>= pyWorldRun A u scr b
  | [], _, _ => rfl
  | t :: a, b, W => by
    show pyWorldStep A u scr t W >>= _ = _
    rw [show pyWorldRun A u scr (t :: a) W = pyWorldStep A u scr t W >>= pyWorldRun A u scr a from rfl, Res.bind_assoc]
    congr 1
    funext W'
    exact run_append A u scr a b W'

theorem run_alone {w : Nat} (A : Alg w) (u : Bool) (scr : Nat → Scr w) (t : Nat) : ∀ (n : Nat) (W : PyWorld w) (pc : PyPc) (c : Ctx w),
    pyIter A u (scr t) n ((W.threads t).pc, W.ctxs (W.threads t).obj) = .ok (pc, c) →
    pyWorldRun A u scr (List.replicate n t) W = .ok ⟨Function.update W.threads t ⟨(W.threads t).obj, pc⟩, Function.update W.ctxs (W.threads t).obj c⟩
  | 0, W, pc, c, e => by
    cases e
    simp [pyWorldRun]
  | n + 1, W, pc, c, e => by
    unfold pyIter at e
    dsimp only at e
    rw [List.replicate_succ]
    show pyWorldStep A u scr t W >>= _ = _
    unfold pyWorldStep
    revert e
    cases pyThreadStep A u (scr t) (W.ctxs (W.threads t).obj) (W.threads t).pc with
    | ub => intro e; cases e
    | diverge => intro e; cases e
    | ok x =>
      intro e
      obtain ⟨pc₁, c₁⟩ := x
      simp only [Res.ok_bind, Res.pure_eq]
      rw [run_alone A u scr t n _ pc c (by simpa using e)]
      simp

/-- Whole calls, one after the other. -/
theorem serial_calls (k : Kind) (u : Bool) (scr : Nat → Scr k.width) (hscr : ∀ t, Kind.Junk k (scr t)) (arg : Nat → Option PyArg) : ∀ (order : List Nat) (W : PyWorld k.width) (m : Nat → List Byte),
    order.Nodup → (∀ t ∈ order, (W.threads t).pc = .call (arg t)) → (∀ o, Rep (algOf k) k.len64 k.len64.iv (m o) (W.ctxs o)) →
    ∃ W', pyWorldRun (algOf k) u scr (order.flatMap (List.replicate 16)) W = .ok W' ∧ (∀ t ∈ order, (W'.threads t).pc = .done (outcome (arg t))) ∧
      (∀ t, t ∉ order → W'.threads t = W.threads t) ∧
      ∀ o, Rep (algOf k) k.len64 k.len64.iv (m o ++ ((order.filter fun t => (W.threads t).obj = o).flatMap fun t => added (arg t))) (W'.ctxs o)
  | [], W, m, _, _, hr => ⟨W, rfl, by simp, fun _ _ => rfl, fun o => by simpa using hr o⟩
  | t :: ts, W, m, hn, hpc, hr => by
    obtain ⟨c, e, hc⟩ := method_ok k u (scr t) (hscr t) (arg t) (m (W.threads t).obj) _ (hr _)
    rw [← hpc t (List.mem_cons_self ..)] at e
    have e₁ := run_alone (algOf k) u scr t 16 W _ c e
    have hnt : t ∉ ts := (List.nodup_cons.mp hn).1
    obtain ⟨W', e₂, h1, h2, h3⟩ := serial_calls k u scr hscr arg ts ⟨Function.update W.threads t ⟨(W.threads t).obj, .done (outcome (arg t))⟩, Function.update W.ctxs (W.threads t).obj c⟩
      (Function.update m (W.threads t).obj (m (W.threads t).obj ++ added (arg t))) (List.nodup_cons.mp hn).2
      (by
        intro t' ht'
        have : t' ≠ t := fun x => hnt (x ▸ ht')
        simpa [this] using hpc t' (List.mem_cons_of_mem _ ht'))
      (by
        intro o
        by_cases ho : o = (W.threads t).obj
        · subst ho; simpa using hc
        · simpa [ho] using hr o)
    refine ⟨W', ?_, ?_, ?_, ?_⟩
    · rw [List.flatMap_cons, run_append, e₁, Res.ok_bind]
      exact e₂
    · intro t' ht'
      rcases List.mem_cons.mp ht' with rfl | ht'
      · rw [h2 _ hnt]; simp
      · exact h1 _ ht'
    · intro t' ht'
      have hne : t' ≠ t := fun x => ht' (x ▸ List.mem_cons_self ..)
      rw [h2 _ fun x => ht' (List.mem_cons_of_mem _ x)]
      simp [hne]
    · intro o
      have := h3 o
      have hf : (ts.filter fun t' => ((Function.update W.threads t ⟨(W.threads t).obj, .done (outcome (arg t))⟩ : Nat → PyThread) t').obj = o) = ts.filter fun t' => (W.threads t').obj = o := by
        apply List.filter_congr
        intro t' ht'
        have hne : t' ≠ t := fun x => hnt (x ▸ ht')
        simp [hne]
      rw [hf] at this
      by_cases ho : (W.threads t).obj = o
      · rw [List.filter_cons_of_pos (by simpa using ho)]
        subst ho
        simpa using this
      · rw [List.filter_cons_of_neg (by simpa using ho)]
        simpa [Ne.symm ho] using this

/-- C66, partial. Calls that do not overlap in time act one after the other, also on one object: every thread in the list makes its whole call before the next one begins; then each object has the bytes of its calls added in that order.
Missing: the full claim is for every interleaving of calls on one object; it is false of the code, which protects the context by nothing while the interpreter lock is released (`C66_bytes_lost`, `C66_overflow`). -/
theorem C66_one_after_the_other_partial (k : Kind) (u : Bool) (scr : Nat → Scr k.width) (hscr : ∀ t, Kind.Junk k (scr t)) (arg : Nat → Option PyArg) (order : List Nat) (W : PyWorld k.width) (m : Nat → List Byte)
    (hn : order.Nodup) (hpc : ∀ t ∈ order, (W.threads t).pc = .call (arg t)) (hctx : ∀ o, Given k (m o) (W.ctxs o)) :
    ∃ W', pyWorldRun (algOf k) u scr (order.flatMap (List.replicate 16)) W = .ok W' ∧ (∀ t ∈ order, (W'.threads t).pc = .done (outcome (arg t))) ∧
      ∀ o, Digests k (W'.ctxs o) (k.len64.digest (m o ++ ((order.filter fun t => (W.threads t).obj = o).flatMap fun t => added (arg t)))) := by
  obtain ⟨W', e, h1, -, h3⟩ := serial_calls k u scr hscr arg order W m hn hpc fun o => given_rep (hctx o)
  exact ⟨W', e, h1, fun o => rep_digests (h3 o)⟩

/-! ## What goes wrong -/

/-- The context after a sequence of calls. -/
def ctxAfter (k : Kind) (calls : List (ApiCall × Scr k.width)) : Option (Ctx k.width) :=
  match run (algOf k) true (env0 k) calls none (st0 k.width) with
  | .ok (_, some _, s) => match s.live with
    | (_, .ctx c) :: _ => some c
    | _ => none
  | _ => none

/-- A new object, given the bytes `b` (if any). -/
def made (k : Kind) (b : List Byte) : List (ApiCall × Scr k.width) := (.init, junk0 k) :: if b = [] then [] else [(.update (some b) b.length, junk0 k)]

def ctxMade (k : Kind) (b : List Byte) : Ctx k.width := (ctxAfter k (made k b)).getD (zeroCtx (algOf k))

/-- The calls `made k b` give a context that has been given `b`, if they succeed. -/
theorem given_made (k : Kind) (b : List Byte) (hb : b.length ≤ maxSize)
    (h : (match run (algOf k) true (env0 k) (made k b) none (st0 k.width) with
      | .ok (rs, some p, s) => decide (s.live = (p, .ctx (ctxMade k b)) :: (st0 k.width).live ∧ received (((made k b).map (·.1)).zip rs) [] = b ∧
          started k.std.iv (List.replicate k.words 0) (((made k b).map (·.1)).zip rs) [] = k.std.iv)
      | _ => false) = true) : Given k b (ctxMade k b) := by
  have hv : ValidCalls k (made k b) := by
    intro x hx
    unfold made at hx
    split at hx
    · simp only [List.mem_singleton] at hx
      subst hx
      exact ⟨by simp [ApiCall.Valid], junk0_ok k⟩
    · simp only [List.mem_cons, List.not_mem_nil, or_false] at hx
      rcases hx with rfl | rfl
      · exact ⟨by simp [ApiCall.Valid], junk0_ok k⟩
      · exact ⟨by simp [ApiCall.Valid, hb], junk0_ok k⟩
  split at h
  · rename_i rs p s e
    simp only [decide_eq_true_eq] at h
    exact ⟨true, env0 k, made k b, st0 k.width, s, rs, p, hv, e, h.1, h.2.1, h.2.2⟩
  · cases h

/-- Threads that are about to call `update` on object 0, thread `t` with the bytes `b t`. -/
def sharing (k : Kind) (c : Ctx k.width) (b : Nat → List Byte) : PyWorld k.width := ⟨fun t => ⟨0, .call (some (.bytes (b t)))⟩, fun _ => c⟩

/-- Where threads 0 and 1 are, and the context of object 0. -/
def look {k : Kind} : Res (PyWorld k.width) → Option (PyPc × PyPc × Ctx k.width)
  | .ok W => some ((W.threads 0).pc, (W.threads 1).pc, W.ctxs 0)
  | _ => none

theorem digests_unique {k : Kind} {c : Ctx k.width} {d d' : List Byte} (h : Digests k c d) (h' : Digests k c d') : d = d' := by
  have a := h true (junk0 k) (List.replicate k.hashSize 0) k.hashSize (junk0_ok k) (Nat.le_refl _) (by cases k <;> decide) (by simp)
  have b := h' true (junk0 k) (List.replicate k.hashSize 0) k.hashSize (junk0_ok k) (Nat.le_refl _) (by cases k <;> decide) (by simp)
  rw [a] at b
  simpa [List.drop_replicate] using b

theorem small_digest (k : Kind) (m : List Byte) (h : m.length < 1000) : k.len64.digest m = k.std.digest m :=
  len64_digest k m (by cases k <;> simp only [Kind.LengthOk]; omega)

/-- C66: with one object the full claim fails, for every function. Two threads update a new object with one byte each; both calls return None, and the digest is that of one of the two bytes alone: it is neither the digest of the
bytes in one order nor in the other. -/
theorem C66_bytes_lost (k : Kind) (u : Bool) : ∃ (W W' : PyWorld k.width) (sched : List Nat), Given k [] (W.ctxs 0) ∧ W.threads 0 = ⟨0, .call (some (.bytes [1]))⟩ ∧ W.threads 1 = ⟨0, .call (some (.bytes [2]))⟩ ∧
    pyWorldRun (algOf k) u (fun _ => junk0 k) sched W = .ok W' ∧ (W'.threads 0).pc = .done .none ∧ (W'.threads 1).pc = .done .none ∧
    Digests k (W'.ctxs 0) (k.len64.digest [1]) ∧ ¬Digests k (W'.ctxs 0) (k.len64.digest [1, 2]) ∧ ¬Digests k (W'.ctxs 0) (k.len64.digest [2, 1]) := by
  have e : look (pyWorldRun (algOf k) u (fun _ => junk0 k) [0, 0, 0, 1, 1, 1, 1, 1, 1, 1, 1, 0, 0, 0, 0, 0] (sharing k (ctxMade k []) fun t => [BitVec.ofNat 8 (t + 1)])) =
      some (.done .none, .done .none, ctxMade k [1]) := by
    cases u <;> cases k <;> decide +kernel
  have g0 : Given k [] (ctxMade k []) := given_made k [] (by simp) (by cases k <;> decide +kernel)
  have g1 : Given k [1] (ctxMade k [1]) := given_made k [1] (by simp [maxSize]) (by cases k <;> decide +kernel)
  have n1 : oneUpdate k true [1] ≠ oneUpdate k true [1, 2] := by cases k <;> decide +kernel
  have n2 : oneUpdate k true [1] ≠ oneUpdate k true [2, 1] := by cases k <;> decide +kernel
  revert e
  generalize hr : pyWorldRun (algOf k) u (fun _ => junk0 k) [0, 0, 0, 1, 1, 1, 1, 1, 1, 1, 1, 0, 0, 0, 0, 0] (sharing k (ctxMade k []) fun t => [BitVec.ofNat 8 (t + 1)]) = R
  cases R with
  | ub => intro e; cases e
  | diverge => intro e; cases e
  | ok W' =>
    intro e
    simp only [look, Option.some.injEq, Prod.mk.injEq] at e
    have d1 : Digests k (W'.ctxs 0) (k.len64.digest [1]) := e.2.2 ▸ rep_digests (given_rep g1)
    refine ⟨_, W', _, g0, rfl, rfl, hr, e.1, e.2.1, d1, ?_, ?_⟩
    · intro d
      apply n1
      rw [oneUpdate_eq _ _ _ (by simp), oneUpdate_eq _ _ _ (by simp), ← small_digest _ _ (by simp), ← small_digest _ _ (by simp), digests_unique d1 d]
    · intro d
      apply n2
      rw [oneUpdate_eq _ _ _ (by simp), oneUpdate_eq _ _ _ (by simp), ← small_digest _ _ (by simp), ← small_digest _ _ (by simp), digests_unique d1 d]

/-- C66: with one object the full claim fails, for every function. Three threads update an object that has four bytes pending, each with as many bytes as the block still has room for: a copy goes past the end of the context. -/
theorem C66_overflow (k : Kind) (u : Bool) : ∃ (W : PyWorld k.width) (sched : List Nat), Given k [1, 2, 3, 4] (W.ctxs 0) ∧
    (∀ t, W.threads t = ⟨0, .call (some (.bytes (List.replicate (k.blockSize - 4) 5)))⟩) ∧ pyWorldRun (algOf k) u (fun _ => junk0 k) sched W = .ub := by
  refine ⟨sharing k (ctxMade k [1, 2, 3, 4]) fun _ => List.replicate (k.blockSize - 4) 5, [0, 0, 0, 0, 0, 1, 1, 1, 1, 1, 2, 2, 2, 2, 2, 0, 0, 1, 1, 2],
    given_made k _ (by simp [maxSize]) (by cases k <;> decide +kernel), fun _ => rfl, ?_⟩
  have : (match pyWorldRun (algOf k) u (fun _ => junk0 k) [0, 0, 0, 0, 0, 1, 1, 1, 1, 1, 2, 2, 2, 2, 2, 0, 0, 1, 1, 2] (sharing k (ctxMade k [1, 2, 3, 4]) fun _ => List.replicate (k.blockSize - 4) 5) with
    | .ub => true
    | _ => false) = true := by cases u <;> cases k <;> decide +kernel
  revert this
  cases pyWorldRun (algOf k) u (fun _ => junk0 k) [0, 0, 0, 0, 0, 1, 1, 1, 1, 1, 2, 2, 2, 2, 2, 0, 0, 1, 1, 2] (sharing k (ctxMade k [1, 2, 3, 4]) fun _ => List.replicate (k.blockSize - 4) 5) with
  | ub => intro _; rfl
  | ok W => intro h; cases h
  | diverge => intro h; cases h

/-! ## The hypotheses hold in concrete cases -/

/-- Threads that are about to call `update` on objects of their own. -/
def apart (k : Kind) (c : Ctx k.width) (b : List Byte) : PyWorld k.width := ⟨fun t => ⟨t, .call (some (.bytes b))⟩, fun _ => c⟩

/-- Every thread has an object of its own; three threads, two of them in the middle of their calls. -/
example : ∃ W', pyWorldRun (algOf .sha256) true (fun _ => junk0 .sha256) [0, 1, 0, 1, 2, 2, 1, 0, 0, 0, 0, 0, 0] (apart .sha256 (ctxMade .sha256 [1, 2, 3, 4]) [5, 6]) = .ok W' ∧
    ∀ t r, (W'.threads t).pc = .done r → r = outcome (some (.bytes [5, 6])) ∧ Digests .sha256 (W'.ctxs t) (Kind.sha256.len64.digest ([1, 2, 3, 4] ++ [5, 6])) := by
  have g : Given .sha256 [1, 2, 3, 4] (ctxMade .sha256 [1, 2, 3, 4]) := given_made .sha256 [1, 2, 3, 4] (by simp [maxSize]) (by decide +kernel)
  obtain ⟨W', h1, h2, -⟩ := C66_own_objects .sha256 true (fun _ => junk0 .sha256) (fun _ => junk0_ok _) (apart .sha256 (ctxMade .sha256 [1, 2, 3, 4]) [5, 6]) (fun _ => some (.bytes [5, 6])) (fun _ => [1, 2, 3, 4])
    (fun _ _ h => h) (fun _ => rfl) (by intro t; unfold apart; dsimp only; exact g) [0, 1, 0, 1, 2, 2, 1, 0, 0, 0, 0, 0, 0]
  rw [show added (some (.bytes [5, 6])) = [5, 6] by simp [added, pyBytes, maxSize]] at h2
  exact ⟨W', h1, h2⟩

/-- Two threads with one object, one after the other, the second one first. -/
example : ∃ W', pyWorldRun (algOf .md5) true (fun _ => junk0 .md5) ([1, 0].flatMap (List.replicate 16)) (sharing .md5 (ctxMade .md5 []) fun t => [BitVec.ofNat 8 t]) = .ok W' ∧
    Digests .md5 (W'.ctxs 0) (Kind.md5.len64.digest [1, 0]) := by
  obtain ⟨W', h1, -, h2⟩ := C66_one_after_the_other_partial .md5 true (fun _ => junk0 .md5) (fun _ => junk0_ok _) (fun t => some (.bytes [BitVec.ofNat 8 t])) [1, 0] (sharing .md5 (ctxMade .md5 []) fun t => [BitVec.ofNat 8 t]) (fun _ => [])
    (by decide) (fun _ _ => rfl) (fun _ => given_made .md5 [] (by simp) (by decide +kernel))
  have h := h2 0
  simp [sharing, added, pyBytes, maxSize] at h
  exact ⟨W', h1, h⟩

end Props
