import Verif.Proofs.TraceLow
import Verif.Props.Hmac
/-! C56: branches and memory accesses of the built-in code do not depend on the bytes of keys, messages and digests. -/

namespace Props

open Model Spec

/-- C56. The model with observations has the outcomes of the model without them: sequences of calls, for all arguments and states. -/
theorem C56_histories_values (k : Kind) (u : Bool) (env : Env k.width) (calls : List (ApiCall × Scr k.width)) (slot : Option Nat) (s : St k.width) :
    (tRun (talgOf k) u env calls slot s).res = run (algOf k) u env calls slot s := by
  rw [← talgOf_alg]
  exact tRun_res (talgOf_faithful k) u env calls slot s

/-- C56. The same for `calculate`. -/
theorem C56_calculate_values (k : Kind) (u : Bool) (env : Env k.width) (buffer : Option Nat) (size : Nat) (hash : Option Nat) (n : Nat) (s : St k.width) :
    (tCalculate (talgOf k) u env buffer size hash n s).res = calculate (algOf k) u env buffer size hash n s := by
  rw [← talgOf_alg]
  exact tCalculate_res (talgOf_faithful k) u env buffer size hash n s

/-- C56. The same for `calculate_hmac`. -/
theorem C56_hmac_values (k : Kind) (u : Bool) (env : Env k.width) (kh : List Byte) (key : Option Nat) (ks : Nat) (buffer : Option Nat) (size : Nat) (hmac : Option Nat) (n : Nat) (s : St k.width) :
    (tCalculateHmac (talgOf k) u env kh key ks buffer size hmac n s).res = calculateHmac (algOf k) u env kh key ks buffer size hmac n s := by
  rw [← talgOf_alg]
  exact tCalculateHmac_res (talgOf_faithful k) u env kh key ks buffer size hmac n s

/-- C56. Two histories of the same calls with the same sizes, from memories that agree except in contents (of buffers, contexts, fresh memory and stack), make the same observations and give
the same results; the outputs have the same lengths. Valid or not: if one has undefined behaviour then so has the other, at the same point. -/
theorem C56_histories (k : Kind) (u : Bool) (env env' : Env k.width) (calls calls' : List (ApiCall × Scr k.width)) (slot : Option Nat) (s t : St k.width)
    (ha : ∀ n, env.allocOk n = env'.allocOk n) (hc : List.Forall₂ (fun c d => CallLow c.1 d.1 ∧ ScrLow c.2 d.2) calls calls') (h : StLow s t) :
    (tRun (talgOf k) u env calls slot s).trace = (tRun (talgOf k) u env' calls' slot t).trace ∧
      RelRes (fun x y => List.Forall₂ ReplyLow x.1 y.1 ∧ x.2.1 = y.2.1 ∧ StLow x.2.2 y.2.2) (run (algOf k) u env calls slot s) (run (algOf k) u env' calls' slot t) := by
  have := tRun_low (talgOf_blind k) u ha slot hc h
  rw [← C56_histories_values, ← C56_histories_values]
  exact this

/-- C56. `calculate` on two memories that agree except in contents. -/
theorem C56_calculate (k : Kind) (u : Bool) (env env' : Env k.width) (buffer : Option Nat) (size : Nat) (hash : Option Nat) (n : Nat) (s t : St k.width) (he : EnvLow env env') (h : StLow s t) :
    (tCalculate (talgOf k) u env buffer size hash n s).trace = (tCalculate (talgOf k) u env' buffer size hash n t).trace ∧
      RelRes (fun x y => x.1 = y.1 ∧ StLow x.2 y.2) (calculate (algOf k) u env buffer size hash n s) (calculate (algOf k) u env' buffer size hash n t) := by
  have := tCalculate_low (talgOf_blind k) u buffer size hash n he h
  rw [← C56_calculate_values, ← C56_calculate_values]
  exact this

/-- C56. `calculate_hmac` on two memories that agree except in contents: so for keys of the same length and messages of the same length. -/
theorem C56_hmac (k : Kind) (u : Bool) (env env' : Env k.width) (kh kh' : List Byte) (key : Option Nat) (ks : Nat) (buffer : Option Nat) (size : Nat) (hmac : Option Nat) (n : Nat) (s t : St k.width)
    (hk : kh.length = kh'.length) (he : EnvLow env env') (h : StLow s t) :
    (tCalculateHmac (talgOf k) u env kh key ks buffer size hmac n s).trace = (tCalculateHmac (talgOf k) u env' kh' key ks buffer size hmac n t).trace ∧
      RelRes (fun x y => x.1 = y.1 ∧ StLow x.2.2 y.2.2) (calculateHmac (algOf k) u env kh key ks buffer size hmac n s) (calculateHmac (algOf k) u env' kh' key ks buffer size hmac n t) := by
  have := tCalculateHmac_low (talgOf_blind k) u key ks buffer size hmac n hk he h
  rw [← C56_hmac_values, ← C56_hmac_values]
  exact ⟨this.1, (Low.mono this fun a b r => ⟨r.1, r.2.2⟩).2⟩

/-- A memory like another, with every byte of the caller's memory inverted. -/
def inverted {w} (s : St w) : St w := { s with caller := s.caller.map (~~~ ·) }

theorem forall2_both_refl {w} : ∀ l : List (Nat × Obj w), List.Forall₂ (Both Eq ObjLow) l l
  | [] => .nil
  | (_, .ctx c) :: l => .cons ⟨rfl, CtxLow.refl c⟩ (forall2_both_refl l)
  | (_, .bytes _) :: l => .cons ⟨rfl, rfl⟩ (forall2_both_refl l)

theorem inverted_low {w} (s : St w) : StLow s (inverted s) := ⟨by simp [SameLen, inverted], rfl, forall2_both_refl _⟩

/-- The HMAC of a key and a message, and of the inverted key and the inverted message: both succeed, with the same observations. -/
example (k : Kind) : ∃ l l' s s', calculateHmac (algOf k) true (env0 k) (List.replicate k.hashSize 1) (some 10) 20 (some 120) 100 (some 60) 80 (st1 k.width) = .ok (1, l, s) ∧
    calculateHmac (algOf k) true (env0 k) (List.replicate k.hashSize 1) (some 10) 20 (some 120) 100 (some 60) 80 (inverted (st1 k.width)) = .ok (1, l', s') ∧
    (tCalculateHmac (talgOf k) true (env0 k) (List.replicate k.hashSize 1) (some 10) 20 (some 120) 100 (some 60) 80 (st1 k.width)).trace =
      (tCalculateHmac (talgOf k) true (env0 k) (List.replicate k.hashSize 1) (some 10) 20 (some 120) 100 (some 60) 80 (inverted (st1 k.width))).trace := by
  have h := C56_hmac k true (env0 k) (env0 k) (List.replicate k.hashSize 1) (List.replicate k.hashSize 1) (some 10) 20 (some 120) 100 (some 60) 80 (st1 k.width) (inverted (st1 k.width)) rfl
    ⟨fun _ => rfl, rfl, rfl⟩ (inverted_low _)
  obtain ⟨l, s, e, -⟩ := C09_hmac k true (env0 k) (List.replicate k.hashSize 1) (st1 k.width) 10 20 120 100 60 80 (call1 k _ 20 (by omega)) (args1 k 20 (by omega)) (fun _ _ => rfl)
  rw [e] at h
  cases e' : calculateHmac (algOf k) true (env0 k) (List.replicate k.hashSize 1) (some 10) 20 (some 120) 100 (some 60) 80 (inverted (st1 k.width)) with
  | ub => rw [e'] at h; exact h.2.elim
  | diverge => rw [e'] at h; exact h.2.elim
  | ok x =>
    obtain ⟨r, l', s'⟩ := x
    rw [e'] at h
    obtain ⟨h1, h2, -⟩ := h
    change 1 = r at h2
    subst h2
    exact ⟨l, l', s, s', e, rfl, h1⟩

/-- A history with other bytes of the same lengths. -/
example (k : Kind) : List.Forall₂ (fun c d => CallLow c.1 d.1 ∧ ScrLow c.2 d.2)
    [(.init, junk0 k), (.update (some [1, 2, 3]) 3, junk0 k), (.finalize (some (List.replicate 64 0)) 64, junk0 k), (.free, junk0 k)]
    [(.init, junk0 k), (.update (some [4, 5, 6]) 3, junk0 k), (.finalize (some (List.replicate 64 1)) 64, junk0 k), (.free, junk0 k)] :=
  .cons ⟨trivial, rfl, rfl⟩ (.cons ⟨⟨rfl, rfl⟩, rfl, rfl⟩ (.cons ⟨⟨by simp [OptLow, SameLen, -List.reduceReplicate], rfl⟩, rfl, rfl⟩ (.cons ⟨trivial, rfl, rfl⟩ .nil)))

/-- The observations do depend on the sizes: nothing and one byte to copy into the block differ. -/
example (c : Ctx 32) : (tUpdateTail (talgOf .sha256) c [1, 2] 0 0).trace ≠ (tUpdateTail (talgOf .sha256) c [1, 2] 0 1).trace := by
  intro h
  have := congrArg List.head? h
  unfold tUpdateTail at this
  rw [Tr.bind_trace, Tr.bind_trace] at this
  simp [tBranch] at this

end Props
