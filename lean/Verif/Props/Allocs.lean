import Verif.Proofs.AllocsBuilds
import Verif.Spec.Allocs
import Verif.Props.HostBackend
import Verif.Props.Once
/-! C88: the number of allocations does not depend on the amount of data. -/

namespace Props

open Model Spec

theorem stepAllocs_eq (call : ApiCall) (slot : Option Nat) : stepAllocs call slot = callAllocs call slot.isNone := by
  cases call <;> cases slot <;> simp [stepAllocs, callAllocs]

theorem callAllocs_le (call : ApiCall) (fresh : Bool) : callAllocs call fresh ≤ inits [call] := by
  cases call <;> cases fresh <;> simp [callAllocs, inits]

theorem inits_cons (c : ApiCall) (t : List ApiCall) : inits (c :: t) = inits [c] + inits t := by
  cases c <;> simp [inits, Nat.add_comm]

/-- C88. How many allocations a call of the built-in functions asks for, in any memory and whatever its outcome; on a host of any width. -/
theorem C88_call (k : Kind) (u : Bool) (env : Env k.width) (call : ApiCall) (scr : Scr k.width) (slot : Option Nat) (s : St k.width) (r : Reply) (slot' : Option Nat) (s' : St k.width) :
    (step (algOf k) u env call scr slot s = .ok (r, slot', s') → s'.count = s.count + callAllocs call slot.isNone) ∧
    ∀ hb, hostStep hb (algOf k) u env call scr slot s = .ok (r, slot', s') → s'.count = s.count + callAllocs call slot.isNone := by
  rw [← stepAllocs_eq]
  exact ⟨fun e => step_allocs _ u env call scr slot s _ e, fun hb e => hostStep_allocs hb _ u env call scr slot s _ e⟩

/-- C88. The same with a crypto library. -/
theorem C88_crypto_call (B : Backend) (L : Library) (hashSize : Nat) (allocOk : Nat → Bool) (call : ApiCall) (slot : Option Nat) (s : BSt L.State) (r : Reply) (slot' : Option Nat) (s' : BSt L.State) :
    (bStep B L hashSize allocOk call slot s = .ok (r, slot', s') → s'.count = s.count + callAllocs call slot.isNone) ∧
    ∀ hb, hostBStep hb B L hashSize allocOk call slot s = .ok (r, slot', s') → s'.count = s.count + callAllocs call slot.isNone := by
  rw [← stepAllocs_eq]
  exact ⟨fun e => bStep_allocs B L hashSize allocOk call slot s _ e, fun hb e => hostBStep_allocs hb B L hashSize allocOk call slot s _ e⟩

/-- C88. A history asks for no more allocations than it creates contexts, however much data it gives and in however many pieces. -/
theorem C88_histories (k : Kind) (u : Bool) (env : Env k.width) (calls : List (ApiCall × Scr k.width)) (slot : Option Nat) (s : St k.width) (rs : List Reply) (slot' : Option Nat) (s' : St k.width)
    (e : run (algOf k) u env calls slot s = .ok (rs, slot', s')) : s'.count ≤ s.count + inits (calls.map (·.1)) := by
  induction calls generalizing slot s rs with
  | nil => cases e; exact Nat.le_refl _
  | cons c t ih =>
    rw [List.map_cons, inits_cons]
    obtain ⟨c, scr⟩ := c
    simp only [run] at e
    obtain ⟨⟨r, q, m⟩, e1, e⟩ := Res.bind_eq_ok e
    obtain ⟨⟨rs', q', m'⟩, e2, e⟩ := Res.bind_eq_ok e
    cases e
    have h1 := (C88_call k u env c scr slot s r q m).1 e1
    have h2 := ih q m rs' e2
    dsimp only at h2
    have := callAllocs_le c slot.isNone
    dsimp only
    omega

/-- C88. The same with a crypto library. -/
theorem C88_crypto_histories (B : Backend) (L : Library) (hashSize : Nat) (allocOk : Nat → Bool) (calls : List ApiCall) (slot : Option Nat) (s : BSt L.State) (rs : List Reply) (slot' : Option Nat) (s' : BSt L.State)
    (e : bRun B L hashSize allocOk calls slot s = .ok (rs, slot', s')) : s'.count ≤ s.count + inits calls := by
  induction calls generalizing slot s rs with
  | nil => cases e; exact Nat.le_refl _
  | cons c t ih =>
    rw [inits_cons]
    simp only [bRun] at e
    obtain ⟨⟨r, q, m⟩, e1, e⟩ := Res.bind_eq_ok e
    obtain ⟨⟨rs', q', m'⟩, e2, e⟩ := Res.bind_eq_ok e
    cases e
    have h1 := (C88_crypto_call B L hashSize allocOk c slot s r q m).1 e1
    have h2 := ih q m rs' e2
    dsimp only at h2
    have := callAllocs_le c slot.isNone
    dsimp only
    omega

/-- C88. A one-shot digest asks for one allocation, whatever its arguments and outcome. -/
theorem C88_calculate (k : Kind) (u : Bool) (env : Env k.width) (buffer : Option Nat) (size : Nat) (hash : Option Nat) (n : Nat) (s : St k.width) (r : Int) (s' : St k.width) :
    (calculate (algOf k) u env buffer size hash n s = .ok (r, s') → s'.count = s.count + 1) ∧
    ∀ hb, hostCalculate hb (algOf k) u env buffer size hash n s = .ok (r, s') → s'.count = s.count + 1 :=
  ⟨fun e => calculate_allocs _ u env buffer size hash n s _ e, fun hb e => hostCalculate_allocs hb _ u env buffer size hash n s _ e⟩

/-- C88. The same with a crypto library. -/
theorem C88_crypto_calculate (B : Backend) (L : Library) (hashSize : Nat) (env : OEnv) (buffer : Option Nat) (size : Nat) (hash : Option Nat) (n : Nat) (s : OSt L.State) (r : Int) (s' : OSt L.State) :
    (oCalculate B L hashSize env buffer size hash n s = .ok (r, s') → s'.ctxs.count = s.ctxs.count + 1) ∧
    ∀ hb, hostOCalculate hb B L hashSize env buffer size hash n s = .ok (r, s') → s'.ctxs.count = s.ctxs.count + 1 :=
  ⟨fun e => oCalculate_allocs B L hashSize env buffer size hash n s _ e, fun hb e => hostOCalculate_allocs hb B L hashSize env buffer size hash n s _ e⟩

theorem hmacNeeds_eq (k : Kind) (ks : Nat) : (if ks ≤ k.blockSize then 5 else 6) = hmacNeeds k ks := by
  unfold hmacNeeds
  split <;> split <;> omega

/-- C88. An HMAC asks for at most six allocations, and if it succeeds for five or six, depending only on whether the key is longer than a block. -/
theorem C88_hmac (k : Kind) (u : Bool) (env : Env k.width) (kh : List Byte) (key : Option Nat) (ks : Nat) (buffer : Option Nat) (size : Nat) (hmac : Option Nat) (n : Nat) (s : St k.width) (r : Int)
    (lc : Loc) (s' : St k.width) :
    (calculateHmac (algOf k) u env kh key ks buffer size hmac n s = .ok (r, lc, s') → s'.count ≤ s.count + 6 ∧ (r = 1 → s'.count = s.count + hmacNeeds k ks)) ∧
    ∀ hb, hostCalculateHmac hb (algOf k) u env kh key ks buffer size hmac n s = .ok (r, lc, s') → s'.count ≤ s.count + 6 ∧ (r = 1 → s'.count = s.count + hmacNeeds k ks) := by
  have hk : (algOf k).hmacBlockSize = k.blockSize := by cases k <;> rfl
  rw [← hmacNeeds_eq, ← hk]
  exact ⟨fun e => calculateHmac_allocs _ u env kh key ks buffer size hmac n s _ e, fun hb e => hostCalculateHmac_allocs hb _ u env kh key ks buffer size hmac n s _ e⟩

/-- C88. The same with a crypto library. -/
theorem C88_crypto_hmac (B : Backend) (k : Kind) (L : Library) (env : OEnv) (kh : List Byte) (key : Option Nat) (ks : Nat) (buffer : Option Nat) (size : Nat) (hmac : Option Nat) (n : Nat) (s : OSt L.State) (r : Int)
    (s' : OSt L.State) :
    (oCalculateHmac B L k.hashSize k.blockSize env kh key ks buffer size hmac n s = .ok (r, s') → s'.ctxs.count ≤ s.ctxs.count + 6 ∧ (r = 1 → s'.ctxs.count = s.ctxs.count + hmacNeeds k ks)) ∧
    ∀ hb, hostOCalculateHmac hb B L k.hashSize k.blockSize env kh key ks buffer size hmac n s = .ok (r, s') →
      s'.ctxs.count ≤ s.ctxs.count + 6 ∧ (r = 1 → s'.ctxs.count = s.ctxs.count + hmacNeeds k ks) := by
  rw [← hmacNeeds_eq]
  exact ⟨fun e => oCalculateHmac_allocs B L k.hashSize k.blockSize env kh key ks buffer size hmac n s _ e, fun hb e => hostOCalculateHmac_allocs hb B L k.hashSize k.blockSize env kh key ks buffer size hmac n s _ e⟩

/-- C88. A run of hmacsum that ends, for whatever command line, file, read outcomes and signals asking it to stop, has asked for at most `toolAllocs` allocations; with the built-in functions. -/
theorem C88_hmacsum (E : Environment) (args : List (List Nat)) (W : World) (x : Exit) (W' : World) (e : hmacsum E args W = .ok (x, W')) : W'.mem.count ≤ W.mem.count + toolAllocs := by
  rw [← C73_builtin] at e
  exact Builds.hmacsum_allocs (builtin_counted E.tool) E args W _ e

/-- C88. The same in every build, on hosts of every width. -/
theorem C88_hmacsum_builds (hb : Nat) (ch : Kind → Choice) (L : Kind → Library) (E : Environment) (args : List (List Nat)) (W : WorldOf (MixedMem L)) (x : Exit) (W' : WorldOf (MixedMem L))
    (e : Builds.hmacsum E (.mixedHost hb ch L E.tool) args W = .ok (x, W')) : W'.mem.mem.count ≤ W.mem.mem.count + toolAllocs :=
  Builds.hmacsum_allocs (mixedHost_counted hb ch L E.tool) E args W _ e

example (k : Kind) (u : Bool) : ∃ (slot : Option Nat) (s : St k.width) (rs : List Reply), run (algOf k) u (env0 k) (onceCalls k) none (st1 k.width) = .ok (rs, slot, s) ∧ s.count ≤ (st1 k.width).count + 1 := by
  obtain ⟨slot, s, e, -⟩ := run_kind k u (env0 k) (onceCalls k) (st1 k.width) (by
    intro c hc
    simp only [onceCalls, List.mem_cons, List.not_mem_nil, or_false] at hc
    rcases hc with rfl | rfl <;> exact ⟨by simp [ApiCall.Valid, -List.reduceReplicate], junk0_ok k⟩)
  exact ⟨slot, s, _, e, C88_histories k u (env0 k) (onceCalls k) none (st1 k.width) _ slot s e⟩

example (k : Kind) : ∃ s', calculate (algOf k) true (env0 k) (some 5) 203 (some 100) 70 (st1 k.width) = .ok (1, s') ∧ s'.count = (st1 k.width).count + 1 := by
  obtain ⟨s', e, -⟩ := C08_calculate k true (env0 k) (st1 k.width) 5 203 100 70 (junk0_ok k) rfl (by rw [st1_len]; omega) (by rw [st1_len]; omega) (by decide) (by cases k <;> decide)
  exact ⟨s', e, (C88_calculate k true (env0 k) (some 5) 203 (some 100) 70 (st1 k.width) 1 s').1 e⟩

example (k : Kind) : ∃ l s, calculateHmac (algOf k) true (env0 k) (List.replicate k.hashSize 1) (some 10) 20 (some 120) 100 (some 60) 80 (st1 k.width) = .ok (1, l, s) ∧ s.count = (st1 k.width).count + 5 := by
  obtain ⟨l, s, e, -⟩ := C09_hmac k true (env0 k) (List.replicate k.hashSize 1) (st1 k.width) 10 20 120 100 60 80 (call1 k _ 20 (by omega)) (args1 k 20 (by omega)) (fun _ _ => rfl)
  refine ⟨l, s, e, ?_⟩
  rw [((C88_hmac k true (env0 k) (List.replicate k.hashSize 1) (some 10) 20 (some 120) 100 (some 60) 80 (st1 k.width) 1 l s).1 e).2 rfl]
  cases k <;> rfl

example : ∃ rs q t', bRun .evpAllocated (failingLibrary .sha1) 20 (fun _ => true) failCalls none ⟨0, 0, []⟩ = .ok (rs, q, t') ∧ t'.count ≤ inits failCalls := by
  obtain ⟨rs, q, t', e, -⟩ := C48_released .evpAllocated (failingLibrary .sha1) 20 (fun _ => true) failCalls (by simp [failCalls, ApiCall.Valid]) ⟨0, 0, []⟩
  exact ⟨rs, q, t', e, by simpa using C88_crypto_histories .evpAllocated (failingLibrary .sha1) 20 (fun _ => true) failCalls none ⟨0, 0, []⟩ rs q t' e⟩

example : ∃ x W', Builds.hmacsum bigEnv (.mixedHost 32 choice0 failingLibrary bigEnv.tool) (commandLine (codes "hmacsum") groups0 [codes "file"]) (mixed0 _) = .ok (x, W') ∧
    W'.mem.mem.count ≤ (mixed0 failingLibrary).mem.mem.count + 13 := by
  obtain ⟨x, W', e, -⟩ := C85_success (hb := 32) bigEnv bigEnv_ok failing_correct (by decide) (by decide) (codes "hmacsum") groups0 (codes "file") [] line1 (mixed0 _)
  exact ⟨x, W', e, C88_hmacsum_builds 32 choice0 failingLibrary bigEnv _ _ x W' e⟩

end Props
