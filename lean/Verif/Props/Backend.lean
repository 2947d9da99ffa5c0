import Verif.Proofs.Backend
import Verif.Props.Histories
/-! C48: the builds with a crypto library (the SHA256_* functions, or EVP with an embedded or an allocated context), against the built-in implementation. `B`: the build, `L`: the library. -/

namespace Props

open Model Spec

/-- A library that keeps the whole message. -/
def exactLibrary (k : Kind) : Library where
  State := List Byte
  init _ := some []
  update _ m b := (true, m ++ b)
  final _ m o := (true, [], k.std.digest m ++ o.drop k.hashSize)
  create _ := true
  cleanup _ := true

theorem exact_contract (k : Kind) : Contract (exactLibrary k) k (fun st m => st = m) where
  init _ st h := by
    obtain rfl : ([] : List Byte) = st := Option.some.inj h
    rfl
  update _ st m b h _ _ := by
    subst h
    rfl
  final _ st m o h _ _ _ := by
    subst h
    rfl

theorem exact_reliable (k : Kind) : Reliable (exactLibrary k) where
  init _ h := by simp [exactLibrary] at h
  create _ := rfl
  update _ _ _ := rfl
  final _ _ _ := rfl

/-- A library of which the second update fails and destroys the state. -/
def failingLibrary (k : Kind) : Library where
  State := List Byte
  init _ := some []
  update n m b := if n = 2 then (false, []) else (true, m ++ b)
  final _ m o := (true, [], k.std.digest m ++ o.drop k.hashSize)
  create _ := true
  cleanup _ := true

theorem failing_contract (k : Kind) : Contract (failingLibrary k) k (fun st m => st = m) where
  init _ st h := by
    obtain rfl : ([] : List Byte) = st := Option.some.inj h
    rfl
  update n st m b h _ hok := by
    subst h
    simp only [failingLibrary] at hok ⊢
    by_cases hn : n = 2
    · simp [hn] at hok
    · simp [hn]
  final _ st m o h _ _ _ := by
    subst h
    rfl

/-- C48, the full claim: the same replies as the built-in implementation, for every valid history with one message per context of less than 2^61 bytes. -/
def C48Statement (B : Backend) (k : Kind) : Prop :=
  ∀ (L : Library) (Rep : L.State → List Byte → Prop), Contract L k Rep → Reliable L →
  ∀ (u : Bool) (env : Env k.width) (calls : List (ApiCall × Scr k.width)), ValidCalls k calls → ((calls.map fun c => c.1.bytes).sum < 2 ^ 61) →
  ∀ (s : St k.width) (t : BSt L.State), t.count = s.count →
  (∀ rs p s', run (algOf k) u env calls none s = .ok (rs, p, s') → UsedOnce false ((calls.map (·.1)).zip rs)) →
  ∃ rs p s' q t', run (algOf k) u env calls none s = .ok (rs, p, s') ∧ bRun B L k.hashSize env.allocOk (calls.map (·.1)) none t = .ok (rs, q, t')

/-- C48. The claim holds for the sizes that the build accepts when the built-in implementation does (missing: output areas above UINT_MAX bytes in the EVP builds, updates above ULONG_MAX bytes in the direct build with a 32-bit long). -/
theorem C48_refines_partial (B : Backend) (k : Kind) (L : Library) (Rep : L.State → List Byte → Prop) (hL : Contract L k Rep) (hr : Reliable L)
    (u : Bool) (env : Env k.width) (calls : List (ApiCall × Scr k.width)) (hv : ValidCalls k calls) (hlen : (calls.map fun c => c.1.bytes).sum < 2 ^ 61)
    (hsize : ∀ c ∈ calls, B.SameSize c.1) (s : St k.width) (t : BSt L.State) (hcount : t.count = s.count)
    (hone : ∀ rs p s', run (algOf k) u env calls none s = .ok (rs, p, s') → UsedOnce false ((calls.map (·.1)).zip rs)) :
    ∃ rs p s' q t', run (algOf k) u env calls none s = .ok (rs, p, s') ∧ bRun B L k.hashSize env.allocOk (calls.map (·.1)) none t = .ok (rs, q, t') := by
  obtain ⟨p, s', e, -⟩ := run_kind k u env calls s hv
  have hu := hone _ _ _ e
  obtain ⟨q, t', e'⟩ := bRun_refines hL hr B env.allocOk t.live (calls.map (·.1)) (fun c hc => by
      obtain ⟨x, hx, rfl⟩ := List.mem_map.1 hc
      exact (hv x hx).1) (fun c hc => by
      obtain ⟨x, hx, rfl⟩ := List.mem_map.1 hc
      exact hsize x hx) false ⟨none, s.count⟩ none t ⟨hcount.symm, rfl, rfl⟩ (by simpa [ApiState.held, List.map_map, Function.comp_def] using hlen) hu
  exact ⟨_, p, s', q, t', e, e'⟩

/-- A history for the examples: rejected, empty and repeated calls, a second message after a free. -/
def backendCalls (k : Kind) : List (ApiCall × Scr k.width) :=
  [(.freeNull, junk0 k), (.init, junk0 k), (.init, junk0 k), (.update (some [1, 2, 3]) 2, junk0 k), (.update none 4, junk0 k), (.update (some [7]) 0, junk0 k),
   (.finalize (some (List.replicate 64 0)) 3, junk0 k), (.update (some [5]) 1, junk0 k), (.finalize (some (List.replicate 64 0)) 64, junk0 k), (.free, junk0 k),
   (.init, junk0 k), (.finalize (some (List.replicate 64 0)) 64, junk0 k)]

theorem backendCalls_valid (k : Kind) : ValidCalls k (backendCalls k) := by
  intro c hc
  simp only [backendCalls, List.mem_cons, List.not_mem_nil, or_false] at hc
  rcases hc with rfl | rfl | rfl | rfl | rfl | rfl | rfl | rfl | rfl | rfl | rfl | rfl <;> refine ⟨?_, junk0_ok k⟩ <;> simp [ApiCall.Valid, maxSize]

theorem backendCalls_spec (k : Kind) : (specRun k (env0 k).allocOk ((backendCalls k).map (·.1)) ⟨none, (st0 k.width).count⟩).1 =
    [⟨-1, none⟩, ⟨1, none⟩, ⟨-1, none⟩, ⟨1, none⟩, ⟨-1, none⟩, ⟨1, none⟩, ⟨-1, some (List.replicate 64 0)⟩, ⟨1, none⟩,
     ⟨1, some (k.len64.digest [1, 2, 5] ++ (List.replicate 64 0).drop k.hashSize)⟩, ⟨1, none⟩, ⟨1, none⟩, ⟨1, some (k.len64.digest [] ++ (List.replicate 64 0).drop k.hashSize)⟩] := by
  have : k.hashSize ≤ 64 ∧ ¬ k.hashSize ≤ 3 := by cases k <;> decide
  simp only [backendCalls, List.map_cons, List.map_nil, specRun, apiRun, apiStep, env0, if_true, maxSize, this]
  simp [IterHash.digest]

example (B : Backend) (k : Kind) : Contract (exactLibrary k) k (fun st m => st = m) ∧ Reliable (exactLibrary k) ∧ ValidCalls k (backendCalls k) ∧ ((backendCalls k).map fun c => c.1.bytes).sum < 2 ^ 61 ∧
    (∀ c ∈ backendCalls k, B.SameSize c.1) ∧ ∀ rs p s', run (algOf k) true (env0 k) (backendCalls k) none (st0 k.width) = .ok (rs, p, s') → UsedOnce false (((backendCalls k).map (·.1)).zip rs) := by
  refine ⟨exact_contract k, exact_reliable k, backendCalls_valid k, by simp [backendCalls, ApiCall.bytes, maxSize], ?_, ?_⟩
  · have h1 : 64 ≤ B.maxUpdate := by
      cases B with
      | direct b => cases b <;> decide
      | _ => decide
    have h2 : 64 ≤ B.maxOutput := by
      cases B with
      | direct b => show 64 ≤ ssizeMax; decide
      | _ => decide
    intro c hc
    simp only [backendCalls, List.mem_cons, List.not_mem_nil, or_false] at hc
    rcases hc with rfl | rfl | rfl | rfl | rfl | rfl | rfl | rfl | rfl | rfl | rfl | rfl <;> simp only [Backend.SameSize] <;> omega
  · intro rs p s' e
    obtain ⟨p', t, e', -⟩ := run_kind k true (env0 k) (backendCalls k) (st0 k.width) (backendCalls_valid k)
    rw [e'] at e
    obtain ⟨rfl, -, -⟩ : _ ∧ _ ∧ _ := by simpa using e
    rw [backendCalls_spec]
    simp [backendCalls, UsedOnce]

/-- C48. Whatever calls of the library fail: a digest that finalize returns with success is the digest of the message, if every update of the context succeeded. (`i`: the position of the finalize in the history.) -/
theorem C48_no_wrong_digest (B : Backend) (k : Kind) (L : Library) (Rep : L.State → List Byte → Prop) (hL : Contract L k Rep) (allocOk : Nat → Bool) (calls : List ApiCall) (hv : ∀ c ∈ calls, c.Valid) (t : BSt L.State) :
    ∃ rs q t', bRun B L k.hashSize allocOk calls none t = .ok (rs, q, t') ∧ rs.length = calls.length ∧
      ∀ (i : Nat) o size r m, calls[i]? = some (.finalize (some o) size) → rs[i]? = some r → r.code = 1 → accepted ((calls.zip rs).take i) none = some m → m.length < 2 ^ 61 →
        r.out = some (k.std.digest m ++ o.drop k.hashSize) := by
  obtain ⟨rs, q, t', e, -, hl, h⟩ := bRun_accepted hL B allocOk t.live calls hv none none t rfl
  exact ⟨rs, q, t', e, hl, fun i o size r m hc hr hcode hm hlt => h i o size r hc hr hcode m hm hlt⟩

/-- A history with the failing library: the first context is used on after its second update failed. -/
def failCalls : List ApiCall :=
  [.init, .update (some [1]) 1, .update (some [2]) 1, .finalize (some (List.replicate 64 0)) 64, .free, .init, .update (some [3, 4]) 2, .finalize (some (List.replicate 64 0)) 64]

/-- The digest of the first context is not covered, that of the second is. -/
example (k : Kind) : Contract (failingLibrary k) k (fun st m => st = m) ∧ (∀ c ∈ failCalls, c.Valid) ∧
    ∃ rs q t', bRun (.direct false) (failingLibrary k) k.hashSize (fun _ => true) failCalls none ⟨0, 0, []⟩ = .ok (rs, q, t') ∧ rs.map (·.code) = [1, 1, -1, 1, 1, 1, 1, 1] ∧
      accepted ((failCalls.zip rs).take 7) none = some [3, 4] ∧ accepted ((failCalls.zip rs).take 3) none = none := by
  have hk : ¬ 64 < k.hashSize := by cases k <;> decide
  refine ⟨failing_contract k, ?_, ?_⟩
  · intro c hc
    simp only [failCalls, List.mem_cons, List.not_mem_nil, or_false] at hc
    rcases hc with rfl | rfl | rfl | rfl | rfl | rfl | rfl | rfl <;> simp [ApiCall.Valid]
  · refine ⟨[⟨1, none⟩, ⟨1, none⟩, ⟨-1, none⟩, ⟨1, some (k.std.digest [] ++ (List.replicate 64 0).drop k.hashSize)⟩, ⟨1, none⟩, ⟨1, none⟩, ⟨1, none⟩,
      ⟨1, some (k.std.digest [3, 4] ++ (List.replicate 64 0).drop k.hashSize)⟩], some 2, ⟨2, 7, [(2, .ctx (some []) .null)]⟩, ?_, rfl, rfl, rfl⟩
    simp [failCalls, bRun, bStep, bInitialize, bUpdate, bFinalize, bFree, bState, bSetState, bTake, bErase, failingLibrary, exactLibrary, BSt.tick, getKey, setKey, eraseKey,
      Backend.maxUpdate, Backend.maxOutput, ssizeMax, hk, -List.reduceReplicate]

/-- C48. Every history of a build with a crypto library is free of undefined behaviour (no double free, no access outside of an area, no use of an EVP context before its creation or after its release), whatever allocations and calls of the library
fail, with a library of which nothing is assumed; afterwards the objects are those from before, and those of a context that the variable still holds, which a free releases. -/
theorem C48_released (B : Backend) (L : Library) (hashSize : Nat) (allocOk : Nat → Bool) (calls : List ApiCall) (hv : ∀ c ∈ calls, c.Valid) (t : BSt L.State) :
    ∃ rs q t', bRun B L hashSize allocOk calls none t = .ok (rs, q, t') ∧ rs.length = calls.length ∧ (q = none → t'.live = t.live) ∧
      ∃ t'', bFree B L q t' = .ok (1, none, t'') ∧ t''.live = t.live := by
  obtain ⟨rs, q, t', e, hl, h⟩ := bRun_ok B L hashSize allocOk t.live calls hv none t rfl
  refine ⟨rs, q, t', e, hl, ?_, ?_⟩
  · rintro rfl
    exact h
  · cases q with
    | none => exact ⟨t', rfl, h⟩
    | some p =>
      obtain ⟨st, hH, -⟩ := h
      obtain ⟨t'', e', -, hl⟩ := bFree_ok hH
      exact ⟨t'', e', hl⟩

example : ∀ c ∈ [ApiCall.init, .update (some [1]) 1, .init, .finalize (some (List.replicate 64 0)) 64, .free, .free, .init], c.Valid := by
  intro c hc
  simp only [List.mem_cons, List.not_mem_nil, or_false] at hc
  rcases hc with rfl | rfl | rfl | rfl | rfl | rfl | rfl <;> simp [ApiCall.Valid]

/-- C48. The EVP builds reject an output area of more than UINT_MAX bytes, which the built-in implementation accepts. -/
theorem C48_evp_size (B : Backend) (hB : ∀ b, B ≠ .direct b) (k : Kind) (L : Library) (p : Nat) (o : List Byte) (s : BSt L.State) (size : Nat) (h : 2 ^ 32 ≤ size) :
    bFinalize B L k.hashSize (some p) (some o) size s = .ok (-1, some o, s) := by
  have : B.maxOutput = 2 ^ 32 - 1 := by
    cases B with
    | direct b => exact absurd rfl (hB b)
    | _ => rfl
  simp only [bFinalize, this, if_pos (show 2 ^ 32 - 1 < size by omega)]

example (k : Kind) (o : List Byte) : bFinalize .evpAllocated (exactLibrary k) k.hashSize (some 0) (some o) (2 ^ 32) ⟨1, 2, [(1, .md (some [1])), (0, .ctx none (.heap 1))]⟩ = .ok (-1, some o, ⟨1, 2, [(1, .md (some [1])), (0, .ctx none (.heap 1))]⟩) :=
  C48_evp_size .evpAllocated (by simp) k (exactLibrary k) 0 o _ (2 ^ 32) (Nat.le_refl _)

/-- C48. The direct build with a 32-bit long rejects an update of more than ULONG_MAX bytes. -/
theorem C48_long_size (L : Library) (p : Nat) (b : List Byte) (s : BSt L.State) (size : Nat) (h : 2 ^ 32 ≤ size) : bUpdate (.direct true) L (some p) (some b) size s = .ok (-1, s) := by
  have h : Backend.maxUpdate (.direct true) < size := by
    show 2 ^ 32 - 1 < size
    omega
  simp only [bUpdate, if_pos h]

example (k : Kind) (b : List Byte) : bUpdate (.direct true) (exactLibrary k) (some 0) (some b) (2 ^ 32) ⟨1, 2, [(0, .ctx (some [1]) .null)]⟩ = .ok (-1, ⟨1, 2, [(0, .ctx (some [1]) .null)]⟩) :=
  C48_long_size (exactLibrary k) 0 b _ (2 ^ 32) (Nat.le_refl _)

/-- The calls of the counterexample: initialize, and finalize with an area of 2^32 bytes. -/
def largeCalls (k : Kind) (o : List Byte) : List (ApiCall × Scr k.width) := [(.init, junk0 k), (.finalize (some o) (2 ^ 32), junk0 k)]

theorem largeCalls_valid (k : Kind) (o : List Byte) (ho : o.length = 2 ^ 32) : ValidCalls k (largeCalls k o) := by
  intro c hc
  simp only [largeCalls, List.mem_cons, List.not_mem_nil, or_false] at hc
  rcases hc with rfl | rfl
  · exact ⟨trivial, junk0_ok k⟩
  · refine ⟨fun _ => ?_, junk0_ok k⟩
    exact Nat.le_of_eq ho.symm

theorem evp_init (k : Kind) (B : Backend) : ∃ p t, bInitialize B (exactLibrary k) (fun _ => true) none ⟨5, 0, []⟩ = .ok (1, some p, t) := by
  cases B <;> exact ⟨_, _, rfl⟩

/-- C48. The full claim is false for the EVP builds. -/
theorem C48_statement_false (B : Backend) (hB : ∀ b, B ≠ .direct b) (k : Kind) : ¬ C48Statement B k := by
  intro h
  obtain ⟨o, ho⟩ : ∃ o : List Byte, o.length = 2 ^ 32 := ⟨List.replicate (2 ^ 32) 0, List.length_replicate⟩
  have hk : k.hashSize ≤ 2 ^ 32 ∧ 2 ^ 32 ≤ maxSize := ⟨by cases k <;> decide, by decide⟩
  obtain ⟨p', s', e, -⟩ := run_kind k true (env0 k) (largeCalls k o) (st0 k.width) (largeCalls_valid k o ho)
  have hsp : (specRun k (env0 k).allocOk ((largeCalls k o).map (·.1)) ⟨none, (st0 k.width).count⟩).1 =
      [⟨1, none⟩, ⟨1, some (k.len64.digestFrom k.len64.iv [] ++ o.drop k.hashSize)⟩] := by
    simp only [largeCalls, List.map_cons, List.map_nil, specRun, apiRun, apiStep, env0, if_true, if_pos hk]
  rw [hsp] at e
  obtain ⟨rs, p, s1, q, t', e1, e2⟩ := h (exactLibrary k) _ (exact_contract k) (exact_reliable k) true (env0 k) (largeCalls k o) (largeCalls_valid k o ho) (by simp [largeCalls, ApiCall.bytes])
    (st0 k.width) ⟨5, 0, []⟩ rfl (by
      intro rs p s1 e1
      rw [e] at e1
      obtain ⟨rfl, -, -⟩ : _ ∧ _ ∧ _ := by simpa only [Res.ok.injEq, Prod.mk.injEq] using e1
      exact ⟨rfl, trivial⟩)
  rw [e] at e1
  obtain ⟨rfl, -, -⟩ : _ ∧ _ ∧ _ := by simpa only [Res.ok.injEq, Prod.mk.injEq] using e1
  obtain ⟨p, t, hi⟩ := evp_init k B
  have hal : (env0 k).allocOk = fun _ => true := rfl
  simp only [largeCalls, List.map_cons, List.map_nil, bRun, bStep, hal, hi, Res.ok_bind, Res.pure_eq, C48_evp_size B hB k (exactLibrary k) p _ t _ (Nat.le_refl _), Res.ok.injEq, Prod.mk.injEq, List.cons.injEq, Reply.mk.injEq] at e2
  exact absurd e2.1.2.1.1 (by decide)

example (k : Kind) : ¬ C48Statement .evpEmbedded k ∧ ¬ C48Statement .evpAllocated k := ⟨C48_statement_false _ (by simp) k, C48_statement_false _ (by simp) k⟩

end Props
