import Verif.Proofs.History
/-! C06, C07, C11 (finalize), C12-C17: properties of arbitrary call histories on one context variable, for all five algorithms, both build
variants (`u`: unrolled), every outcome of the allocations and every content of uninitialised memory. -/

namespace Props

open Model Spec

/-- A history for the examples: rejected, empty and reused calls included. -/
def calls0 (k : Kind) : List (ApiCall × Scr k.width) :=
  [(.freeNull, junk0 k), (.init, junk0 k), (.init, junk0 k), (.update (some [1, 2, 3]) 2, junk0 k), (.update none 4, junk0 k),
   (.update (some []) (2 ^ 63), junk0 k), (.finalize (some (List.replicate 64 0)) 3, junk0 k),
   (.finalize (some (List.replicate 64 0)) 64, junk0 k), (.update (some [5]) 1, junk0 k)]

theorem calls0_ok (k : Kind) : ValidCalls k (calls0 k) := by
  intro c hc
  simp only [calls0, List.mem_cons, List.not_mem_nil, or_false] at hc
  rcases hc with rfl | rfl | rfl | rfl | rfl | rfl | rfl | rfl | rfl <;> refine ⟨?_, junk0_ok k⟩ <;> simp [ApiCall.Valid, maxSize]

/-- The example history leaves a live context. -/
theorem calls0_run (k : Kind) : ∃ rs p s', run (algOf k) true (env0 k) (calls0 k) none (st0 k.width) = .ok (rs, some p, s') := by
  obtain ⟨slot, s', e, ⟨-, h⟩, -⟩ := run_kind k true (env0 k) (calls0 k) (st0 k.width) (calls0_ok k)
  have hs : (specRun k (env0 k).allocOk ((calls0 k).map (·.1)) ⟨none, (st0 k.width).count⟩).2.slot = some (List.replicate k.words 0, [5]) := by
    have : k.hashSize ≤ 64 ∧ ¬ k.hashSize ≤ 3 := by cases k <;> decide
    simp only [calls0, List.map_cons, List.map_nil, specRun, apiRun, apiStep, env0, if_true, maxSize, this]
    simp
  rw [hs] at h
  cases slot with
  | none => exact h.elim
  | some p => exact ⟨_, p, s', e⟩

/-- C06. Two clients that hash the same byte string, cut differently (with different build variants, environments, memories and output areas),
get the same digest. -/
theorem C06_cut_points_unobservable (k : Kind) (u₁ u₂ : Bool) (env₁ env₂ : Env k.width) (s₁ s₂ : St k.width)
    (chunks₁ chunks₂ : List (List Byte × Scr k.width)) (last₁ last₂ : Scr k.width) (out₁ out₂ : List Byte) (n₁ n₂ : Nat)
    (h₁ : env₁.allocOk s₁.count = true) (h₂ : env₂.allocOk s₂.count = true)
    (v₁ : ValidStream k chunks₁ last₁ out₁ n₁) (v₂ : ValidStream k chunks₂ last₂ out₂ n₂)
    (heq : (chunks₁.map (·.1)).flatten = (chunks₂.map (·.1)).flatten) :
    ∃ (d : List Byte) (p₁ p₂ : Option Nat) (t₁ t₂ : St k.width), d.length = k.hashSize ∧
      run (algOf k) u₁ env₁ (hashCalls chunks₁ last₁ out₁ n₁) none s₁ = .ok (goodReplies chunks₁.length (d ++ out₁.drop k.hashSize), p₁, t₁) ∧
      run (algOf k) u₂ env₂ (hashCalls chunks₂ last₂ out₂ n₂) none s₂ = .ok (goodReplies chunks₂.length (d ++ out₂.drop k.hashSize), p₂, t₂) := by
  obtain ⟨p₁, t₁, e₁⟩ := stream_ok k u₁ env₁ s₁ chunks₁ last₁ out₁ n₁ h₁ v₁
  obtain ⟨p₂, t₂, e₂⟩ := stream_ok k u₂ env₂ s₂ chunks₂ last₂ out₂ n₂ h₂ v₂
  have hm : message chunks₁ = message chunks₂ := heq
  rw [hm] at e₁
  exact ⟨_, p₁, p₂, t₁, t₂, digest_length k _, e₁, e₂⟩

example (k : Kind) : ∃ c₁ c₂ : List (List Byte × Scr k.width), c₁ ≠ c₂ ∧ (c₁.map (·.1)).flatten = (c₂.map (·.1)).flatten ∧
    ValidStream k c₁ (junk0 k) (List.replicate 64 0) 64 ∧ ValidStream k c₂ (junk0 k) (List.replicate 65 3) 65 ∧
    (env0 k).allocOk (st0 k.width).count = true := by
  refine ⟨[([1], junk0 k), ([2, 3], junk0 k)], [([1, 2], junk0 k), ([], junk0 k), ([3], junk0 k)], by simp, by simp, ?_, ?_, rfl⟩
  · refine ⟨?_, junk0_ok k, by cases k <;> decide, by simp⟩
    intro c hc
    simp only [List.mem_cons, List.not_mem_nil, or_false] at hc
    rcases hc with rfl | rfl <;> exact ⟨by simp [maxSize], junk0_ok k⟩
  · refine ⟨?_, junk0_ok k, by cases k <;> decide, by simp⟩
    intro c hc
    simp only [List.mem_cons, List.not_mem_nil, or_false] at hc
    rcases hc with rfl | rfl | rfl <;> exact ⟨by simp [maxSize], junk0_ok k⟩

/-- An update that must not have any effect: empty, without buffer, or with a size above SSIZE_MAX. -/
def Ineffective : ApiCall → Prop
  | .update none _ => True
  | .update (some _) n => n = 0 ∨ maxSize < n
  | _ => False

/-- C07. In every reachable state an ineffective update leaves the whole memory as it was; an empty one returns 1 on a context (whatever the
buffer), the others -1. -/
theorem C07_ineffective_update_no_effect (k : Kind) (u : Bool) (env : Env k.width) (calls : List (ApiCall × Scr k.width)) (s₀ s : St k.width)
    (rs : List Reply) (slot : Option Nat) (scr : Scr k.width) (buf : Option (List Byte)) (n : Nat) (hv : ValidCalls k calls)
    (hrun : run (algOf k) u env calls none s₀ = .ok (rs, slot, s)) (hi : Ineffective (.update buf n)) :
    step (algOf k) u env (.update buf n) scr slot s =
      .ok (⟨if slot.isSome ∧ buf.isSome ∧ n = 0 then 1 else -1, none⟩, slot, s) := by
  cases slot with
  | none => simp [step, hUpdate, ctxUpdate]
  | some p =>
    obtain ⟨c, hl, -⟩ := reach_ctx hv hrun
    have hget : getKey p s.live = some (.ctx c) := by simp [hl, getKey]
    have hsame : setKey p (.ctx c) s.live = s.live := by simp [hl, setKey]
    cases buf with
    | none => simp [step, hUpdate, hget, ctxUpdate, hsame]
    | some b =>
      rcases hi with h | h
      · subst h
        simp [step, hUpdate, hget, ctxUpdate, hsame, ssizeMax]
      · rw [maxSize_eq] at h
        have hn : n ≠ 0 := by omega
        simp [step, hUpdate, hget, ctxUpdate, hsame, h, hn]

/-- C07. Inserting an ineffective update anywhere in a history changes no other reply (in particular no digest) and not the final memory. -/
theorem C07_insert_ineffective (k : Kind) (u : Bool) (env : Env k.width) (pre post : List (ApiCall × Scr k.width)) (s₀ s : St k.width)
    (rs : List Reply) (slot : Option Nat) (scr : Scr k.width) (buf : Option (List Byte)) (n : Nat) (hv : ValidCalls k (pre ++ post))
    (hrun : run (algOf k) u env (pre ++ post) none s₀ = .ok (rs, slot, s)) (hi : Ineffective (.update buf n)) :
    ∃ r, run (algOf k) u env (pre ++ (.update buf n, scr) :: post) none s₀ =
      .ok (rs.take pre.length ++ r :: rs.drop pre.length, slot, s) := by
  have hvp : ValidCalls k pre := fun c hc => hv c (by simp [hc])
  obtain ⟨slot₁, s₁, e₁, -⟩ := run_kind k u env pre s₀ hvp
  have hr := (reach hvp e₁).1
  generalize hg : (specRun k env.allocOk (pre.map (·.1)) ⟨none, s₀.count⟩).1 = rs₁ at e₁ hr
  have hlen : rs₁.length = pre.length := by
    rw [← hg, specRun_length]; simp
  rw [run_append, e₁, Res.ok_bind] at hrun
  rw [run_append, e₁, Res.ok_bind]
  simp only [run, C07_ineffective_update_no_effect k u env pre s₀ s₁ rs₁ slot₁ scr buf n hvp e₁ hi, Res.ok_bind]
  cases hp : run (algOf k) u env post slot₁ s₁ with
  | ub => rw [hp] at hrun; cases hrun
  | diverge => rw [hp] at hrun; cases hrun
  | ok y =>
    obtain ⟨rs₂, slot₂, s₂⟩ := y
    rw [hp] at hrun
    simp only [Res.ok_bind, Res.ok.injEq, Prod.mk.injEq] at hrun
    obtain ⟨rfl, rfl, rfl⟩ := hrun
    refine ⟨⟨if slot₁.isSome ∧ buf.isSome ∧ n = 0 then 1 else -1, none⟩, ?_⟩
    simp [← hlen]

example (k : Kind) : ValidCalls k ((calls0 k).take 4 ++ (calls0 k).drop 4) ∧ Ineffective (.update (some [1]) (2 ^ 64)) ∧
    ∃ x, run (algOf k) true (env0 k) ((calls0 k).take 4 ++ (calls0 k).drop 4) none (st0 k.width) = .ok x := by
  rw [List.take_append_drop]
  obtain ⟨rs, p, s', e⟩ := calls0_run k
  exact ⟨calls0_ok k, Or.inr (by decide), _, e⟩

/-- C11, finalize. In every reachable state a finalize with an output area of at least HASH_SIZE bytes stores a digest in the first HASH_SIZE
bytes and keeps all later ones; besides the output area only the context itself is written. -/
theorem C11_finalize_writes_digest_only (k : Kind) (u : Bool) (env : Env k.width) (calls : List (ApiCall × Scr k.width)) (s₀ s : St k.width)
    (rs : List Reply) (p : Nat) (scr : Scr k.width) (out : List Byte) (n : Nat) (hv : ValidCalls k calls) (hscr : Kind.Junk k scr)
    (hrun : run (algOf k) u env calls none s₀ = .ok (rs, some p, s)) (hn : k.hashSize ≤ n ∧ n ≤ maxSize) (ho : n ≤ out.length) :
    ∃ d c, d.length = k.hashSize ∧ step (algOf k) u env (.finalize (some out) n) scr (some p) s =
        .ok (⟨1, some (d ++ out.drop k.hashSize)⟩, some p, { s with live := (p, .ctx c) :: s₀.live }) ∧
      (d ++ out.drop k.hashSize).length = out.length := by
  obtain ⟨d, hd, e⟩ := step_finalize hv hrun scr hscr out n hn ho
  refine ⟨d, _, hd, e, ?_⟩
  simp only [List.length_append, hd, List.length_drop]; omega

example (k : Kind) : ValidCalls k (calls0 k) ∧ Kind.Junk k (junk0 k) ∧ k.hashSize ≤ 65 ∧ 65 ≤ maxSize ∧ 65 ≤ (List.replicate 65 (1 : Byte)).length ∧
    ∃ rs p s, run (algOf k) true (env0 k) (calls0 k) none (st0 k.width) = .ok (rs, some p, s) :=
  ⟨calls0_ok k, junk0_ok k, by cases k <;> decide, by decide, by simp, calls0_run k⟩

/-- C12. In every reachable state finalize returns 1 exactly for a context, an output area and a size between HASH_SIZE and SSIZE_MAX. -/
theorem C12_finalize_result (k : Kind) (u : Bool) (env : Env k.width) (calls : List (ApiCall × Scr k.width)) (s₀ s : St k.width)
    (rs : List Reply) (slot : Option Nat) (scr : Scr k.width) (out : Option (List Byte)) (n : Nat) (hv : ValidCalls k calls) (hscr : Kind.Junk k scr)
    (hrun : run (algOf k) u env calls none s₀ = .ok (rs, slot, s)) (ho : (ApiCall.finalize out n).Valid) :
    ∃ r slot' s', step (algOf k) u env (.finalize out n) scr slot s = .ok (r, slot', s') ∧ slot' = slot ∧
      r.code = if slot.isSome ∧ out.isSome ∧ k.hashSize ≤ n ∧ n ≤ maxSize then 1 else -1 := by
  by_cases hc : slot.isSome ∧ out.isSome ∧ k.hashSize ≤ n ∧ n ≤ maxSize
  · obtain ⟨hs, ho', hn⟩ := id hc
    obtain ⟨p, rfl⟩ := Option.isSome_iff_exists.mp hs
    obtain ⟨o, rfl⟩ := Option.isSome_iff_exists.mp ho'
    obtain ⟨d, -, e⟩ := step_finalize hv hrun scr hscr o n hn (ho hn.2)
    exact ⟨_, _, _, e, rfl, by rw [if_pos hc]⟩
  · exact ⟨_, _, _, step_finalize_bad hv hrun scr out n hc, rfl, by rw [if_neg hc]⟩

/-- C12. A rejected finalize changes neither the memory (contexts included) nor the output area. -/
theorem C12_finalize_rejected_no_effect (k : Kind) (u : Bool) (env : Env k.width) (calls : List (ApiCall × Scr k.width)) (s₀ s s' : St k.width)
    (rs : List Reply) (slot slot' : Option Nat) (scr : Scr k.width) (out : Option (List Byte)) (n : Nat) (r : Reply) (hv : ValidCalls k calls)
    (hscr : Kind.Junk k scr) (hrun : run (algOf k) u env calls none s₀ = .ok (rs, slot, s)) (ho : (ApiCall.finalize out n).Valid)
    (hstep : step (algOf k) u env (.finalize out n) scr slot s = .ok (r, slot', s')) (hr : r.code ≠ 1) :
    r = ⟨-1, out⟩ ∧ slot' = slot ∧ s' = s := by
  obtain ⟨r₁, slot₁, s₁, e, rfl, hc⟩ := C12_finalize_result k u env calls s₀ s rs slot scr out n hv hscr hrun ho
  obtain ⟨rfl, rfl, rfl⟩ : r = r₁ ∧ slot' = slot₁ ∧ s' = s₁ := by rw [hstep] at e; simpa using e
  have hcond : ¬ (slot'.isSome ∧ out.isSome ∧ k.hashSize ≤ n ∧ n ≤ maxSize) := by
    intro h; rw [if_pos h] at hc; exact hr hc
  rw [step_finalize_bad hv hrun scr out n hcond] at hstep
  simp only [Res.ok.injEq, Prod.mk.injEq] at hstep
  exact ⟨hstep.1.symm, rfl, hstep.2.2.symm⟩

example (k : Kind) : (ApiCall.finalize (some [1, 2, 3]) 3).Valid ∧ ValidCalls k (calls0 k) ∧
    ∃ rs p s r slot' s', run (algOf k) true (env0 k) (calls0 k) none (st0 k.width) = .ok (rs, some p, s) ∧
      step (algOf k) true (env0 k) (.finalize (some [1, 2, 3]) 3) (junk0 k) (some p) s = .ok (r, slot', s') ∧ r.code ≠ 1 := by
  obtain ⟨rs, p, s, e⟩ := calls0_run k
  have hV : (ApiCall.finalize (some [1, 2, 3]) 3).Valid := by simp [ApiCall.Valid]
  obtain ⟨r, slot', s', e', -, hc⟩ := C12_finalize_result k true (env0 k) (calls0 k) _ s rs (some p) (junk0 k) (some [1, 2, 3]) 3 (calls0_ok k) (junk0_ok k) e hV
  refine ⟨hV, calls0_ok k, rs, p, s, r, slot', s', e, e', ?_⟩
  have : ¬ k.hashSize ≤ 3 := by cases k <;> decide
  rw [hc, if_neg (by simp [this])]; decide

/-- C13. Every history whose buffers have the stated sizes runs to the end: no undefined behaviour (out-of-bounds access, use of a NULL, freed or
foreign pointer, double free) and no endless loop. -/
theorem C13_no_undefined_behaviour (k : Kind) (u : Bool) (env : Env k.width) (calls : List (ApiCall × Scr k.width)) (s : St k.width)
    (hv : ValidCalls k calls) : ∃ rs slot s', run (algOf k) u env calls none s = .ok (rs, slot, s') ∧ rs.length = calls.length := by
  obtain ⟨slot, s', e, -⟩ := run_kind k u env calls s hv
  refine ⟨_, slot, s', e, ?_⟩
  rw [specRun_length]; simp

/-- C13. No indeterminate value is used: the replies (result codes and output areas) are the same for any two contents of fresh heap memory and
of the stack arrays, and for both build variants. -/
theorem C13_indeterminate_values_unobservable (k : Kind) (u₁ u₂ : Bool) (env₁ env₂ : Env k.width) (calls₁ calls₂ : List (ApiCall × Scr k.width))
    (s₁ s₂ : St k.width) (hv₁ : ValidCalls k calls₁) (hv₂ : ValidCalls k calls₂) (hc : calls₁.map (·.1) = calls₂.map (·.1))
    (hal : env₁.allocOk = env₂.allocOk) (hcnt : s₁.count = s₂.count) :
    ∃ rs slot₁ t₁ slot₂ t₂, run (algOf k) u₁ env₁ calls₁ none s₁ = .ok (rs, slot₁, t₁) ∧ run (algOf k) u₂ env₂ calls₂ none s₂ = .ok (rs, slot₂, t₂) := by
  obtain ⟨slot₁, t₁, e₁, -⟩ := run_kind k u₁ env₁ calls₁ s₁ hv₁
  obtain ⟨slot₂, t₂, e₂, -⟩ := run_kind k u₂ env₂ calls₂ s₂ hv₂
  rw [hc, hal, hcnt] at e₁
  exact ⟨_, slot₁, t₁, slot₂, t₂, e₁, e₂⟩

example (k : Kind) : ValidCalls k (calls0 k) := calls0_ok k

/-- C14. In every reachable state with a context, let `m` be the bytes received since it was created or last finalised. The context buffers
fewer than block-size bytes, namely the last `m.length % B` bytes of `m`; its counter is the number of whole blocks times the block size modulo 2^64;
its chaining value is the standard's over these blocks, from the initial value (or from zero after a finalize). -/
theorem C14_context_invariant (k : Kind) (u : Bool) (env : Env k.width) (calls : List (ApiCall × Scr k.width)) (s₀ s : St k.width)
    (rs : List Reply) (p : Nat) (hv : ValidCalls k calls) (hrun : run (algOf k) u env calls none s₀ = .ok (rs, some p, s)) :
    ∃ c : Ctx k.width, s.live = (p, .ctx c) :: s₀.live ∧
      let m := received ((calls.map (·.1)).zip rs) []
      let q := m.length / k.blockSize * k.blockSize
      c.blockOffset < k.blockSize ∧ c.blockOffset = m.length - q ∧ c.block.take c.blockOffset = m.drop q ∧
      c.hashCount = BitVec.ofNat 64 q ∧ c.block.length = 2 * k.blockSize ∧
      c.hashValues = k.std.chain (started k.std.iv (List.replicate k.words 0) ((calls.map (·.1)).zip rs) []) (blocks k.blockSize m) := by
  obtain ⟨c, hl, hh, hr⟩ := reach_ctx hv hrun
  refine ⟨c, hl, ?_⟩
  obtain ⟨a, r, hm, h1, h2, h3, h4, h5, h6, h7⟩ := hr
  rw [algOf_blockSize] at h1 h2 h3 h6
  have hB : 0 < k.blockSize := by cases k <;> decide
  have hq : (received ((calls.map (·.1)).zip rs) []).length / k.blockSize * k.blockSize = a.length := by
    obtain ⟨x, hx⟩ := Nat.dvd_of_mod_eq_zero h1
    rw [hm, List.length_append, hx, Nat.mul_add_div hB, Nat.div_eq_of_lt h2, Nat.add_zero, Nat.mul_comm]
  simp only [hq]
  refine ⟨by omega, ?_, ?_, h4, h6, ?_⟩
  · rw [h5, hm]; simp
  · rw [h5, h7, hm]; simp
  · rw [h3, len64_chain, ← std_iv, hm, Spec.blocks_append hB _ _ h1, Spec.blocks_of_lt h2, List.append_nil]

example (k : Kind) : ValidCalls k (calls0 k) ∧ ∃ rs p s, run (algOf k) true (env0 k) (calls0 k) none (st0 k.width) = .ok (rs, some p, s) :=
  ⟨calls0_ok k, calls0_run k⟩

/-- C15. After a successful finalize in any reachable state every member of the context is zero: counter, chaining value, offset and both blocks of
the buffer. -/
theorem C15_finalize_wipes_context (k : Kind) (u : Bool) (env : Env k.width) (calls : List (ApiCall × Scr k.width)) (s₀ s s' : St k.width)
    (rs : List Reply) (slot slot' : Option Nat) (scr : Scr k.width) (out : Option (List Byte)) (n : Nat) (r : Reply) (hv : ValidCalls k calls)
    (hscr : Kind.Junk k scr) (hrun : run (algOf k) u env calls none s₀ = .ok (rs, slot, s)) (ho : (ApiCall.finalize out n).Valid)
    (hstep : step (algOf k) u env (.finalize out n) scr slot s = .ok (r, slot', s')) (hr : r.code = 1) :
    ∃ p, slot' = some p ∧ s'.live =
      (p, .ctx ⟨0, List.replicate k.words 0, 0, List.replicate (2 * k.blockSize) 0⟩) :: s₀.live := by
  obtain ⟨r₁, slot₁, s₁, e, rfl, hc⟩ := C12_finalize_result k u env calls s₀ s rs slot scr out n hv hscr hrun ho
  obtain ⟨rfl, rfl, rfl⟩ : r = r₁ ∧ slot' = slot₁ ∧ s' = s₁ := by rw [hstep] at e; simpa using e
  by_cases hcond : slot'.isSome ∧ out.isSome ∧ k.hashSize ≤ n ∧ n ≤ maxSize
  · obtain ⟨hs, ho', hn⟩ := hcond
    obtain ⟨p, rfl⟩ := Option.isSome_iff_exists.mp hs
    obtain ⟨o, rfl⟩ := Option.isSome_iff_exists.mp ho'
    obtain ⟨d, -, e'⟩ := step_finalize hv hrun scr hscr o n hn (ho hn.2)
    rw [e'] at hstep
    simp only [Res.ok.injEq, Prod.mk.injEq] at hstep
    refine ⟨p, rfl, ?_⟩
    rw [← hstep.2.2]
    simp only [zeroCtx, algOf_nHash, algOf_blockSize]
  · rw [if_neg hcond] at hc
    omega

example (k : Kind) : ∃ rs slot s r slot' s', run (algOf k) true (env0 k) (calls0 k) none (st0 k.width) = .ok (rs, slot, s) ∧
    step (algOf k) true (env0 k) (.finalize (some (List.replicate 64 0)) 64) (junk0 k) slot s = .ok (r, slot', s') ∧ r.code = 1 := by
  obtain ⟨rs, p, s, e⟩ := calls0_run k
  have hn : k.hashSize ≤ 64 ∧ 64 ≤ maxSize := by cases k <;> decide
  obtain ⟨r, slot', s', e', -, hr⟩ := C12_finalize_result k true (env0 k) (calls0 k) (st0 k.width) s rs (some p) (junk0 k) (some (List.replicate 64 0)) 64 (calls0_ok k)
    (junk0_ok k) e (fun _ => by simp)
  refine ⟨rs, some p, s, r, slot', s', e, e', ?_⟩
  rw [hr, if_pos ⟨rfl, rfl, hn⟩]

/-- C16. The client that goes on using a context after finalize, without creating a new one: every call succeeds, the first digest is the
standard one, the second is the hash of the second message computed from the all-zero chaining value. -/
theorem C16_reuse_after_finalize (k : Kind) (u : Bool) (env : Env k.width) (s : St k.width) (chunks₁ chunks₂ : List (List Byte × Scr k.width))
    (last₁ last₂ : Scr k.width) (out₁ out₂ : List Byte) (n₁ n₂ : Nat) (hal : env.allocOk s.count = true)
    (v₁ : ValidStream k chunks₁ last₁ out₁ n₁) (v₂ : ValidStream k chunks₂ last₂ out₂ n₂)
    (hl₁ : k.LengthOk (message chunks₁).length) (hl₂ : k.LengthOk (message chunks₂).length) :
    ∃ slot s', run (algOf k) u env (hashCalls chunks₁ last₁ out₁ n₁ ++ (hashCalls chunks₂ last₂ out₂ n₂).tail) none s =
      .ok (goodReplies chunks₁.length (k.std.digest (message chunks₁) ++ out₁.drop k.hashSize) ++
        (goodReplies chunks₂.length (k.std.digestFrom (List.replicate k.words 0) (message chunks₂) ++ out₂.drop k.hashSize)).tail, slot, s') := by
  have hvv : ValidCalls k (hashCalls chunks₁ last₁ out₁ n₁ ++ (hashCalls chunks₂ last₂ out₂ n₂).tail) := by
    intro c hc
    rcases List.mem_append.mp hc with h | h
    · exact hashCalls_valid v₁ c h
    · exact hashCalls_valid v₂ c (List.mem_of_mem_tail h)
  obtain ⟨slot, s', e, -⟩ := run_kind k u env _ s hvv
  refine ⟨slot, s', ?_⟩
  rw [e, ← len64_digest k _ hl₁, ← len64_digestFrom k _ _ hl₂, List.map_append]
  simp only [specRun]
  rw [apiRun_append]
  have h1 := specRun_hashCalls k env.allocOk chunks₁ last₁ out₁ n₁ s.count v₁ hal
  simp only [specRun] at h1
  rw [h1]
  simp only
  have h2 : ((hashCalls chunks₂ last₂ out₂ n₂).tail.map (·.1)) =
      (chunks₂.map (·.1)).map (fun c => .update (some c) c.length) ++ [.finalize (some out₂) n₂] := by
    rw [List.map_tail, hashCalls_map]; rfl
  rw [h2, apiRun_append, apiRun_updates _ _ _ _ _ _ _ _ (by
    intro c hc
    obtain ⟨x, hx, rfl⟩ := List.mem_map.mp hc
    exact (v₂.chunks x hx).1)]
  simp only [apiRun, apiStep, v₂.size, and_self, if_true, List.nil_append, goodReplies, message, List.length_map,
    List.replicate_succ, List.cons_append, List.tail_cons]

example (k : Kind) : ValidStream k (chunks0 k) (junk0 k) (List.replicate 70 1) 66 ∧ k.LengthOk (message (chunks0 k)).length := by
  refine ⟨chunks0_ok k, ?_⟩
  rw [chunks0_len]
  cases k <;> decide

/-- C17. In every reachable state: initialize on a variable that holds a context returns -1 without any effect; free sets the variable to NULL,
releases exactly its context (keeping all other memory) and returns 1; free of a NULL variable returns 1 without effect. -/
theorem C17_life_cycle_steps (k : Kind) (u : Bool) (env : Env k.width) (calls : List (ApiCall × Scr k.width)) (s₀ s : St k.width)
    (rs : List Reply) (slot : Option Nat) (scr : Scr k.width) (hv : ValidCalls k calls)
    (hrun : run (algOf k) u env calls none s₀ = .ok (rs, slot, s)) :
    (∀ p, slot = some p → step (algOf k) u env .init scr slot s = .ok (⟨-1, none⟩, slot, s)) ∧
    (slot = none → step (algOf k) u env .free scr slot s = .ok (⟨1, none⟩, none, s)) ∧
    (∀ p, slot = some p → ∃ c, s.live = (p, .ctx c) :: s₀.live ∧ step (algOf k) u env .free scr slot s =
      .ok (⟨1, none⟩, none, { s with live := s₀.live, freed := (p, .ctx c) :: s.freed })) ∧
    (slot = none → env.allocOk s.count = false → step (algOf k) u env .init scr slot s = .ok (⟨-1, none⟩, none, { s with count := s.count + 1 })) := by
  refine ⟨?_, ?_, ?_, ?_⟩
  · rintro p rfl; simp [step, apiInitialize, hInitialize, ctxInitialize]
  · rintro rfl; simp [step, apiFree, hFree]
  · rintro p rfl
    obtain ⟨c, hl, -⟩ := reach_ctx hv hrun
    refine ⟨c, hl, ?_⟩
    have hget : getKey p s.live = some (.ctx c) := by simp [hl, getKey]
    simp [step, apiFree, hFree, memFree, hget]
    simp [hl, eraseKey]
  · rintro rfl hal
    simp [step, apiInitialize, hInitialize, hal, ctxInitialize]

/-- Successful creations in a history. -/
def creations : List (ApiCall × Reply) → Nat
  | [] => 0
  | (.init, r) :: t => (if r.code = 1 then 1 else 0) + creations t
  | _ :: t => creations t

/-- C17. No history leaks or double-frees: the live objects are those before the history, plus the context in the variable if it is not NULL; every
other context created was freed (freeing a dead object is undefined behaviour, which does not occur), so the number of frees is the number of successful
creations, less one if the variable holds a context. The caller's memory is not touched. -/
theorem C17_no_leak (k : Kind) (u : Bool) (env : Env k.width) (calls : List (ApiCall × Scr k.width)) (s : St k.width) (hv : ValidCalls k calls) :
    ∃ rs slot s', run (algOf k) u env calls none s = .ok (rs, slot, s') ∧ s'.caller = s.caller ∧
      (match slot with
        | none => s'.live = s.live ∧ s'.freed.length = s.freed.length + creations ((calls.map (·.1)).zip rs)
        | some p => (∃ c, s'.live = (p, .ctx c) :: s.live) ∧ s'.freed.length + 1 = s.freed.length + creations ((calls.map (·.1)).zip rs)) := by
  obtain ⟨slot, s', e, ⟨-, h1⟩, h2, h3⟩ := run_kind k u env calls s hv
  have hcr : ∀ l, created l = creations l := by
    intro l
    induction l with
    | nil => rfl
    | cons x l ih =>
      obtain ⟨c, r⟩ := x
      cases c <;> simp [created, creations, ih]
  rw [hcr] at h3
  refine ⟨_, slot, s', e, h2, ?_⟩
  revert h1
  cases hx : (specRun k env.allocOk (calls.map (·.1)) ⟨none, s.count⟩).2.slot with
  | none =>
    cases slot with
    | none => intro h1; exact ⟨h1, h3⟩
    | some p => intro h1; exact h1.elim
  | some x =>
    cases slot with
    | none => intro h1; exact h1.elim
    | some p =>
      rintro ⟨-, -, c, h, -⟩
      exact ⟨⟨c, h⟩, h3⟩

example (k : Kind) : ValidCalls k (calls0 k) ∧ ∃ rs p s, run (algOf k) true (env0 k) (calls0 k) none (st0 k.width) = .ok (rs, some p, s) :=
  ⟨calls0_ok k, calls0_run k⟩

end Props
