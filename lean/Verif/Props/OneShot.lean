import Verif.Proofs.OneShot
/-! C08, C11 (calculate), C18: `libhmac_*_calculate`, for all five algorithms, both build variants, every placement of the areas in the caller's
memory and every outcome of the allocation. -/

namespace Props

open Model Spec

/-- The arguments with which a digest can be computed: both pointers given, sizes representable, output large enough. -/
def DigestArgs (k : Kind) (buffer : Option Nat) (size : Nat) (hash : Option Nat) (hashSize : Nat) : Prop :=
  buffer ≠ none ∧ size ≤ maxSize ∧ hash ≠ none ∧ k.hashSize ≤ hashSize ∧ hashSize ≤ maxSize

/-- A larger memory for the examples. -/
def st1 (w : Nat) : St w := ⟨List.replicate 300 7, 5, [(3, .bytes [1, 2])], [(2, .bytes [])]⟩

theorem st1_len (w : Nat) : (st1 w).caller.length = 300 := List.length_replicate

theorem slice_st1 (w o n : Nat) (h : o + n ≤ 300) : slice (st1 w).caller o n = List.replicate n 7 := by
  show ((List.replicate 300 7).drop o).take n = _
  rw [List.drop_replicate, List.take_replicate]
  congr 1
  omega

/-- C08. With valid arguments and a successful allocation, `calculate` returns 1 and stores the digest of the buffer as it was at the call
(the areas may overlap). `len64` is the standard hash function except for SHA-512 messages of 2^61 bytes and more, see `C05_sha512_long`. -/
theorem C08_calculate (k : Kind) (u : Bool) (env : Env k.width) (s : St k.width) (i size o n : Nat) (hj : Kind.Junk k env.scr)
    (hal : env.allocOk s.count = true) (hi : i + size ≤ s.caller.length) (ho : o + n ≤ s.caller.length) (hs : size ≤ maxSize)
    (hn : k.hashSize ≤ n ∧ n ≤ maxSize) :
    ∃ s', calculate (algOf k) u env (some i) size (some o) n s = .ok (1, s') ∧
      s'.caller = overwrite s.caller o (k.len64.digest (slice s.caller i size)) := by
  obtain ⟨enc, L⟩ := lawful k
  rcases calculate_ok L u env (scrOk_of_junk hj) (some i) size (some o) n s (by rintro _ ⟨⟩ -; exact hi) (by rintro _ ⟨⟩ -; exact ho) with h | h | h
  · rw [hal] at h; cases h.1
  · exact (h.2.1 ⟨by simp, hs, by simp, by rw [algOf_hashSize]; exact hn.1, hn.2⟩).elim
  · obtain ⟨-, i', o', hi', -, ho', -, -, e⟩ := h
    cases hi'; cases ho'
    exact ⟨_, e, rfl⟩

/-- C08, the standard digest; partial: for SHA-512 only for buffers shorter than 2^61 bytes (for longer ones the digest is not the standard one,
`C05_sha512_length_field_wrong`). -/
theorem C08_calculate_standard_partial (k : Kind) (u : Bool) (env : Env k.width) (s : St k.width) (i size o n : Nat) (hj : Kind.Junk k env.scr)
    (hal : env.allocOk s.count = true) (hi : i + size ≤ s.caller.length) (ho : o + n ≤ s.caller.length) (hs : size ≤ maxSize)
    (hn : k.hashSize ≤ n ∧ n ≤ maxSize) (hlen : k = .sha512 → size < 2 ^ 61) :
    ∃ s', calculate (algOf k) u env (some i) size (some o) n s = .ok (1, s') ∧
      s'.caller = overwrite s.caller o (k.std.digest (slice s.caller i size)) := by
  rw [← len64_digest k _ (by
    rw [slice_length hi]
    cases k <;> first | trivial | exact hlen rfl)]
  exact C08_calculate k u env s i size o n hj hal hi ho hs hn

/-- C08. `calculate` stores the same bytes that the streaming interface gives for any cutting of the buffer. -/
theorem C08_calculate_eq_streaming (k : Kind) (u₁ u₂ : Bool) (env₁ env₂ : Env k.width) (s₁ s₂ : St k.width) (i size o n : Nat)
    (chunks : List (List Byte × Scr k.width)) (last : Scr k.width) (out : List Byte) (n₂ : Nat)
    (hj : Kind.Junk k env₁.scr) (hal₁ : env₁.allocOk s₁.count = true) (hal₂ : env₂.allocOk s₂.count = true)
    (hi : i + size ≤ s₁.caller.length) (ho : o + n ≤ s₁.caller.length) (hs : size ≤ maxSize) (hn : k.hashSize ≤ n ∧ n ≤ maxSize)
    (hv : ValidStream k chunks last out n₂) (hm : message chunks = slice s₁.caller i size) :
    ∃ d s₁' slot s₂', d.length = k.hashSize ∧ calculate (algOf k) u₁ env₁ (some i) size (some o) n s₁ = .ok (1, s₁') ∧
      slice s₁'.caller o k.hashSize = d ∧
      run (algOf k) u₂ env₂ (hashCalls chunks last out n₂) none s₂ = .ok (goodReplies chunks.length (d ++ out.drop k.hashSize), slot, s₂') := by
  obtain ⟨s', e, hc⟩ := C08_calculate k u₁ env₁ s₁ i size o n hj hal₁ hi ho hs hn
  obtain ⟨slot, s₂', e₂⟩ := stream_ok k u₂ env₂ s₂ chunks last out n₂ hal₂ hv
  rw [hm] at e₂
  refine ⟨_, s', slot, s₂', digest_length k _, e, ?_, e₂⟩
  rw [hc]
  exact slice_overwrite (digest_length k _) (by have := hn.1; omega)

example (k : Kind) : Kind.Junk k (env0 k).scr ∧ (env0 k).allocOk (st1 k.width).count = true ∧ 5 + 203 ≤ (st1 k.width).caller.length ∧
    100 + 70 ≤ (st1 k.width).caller.length ∧ 203 ≤ maxSize ∧ (k.hashSize ≤ 70 ∧ 70 ≤ maxSize) ∧ (k = .sha512 → 203 < 2 ^ 61) ∧
    ∃ chunks : List (List Byte × Scr k.width), chunks.length = 2 ∧ ValidStream k chunks (junk0 k) (List.replicate 64 0) 64 ∧
      message chunks = slice (st1 k.width).caller 5 203 := by
  refine ⟨junk0_ok k, rfl, by rw [st1_len]; omega, by rw [st1_len]; omega, by decide, by cases k <;> decide, by simp,
    [(List.replicate 200 7, junk0 k), (List.replicate 3 7, junk0 k)], rfl, ⟨?_, junk0_ok k, by cases k <;> decide, by simp⟩, ?_⟩
  · intro c hc
    simp only [List.mem_cons, List.not_mem_nil, or_false] at hc
    rcases hc with rfl | rfl <;> exact ⟨by rw [List.length_replicate]; decide, junk0_ok k⟩
  · rw [slice_st1 _ _ _ (by omega)]
    simp only [message, List.map_cons, List.map_nil, List.flatten_cons, List.flatten_nil, List.append_nil, List.replicate_append_replicate]

/-- C18. `calculate` never has undefined behaviour; it returns 1 exactly if the arguments are valid and the allocation succeeds and -1 otherwise; with
-1 the caller's memory is unchanged; the live heap is always as before, and the one allocation it makes (if it succeeds) is freed exactly once. -/
theorem C18_calculate_result (k : Kind) (u : Bool) (env : Env k.width) (s : St k.width) (buffer : Option Nat) (size : Nat) (hash : Option Nat) (n : Nat)
    (hj : Kind.Junk k env.scr) (hb : AreaOk s.caller buffer size) (hh : AreaOk s.caller hash n) :
    ∃ r s', calculate (algOf k) u env buffer size hash n s = .ok (r, s') ∧
      (r = 1 ∨ r = -1) ∧ (r = 1 ↔ DigestArgs k buffer size hash n ∧ env.allocOk s.count = true) ∧ (r = -1 → s'.caller = s.caller) ∧
      s'.live = s.live ∧ s'.count = s.count + 1 ∧
      s'.freed.map (·.1) = (if env.allocOk s.count then [s.count] else []) ++ s.freed.map (·.1) := by
  obtain ⟨enc, L⟩ := lawful k
  rcases calculate_ok L u env (scrOk_of_junk hj) buffer size hash n s hb hh with ⟨h, e⟩ | ⟨h, h2, c, e⟩ | ⟨h, i, o, h1, h2, h3, h4, h5, e⟩
  · exact ⟨_, _, e, .inr rfl, by simp [h], fun _ => rfl, rfl, rfl, by simp [h]⟩
  · refine ⟨_, _, e, .inr rfl, ⟨by simp, fun hh => (h2 ?_).elim⟩, fun _ => rfl, rfl, rfl, by simp [h]⟩
    have := hh.1
    unfold DigestArgs at this
    rw [← algOf_hashSize] at this
    exact this
  · refine ⟨_, _, e, .inl rfl, ⟨fun _ => ⟨?_, h⟩, fun _ => rfl⟩, by simp, rfl, rfl, by simp [h]⟩
    rw [algOf_hashSize] at h4
    exact ⟨by simp [h1], h2, by simp [h3], h4, h5⟩

/-- The cases of C18 all occur: with valid arguments, bad arguments, and failing allocation. -/
example (k : Kind) : AreaOk (st1 k.width).caller (some 5) 203 ∧ AreaOk (st1 k.width).caller (some 7) 70 ∧ AreaOk (st1 k.width).caller none 70 ∧
    AreaOk (st1 k.width).caller (some 7) (2 ^ 63) ∧ DigestArgs k (some 5) 203 (some 7) 70 ∧ ¬ DigestArgs k (some 5) 203 none 70 ∧
    ¬ DigestArgs k (some 5) 203 (some 7) 15 ∧ ¬ DigestArgs k (some 5) 203 (some 7) (2 ^ 63) := by
  have : k.hashSize ≤ 70 ∧ ¬ k.hashSize ≤ 15 := by cases k <;> decide
  refine ⟨?_, ?_, ?_, ?_, ⟨by simp, by simp [maxSize], by simp, this.1, by simp [maxSize]⟩, by simp [DigestArgs], by simp [DigestArgs, this.2], by simp [DigestArgs, maxSize]⟩ <;>
    intro o ho hn <;> rw [st1_len] <;> simp at * <;> omega

/-- C11, calculate. A successful `calculate` writes exactly HASH_SIZE bytes at the start of the output area; every other byte of the caller's
memory keeps its value. -/
theorem C11_calculate_writes_digest_only (k : Kind) (u : Bool) (env : Env k.width) (s s' : St k.width) (buffer : Option Nat) (size o n : Nat)
    (hj : Kind.Junk k env.scr) (hb : AreaOk s.caller buffer size) (hh : AreaOk s.caller (some o) n)
    (hrun : calculate (algOf k) u env buffer size (some o) n s = .ok (1, s')) :
    s'.caller.length = s.caller.length ∧ ∀ j, j < o ∨ o + k.hashSize ≤ j → s'.caller[j]? = s.caller[j]? := by
  obtain ⟨enc, L⟩ := lawful k
  rcases calculate_ok L u env (scrOk_of_junk hj) buffer size (some o) n s hb hh with ⟨h, e⟩ | ⟨h, h2, c, e⟩ | ⟨h, i, o', h1, h2, h3, h4, h5, e⟩
  · rw [e] at hrun; simp at hrun
  · rw [e] at hrun; simp at hrun
  · cases h3
    rw [e] at hrun
    simp only [Res.ok.injEq, Prod.mk.injEq, true_and] at hrun
    subst hrun
    rw [algOf_hashSize] at h4
    have hol := hh o rfl h5
    have hdl := digest_length k (slice s.caller i size)
    refine ⟨overwrite_length (by omega), fun j hj => ?_⟩
    simp only
    rw [overwrite_getElem? (by omega), if_neg (by omega)]

example (k : Kind) : ∃ s', calculate (algOf k) true (env0 k) (some 5) 203 (some 100) 70 (st1 k.width) = .ok (1, s') := by
  obtain ⟨s', e, -⟩ := C08_calculate k true (env0 k) (st1 k.width) 5 203 100 70 (junk0_ok k) rfl (by rw [st1_len]; omega) (by rw [st1_len]; omega) (by decide) (by cases k <;> decide)
  exact ⟨s', e⟩

end Props
