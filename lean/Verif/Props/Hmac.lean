import Verif.Props.OneShot
/-! C09, C10, C11 (HMAC), C19-C22, C26: `libhmac_*_calculate_hmac`, for all five algorithms, both build variants, every placement of key, message
and output in the caller's memory, every schedule of allocation failures and every content of uninitialised memory (`keyHash`: the local array
`key_hash`). -/

namespace Props

open Model Spec

/-- The arguments with which an HMAC can be computed. -/
def HmacArgs (k : Kind) (key : Option Nat) (keySize : Nat) (buffer : Option Nat) (size : Nat) (hmac : Option Nat) (hmacSize : Nat) : Prop :=
  key ≠ none ∧ keySize ≤ maxSize ∧ DigestArgs k buffer size hmac hmacSize

/-- The number of allocations of a successful call: padded key, two paddings, two contexts, and one more context for a key longer than a block. -/
def allocations (k : Kind) (keySize : Nat) : Nat := if keySize ≤ k.blockSize then 5 else 6

/-- What the caller must ensure: non-NULL areas with a representable size lie in their memory. (The other two are not under the caller's control:
the stack arrays have their declared sizes.) -/
structure HmacCall (k : Kind) (env : Env k.width) (keyHash : List Byte) (s : St k.width) (key : Option Nat) (keySize : Nat) (buffer : Option Nat)
    (size : Nat) (hmac : Option Nat) (hmacSize : Nat) : Prop where
  key : AreaOk s.caller key keySize
  buffer : AreaOk s.caller buffer size
  hmac : AreaOk s.caller hmac hmacSize
  junk : Kind.Junk k env.scr
  keyHash : keyHash.length = k.hashSize

/-- All calls of the examples: key at 10, message at 120 (overlapping a long key), output at 60 (overlapping all). -/
theorem call1 (k : Kind) (al : Nat → Bool) (ks : Nat) (h : ks ≤ 200) :
    HmacCall k { env0 k with allocOk := al } (List.replicate k.hashSize 1) (st1 k.width) (some 10) ks (some 120) 100 (some 60) 80 where
  key := by rintro _ ⟨⟩ -; rw [st1_len]; omega
  buffer := by rintro _ ⟨⟩ -; rw [st1_len]; omega
  hmac := by rintro _ ⟨⟩ -; rw [st1_len]; omega
  junk := junk0_ok k
  keyHash := by simp

theorem args1 (k : Kind) (ks : Nat) (h : ks ≤ 200) : HmacArgs k (some 10) ks (some 120) 100 (some 60) 80 :=
  ⟨by simp, by unfold maxSize; omega, by simp, by decide, by simp, by cases k <;> decide, by decide⟩

theorem hmacEnd {k : Kind} (u : Bool) {env : Env k.width} {kh : List Byte} {s : St k.width} {key : Option Nat} {keySize : Nat} {buffer : Option Nat} {size : Nat}
    {hmac : Option Nat} {hmacSize : Nat} (hc : HmacCall k env kh s key keySize buffer size hmac hmacSize) :
    ∃ r l' s' fl, calculateHmac (algOf k) u env kh key keySize buffer size hmac hmacSize s = .ok (r, l', s') ∧
      HmacEnd (algOf k) k.len64 env key keySize buffer size hmac hmacSize s r l' s' fl := by
  obtain ⟨enc, L⟩ := lawful k
  exact calculateHmac_ok L u env (scrOk_of_junk hc.junk) kh (by rw [hc.keyHash, algOf_hashSize]) key keySize buffer size hmac hmacSize s hc.key hc.buffer hc.hmac

theorem hmacArgs_iff {k : Kind} {key : Option Nat} {keySize : Nat} {buffer : Option Nat} {size : Nat} {hmac : Option Nat} {hmacSize : Nat} :
    HmacArgs k key keySize buffer size hmac hmacSize ↔ (key ≠ none ∧ keySize ≤ ssizeMax ∧ PassArgs (algOf k) buffer size hmac hmacSize) := by
  unfold HmacArgs DigestArgs PassArgs
  rw [algOf_hashSize]
  rfl

theorem allocations_eq (k : Kind) (n : Nat) : hmacAllocs (algOf k).hmacBlockSize n = allocations k n := by
  unfold hmacAllocs allocations
  rw [algOf_hmacBs]

/-- C09. With valid arguments and enough memory, `calculate_hmac` returns 1 and stores the RFC 2104 HMAC of the key and message bytes at call time.
The hash function is `len64`, the standard one except for SHA-512 inputs of 2^61 bytes and more. -/
theorem C09_hmac (k : Kind) (u : Bool) (env : Env k.width) (kh : List Byte) (s : St k.width) (key keySize i size o n : Nat)
    (hc : HmacCall k env kh s (some key) keySize (some i) size (some o) n) (ha : HmacArgs k (some key) keySize (some i) size (some o) n)
    (hal : ∀ j < allocations k keySize, env.allocOk (s.count + j) = true) :
    ∃ l' s', calculateHmac (algOf k) u env kh (some key) keySize (some i) size (some o) n s = .ok (1, l', s') ∧
      s'.caller = overwrite s.caller o (Spec.hmac k.blockSize k.len64.digest (slice s.caller key keySize) (slice s.caller i size)) := by
  obtain ⟨r, l', s', fl, e, h⟩ := hmacEnd u hc
  rcases h.result with ⟨rfl, -, k', i', o', h1, h2, h3, -, h5⟩ | ⟨-, -, h | ⟨j, hj, h⟩⟩ | ⟨-, h1, h2, -⟩
  · cases h1; cases h2; cases h3
    refine ⟨l', s', e, ?_⟩
    rw [h5, algOf_hmacBs]
    rfl
  · exact (h (hmacArgs_iff.mp ha)).elim
  · rw [allocations_eq] at hj
    rw [hal j (by omega)] at h
    cases h
  · rw [allocations_eq] at h2
    rw [hal _ (by unfold allocations; split <;> omega)] at h2
    cases h2

/-- C09, over the standard hash functions; partial: for SHA-512 only for keys shorter than 2^61 bytes and messages shorter than 2^61 - 128 bytes
(beyond, the inner or key hash is not the standard one). -/
theorem C09_hmac_standard_partial (k : Kind) (u : Bool) (env : Env k.width) (kh : List Byte) (s : St k.width) (key keySize i size o n : Nat)
    (hc : HmacCall k env kh s (some key) keySize (some i) size (some o) n) (ha : HmacArgs k (some key) keySize (some i) size (some o) n)
    (hal : ∀ j < allocations k keySize, env.allocOk (s.count + j) = true) (hlen : k = .sha512 → keySize < 2 ^ 61 ∧ size < 2 ^ 61 - 128) :
    ∃ l' s', calculateHmac (algOf k) u env kh (some key) keySize (some i) size (some o) n s = .ok (1, l', s') ∧
      s'.caller = overwrite s.caller o (Spec.hmac k.blockSize k.std.digest (slice s.caller key keySize) (slice s.caller i size)) := by
  have h1 := slice_length (hc.key key rfl ha.2.1)
  have h2 := slice_length (hc.buffer i rfl ha.2.2.2.1)
  rw [← hmac_len64 k _ _ (by
    rw [h1]
    cases k <;> first | trivial | exact (hlen rfl).1) (by
    rw [h2]
    cases k <;> first | trivial | (have := (hlen rfl).2; simp only [Kind.LengthOk, Kind.blockSize]; omega))]
  exact C09_hmac k u env kh s key keySize i size o n hc ha hal

/-- The hypotheses of C09 hold for empty, short, block-sized and longer keys. -/
example (k : Kind) (ks : Nat) (h : ks ≤ 200) :=
  C09_hmac_standard_partial k true (env0 k) (List.replicate k.hashSize 1) (st1 k.width) 10 ks 120 100 60 80 (call1 k _ ks h) (args1 k ks h) (fun _ _ => rfl)
    (fun _ => ⟨by omega, by omega⟩)

/-- C10. A key of at most block-size bytes and the same key with zero bytes appended up to any length within the block give the same HMAC (in any two
calls with equal messages). -/
theorem C10_zero_padded_key (k : Kind) (u₁ u₂ : Bool) (env₁ env₂ : Env k.width) (kh₁ kh₂ : List Byte) (s₁ s₂ : St k.width)
    (key₁ i₁ size o₁ n₁ key₂ i₂ o₂ n₂ ks z : Nat)
    (hc₁ : HmacCall k env₁ kh₁ s₁ (some key₁) ks (some i₁) size (some o₁) n₁) (ha₁ : HmacArgs k (some key₁) ks (some i₁) size (some o₁) n₁)
    (hc₂ : HmacCall k env₂ kh₂ s₂ (some key₂) (ks + z) (some i₂) size (some o₂) n₂) (ha₂ : HmacArgs k (some key₂) (ks + z) (some i₂) size (some o₂) n₂)
    (hal₁ : ∀ j < allocations k ks, env₁.allocOk (s₁.count + j) = true) (hal₂ : ∀ j < allocations k (ks + z), env₂.allocOk (s₂.count + j) = true)
    (hz : ks + z ≤ k.blockSize) (hk : slice s₂.caller key₂ (ks + z) = slice s₁.caller key₁ ks ++ List.replicate z 0)
    (hm : slice s₂.caller i₂ size = slice s₁.caller i₁ size) :
    ∃ d l₁ l₂ s₁' s₂', d.length = k.hashSize ∧ calculateHmac (algOf k) u₁ env₁ kh₁ (some key₁) ks (some i₁) size (some o₁) n₁ s₁ = .ok (1, l₁, s₁') ∧
      calculateHmac (algOf k) u₂ env₂ kh₂ (some key₂) (ks + z) (some i₂) size (some o₂) n₂ s₂ = .ok (1, l₂, s₂') ∧
      slice s₁'.caller o₁ k.hashSize = d ∧ slice s₂'.caller o₂ k.hashSize = d := by
  obtain ⟨l₁, s₁', e₁, c₁⟩ := C09_hmac k u₁ env₁ kh₁ s₁ key₁ ks i₁ size o₁ n₁ hc₁ ha₁ hal₁
  obtain ⟨l₂, s₂', e₂, c₂⟩ := C09_hmac k u₂ env₂ kh₂ s₂ key₂ (ks + z) i₂ size o₂ n₂ hc₂ ha₂ hal₂
  have b₁ := hc₁.hmac o₁ rfl ha₁.2.2.2.2.2.2
  have b₂ := hc₂.hmac o₂ rfl ha₂.2.2.2.2.2.2
  have m₁ := ha₁.2.2.2.2.2.1
  have m₂ := ha₂.2.2.2.2.2.1
  have hl := slice_length (hc₁.key key₁ rfl ha₁.2.1)
  refine ⟨_, l₁, l₂, s₁', s₂', hmac_length k _ _, e₁, e₂, by rw [c₁]; exact slice_overwrite (hmac_length k _ _) (by omega), ?_⟩
  rw [c₂, slice_overwrite (hmac_length k _ _) (by omega), hk, hm]
  unfold Spec.hmac
  simp only [List.length_append, List.length_replicate, hl, show ks + z ≤ k.blockSize from hz, show ks ≤ k.blockSize by omega, if_true]
  rw [List.append_assoc, show List.replicate z (0 : Byte) ++ List.replicate (k.blockSize - (ks + z)) 0#8 = List.replicate (k.blockSize - ks) 0#8 by
    rw [show (0 : Byte) = 0#8 from rfl, List.replicate_append_replicate]; congr 1; omega]

/-- C10. A key longer than the block size and its digest used as key give the same HMAC. -/
theorem C10_long_key_is_its_digest (k : Kind) (u₁ u₂ : Bool) (env₁ env₂ : Env k.width) (kh₁ kh₂ : List Byte) (s₁ s₂ : St k.width)
    (key₁ i₁ size o₁ n₁ key₂ i₂ o₂ n₂ ks : Nat)
    (hc₁ : HmacCall k env₁ kh₁ s₁ (some key₁) ks (some i₁) size (some o₁) n₁) (ha₁ : HmacArgs k (some key₁) ks (some i₁) size (some o₁) n₁)
    (hc₂ : HmacCall k env₂ kh₂ s₂ (some key₂) k.hashSize (some i₂) size (some o₂) n₂)
    (ha₂ : HmacArgs k (some key₂) k.hashSize (some i₂) size (some o₂) n₂)
    (hal₁ : ∀ j < allocations k ks, env₁.allocOk (s₁.count + j) = true) (hal₂ : ∀ j < allocations k k.hashSize, env₂.allocOk (s₂.count + j) = true)
    (hz : k.blockSize < ks) (hk : slice s₂.caller key₂ k.hashSize = k.len64.digest (slice s₁.caller key₁ ks))
    (hm : slice s₂.caller i₂ size = slice s₁.caller i₁ size) :
    ∃ d l₁ l₂ s₁' s₂', d.length = k.hashSize ∧ calculateHmac (algOf k) u₁ env₁ kh₁ (some key₁) ks (some i₁) size (some o₁) n₁ s₁ = .ok (1, l₁, s₁') ∧
      calculateHmac (algOf k) u₂ env₂ kh₂ (some key₂) k.hashSize (some i₂) size (some o₂) n₂ s₂ = .ok (1, l₂, s₂') ∧
      slice s₁'.caller o₁ k.hashSize = d ∧ slice s₂'.caller o₂ k.hashSize = d := by
  obtain ⟨l₁, s₁', e₁, c₁⟩ := C09_hmac k u₁ env₁ kh₁ s₁ key₁ ks i₁ size o₁ n₁ hc₁ ha₁ hal₁
  obtain ⟨l₂, s₂', e₂, c₂⟩ := C09_hmac k u₂ env₂ kh₂ s₂ key₂ k.hashSize i₂ size o₂ n₂ hc₂ ha₂ hal₂
  have b₁ := hc₁.hmac o₁ rfl ha₁.2.2.2.2.2.2
  have b₂ := hc₂.hmac o₂ rfl ha₂.2.2.2.2.2.2
  have m₁ := ha₁.2.2.2.2.2.1
  have m₂ := ha₂.2.2.2.2.2.1
  have hl := slice_length (hc₁.key key₁ rfl ha₁.2.1)
  refine ⟨_, l₁, l₂, s₁', s₂', hmac_length k _ _, e₁, e₂, by rw [c₁]; exact slice_overwrite (hmac_length k _ _) (by omega), ?_⟩
  have hb : k.hashSize ≤ k.blockSize := by cases k <;> decide
  rw [c₂, slice_overwrite (hmac_length k _ _) (by omega), hk, hm]
  unfold Spec.hmac
  simp only [hl, digest_length, hb, show ¬ ks ≤ k.blockSize by omega, if_true, if_false]

/-- The hypotheses of C10 can be met: a memory with the key and, after it, zeros; and a memory holding the digest of a key. -/
example (k : Kind) : ∃ s₁ s₂ : St k.width, HmacCall k (env0 k) (List.replicate k.hashSize 1) s₁ (some 0) 3 (some 10) 5 (some 20) 64 ∧
    HmacCall k (env0 k) (List.replicate k.hashSize 1) s₂ (some 0) (3 + 7) (some 10) 5 (some 20) 64 ∧
    slice s₂.caller 0 (3 + 7) = slice s₁.caller 0 3 ++ List.replicate 7 0 ∧ slice s₂.caller 10 5 = slice s₁.caller 10 5 ∧ 3 + 7 ≤ k.blockSize ∧
    HmacArgs k (some 0) 3 (some 10) 5 (some 20) 64 := by
  refine ⟨⟨[1, 2, 3] ++ List.replicate 81 5, 0, [], []⟩, ⟨[1, 2, 3] ++ (List.replicate 7 0 ++ List.replicate 74 5), 0, [], []⟩, ⟨?_, ?_, ?_, junk0_ok k, by simp⟩,
    ⟨?_, ?_, ?_, junk0_ok k, by simp⟩, by rfl, by rfl, by cases k <;> decide, ⟨by simp, by decide, by simp, by decide, by simp, by cases k <;> decide, by decide⟩⟩ <;>
  · rintro _ ⟨⟩ -
    simp only [List.length_append, List.length_replicate, List.length_cons, List.length_nil]
    omega

example (k : Kind) : ∃ s₁ s₂ : St k.width, HmacCall k (env0 k) (List.replicate k.hashSize 1) s₁ (some 0) 200 (some 10) 5 (some 20) 64 ∧
    HmacCall k (env0 k) (List.replicate k.hashSize 1) s₂ (some 0) k.hashSize (some k.hashSize) 5 (some 20) 64 ∧
    slice s₂.caller 0 k.hashSize = k.len64.digest (slice s₁.caller 0 200) ∧ slice s₂.caller k.hashSize 5 = slice s₁.caller 10 5 ∧ k.blockSize < 200 := by
  have hb : k.hashSize ≤ 64 := by cases k <;> decide
  refine ⟨⟨List.replicate 200 5, 0, [], []⟩, ⟨k.len64.digest (slice (List.replicate 200 5) 0 200) ++ List.replicate 84 5, 0, [], []⟩, ⟨?_, ?_, ?_, junk0_ok k, by simp⟩,
    ⟨?_, ?_, ?_, junk0_ok k, by simp⟩, ?_, ?_, by cases k <;> decide⟩
  iterate 3 (rintro _ ⟨⟩ -; simp only [List.length_replicate]; omega)
  iterate 3 (rintro _ ⟨⟩ -; simp only [List.length_append, List.length_replicate, digest_length]; omega)
  · exact List.take_left' (digest_length k _)
  · simp only [slice]
    rw [List.drop_left' (digest_length k _), List.take_replicate, List.drop_replicate, List.take_replicate]
    congr 1

/-- C21. The areas may overlap in any way: two calls whose key and message bytes are equal at call time store the same HMAC, wherever key, message and
output lie in their memories. -/
theorem C21_aliasing_unobservable (k : Kind) (u₁ u₂ : Bool) (env₁ env₂ : Env k.width) (kh₁ kh₂ : List Byte) (s₁ s₂ : St k.width)
    (ks size key₁ i₁ o₁ n₁ key₂ i₂ o₂ n₂ : Nat)
    (hc₁ : HmacCall k env₁ kh₁ s₁ (some key₁) ks (some i₁) size (some o₁) n₁) (ha₁ : HmacArgs k (some key₁) ks (some i₁) size (some o₁) n₁)
    (hc₂ : HmacCall k env₂ kh₂ s₂ (some key₂) ks (some i₂) size (some o₂) n₂) (ha₂ : HmacArgs k (some key₂) ks (some i₂) size (some o₂) n₂)
    (hal₁ : ∀ j < allocations k ks, env₁.allocOk (s₁.count + j) = true) (hal₂ : ∀ j < allocations k ks, env₂.allocOk (s₂.count + j) = true)
    (hk : slice s₂.caller key₂ ks = slice s₁.caller key₁ ks) (hm : slice s₂.caller i₂ size = slice s₁.caller i₁ size) :
    ∃ d l₁ l₂ s₁' s₂', d.length = k.hashSize ∧ calculateHmac (algOf k) u₁ env₁ kh₁ (some key₁) ks (some i₁) size (some o₁) n₁ s₁ = .ok (1, l₁, s₁') ∧
      calculateHmac (algOf k) u₂ env₂ kh₂ (some key₂) ks (some i₂) size (some o₂) n₂ s₂ = .ok (1, l₂, s₂') ∧
      slice s₁'.caller o₁ k.hashSize = d ∧ slice s₂'.caller o₂ k.hashSize = d := by
  obtain ⟨l₁, s₁', e₁, c₁⟩ := C09_hmac k u₁ env₁ kh₁ s₁ key₁ ks i₁ size o₁ n₁ hc₁ ha₁ hal₁
  obtain ⟨l₂, s₂', e₂, c₂⟩ := C09_hmac k u₂ env₂ kh₂ s₂ key₂ ks i₂ size o₂ n₂ hc₂ ha₂ hal₂
  have b₁ := hc₁.hmac o₁ rfl ha₁.2.2.2.2.2.2
  have b₂ := hc₂.hmac o₂ rfl ha₂.2.2.2.2.2.2
  have m₁ := ha₁.2.2.2.2.2.1
  have m₂ := ha₂.2.2.2.2.2.1
  refine ⟨_, l₁, l₂, s₁', s₂', hmac_length k _ _, e₁, e₂, by rw [c₁]; exact slice_overwrite (hmac_length k _ _) (by omega), ?_⟩
  rw [c₂, slice_overwrite (hmac_length k _ _) (by omega), hk, hm]

/-- Key, message and output all at the same address, and the same bytes at different addresses. -/
example (k : Kind) : ∃ s₁ s₂ : St k.width, HmacCall k (env0 k) (List.replicate k.hashSize 1) s₁ (some 0) 70 (some 0) 70 (some 0) 64 ∧
    HmacCall k (env0 k) (List.replicate k.hashSize 1) s₂ (some 0) 70 (some 70) 70 (some 140) 64 ∧ HmacArgs k (some 0) 70 (some 0) 70 (some 0) 64 ∧
    slice s₂.caller 0 70 = slice s₁.caller 0 70 ∧ slice s₂.caller 70 70 = slice s₁.caller 0 70 := by
  refine ⟨⟨List.replicate 70 5, 0, [], []⟩, ⟨List.replicate 204 5, 0, [], []⟩, ⟨?_, ?_, ?_, junk0_ok k, by simp⟩,
    ⟨?_, ?_, ?_, junk0_ok k, by simp⟩, ⟨by simp, by decide, by simp, by decide, by simp, by cases k <;> decide, by decide⟩, ?_, ?_⟩
  iterate 6 (rintro _ ⟨⟩ -; simp only [List.length_replicate]; omega)
  · simp only [slice]
    rw [List.drop_replicate, List.take_replicate, List.drop_replicate, List.take_replicate]
    congr 1
  · simp only [slice]
    rw [List.drop_replicate, List.take_replicate, List.drop_replicate, List.take_replicate]
    congr 1

/-- C20. `calculate_hmac` never has undefined behaviour and returns 1 exactly if the arguments are valid and each of its five or six allocations
succeeds, -1 otherwise. -/
theorem C20_hmac_result (k : Kind) (u : Bool) (env : Env k.width) (kh : List Byte) (s : St k.width) (key : Option Nat) (keySize : Nat)
    (buffer : Option Nat) (size : Nat) (hmac : Option Nat) (n : Nat) (hc : HmacCall k env kh s key keySize buffer size hmac n) :
    ∃ r l' s', calculateHmac (algOf k) u env kh key keySize buffer size hmac n s = .ok (r, l', s') ∧ (r = 1 ∨ r = -1) ∧
      (r = 1 ↔ HmacArgs k key keySize buffer size hmac n ∧ ∀ j < allocations k keySize, env.allocOk (s.count + j) = true) := by
  obtain ⟨r, l', s', fl, e, h⟩ := hmacEnd u hc
  refine ⟨r, l', s', e, ?_⟩
  rcases h.result with ⟨rfl, h1, k', i', o', -, -, -, h4, -⟩ | ⟨rfl, -, h | ⟨j, hj, h⟩⟩ | ⟨rfl, h1, h2, -⟩
  · rw [allocations_eq] at h1
    exact ⟨.inl rfl, fun _ => ⟨hmacArgs_iff.mpr h4, h1⟩, fun _ => rfl⟩
  · exact ⟨.inr rfl, by simp, fun hh => (h (hmacArgs_iff.mp hh.1)).elim⟩
  · rw [allocations_eq] at hj
    refine ⟨.inr rfl, by simp, fun hh => ?_⟩
    rw [hh.2 j (by omega)] at h
    cases h
  · rw [allocations_eq] at h2
    refine ⟨.inr rfl, by simp, fun hh => ?_⟩
    rw [hh.2 _ (by unfold allocations; split <;> omega)] at h2
    cases h2

/-- Every allocation may fail, or none. -/
example (k : Kind) (al : Nat → Bool) (ks : Nat) (h : ks ≤ 200) := C20_hmac_result k true { env0 k with allocOk := al } _ _ _ _ _ _ _ _ (call1 k al ks h)

/-- C19. Whatever the arguments and the outcomes of the allocations, at return the live heap is the one at the call, and the blocks freed during the
call are exactly the successfully allocated ones, each freed once. -/
theorem C19_hmac_no_leak (k : Kind) (u : Bool) (env : Env k.width) (kh : List Byte) (s : St k.width) (key : Option Nat) (keySize : Nat)
    (buffer : Option Nat) (size : Nat) (hmac : Option Nat) (n : Nat) (hc : HmacCall k env kh s key keySize buffer size hmac n) :
    ∃ r l' s' fl, calculateHmac (algOf k) u env kh key keySize buffer size hmac n s = .ok (r, l', s') ∧ s'.live = s.live ∧
      s'.freed = fl ++ s.freed ∧ (fl.map (·.1)).Nodup ∧ (∀ p, p ∈ fl.map (·.1) ↔ (s.count ≤ p ∧ p < s'.count) ∧ env.allocOk p = true) ∧
      s'.count ≤ s.count + allocations k keySize := by
  obtain ⟨r, l', s', fl, e, h⟩ := hmacEnd u hc
  have := h.count.2
  rw [allocations_eq] at this
  exact ⟨r, l', s', fl, e, h.live, h.freed, h.nodup, h.mem, this⟩

/-- A call in which every second allocation fails. -/
example (k : Kind) := C19_hmac_no_leak k false { env0 k with allocOk := fun n => n % 2 == 0 } _ _ _ _ _ _ _ _ (call1 k _ 150 (by omega))

/-- C22. If `calculate_hmac` returns -1, the caller's memory is unchanged, or the only failing allocation is the last one and the first HASH_SIZE bytes
of the output area are the inner hash, all other bytes being unchanged. -/
theorem C22_failed_hmac_output (k : Kind) (u : Bool) (env : Env k.width) (kh : List Byte) (s : St k.width) (key : Option Nat) (keySize : Nat)
    (buffer : Option Nat) (size : Nat) (hmac : Option Nat) (n : Nat) (l' : Loc) (s' : St k.width)
    (hc : HmacCall k env kh s key keySize buffer size hmac n)
    (hrun : calculateHmac (algOf k) u env kh key keySize buffer size hmac n s = .ok (-1, l', s')) :
    s'.caller = s.caller ∨
    (HmacArgs k key keySize buffer size hmac n ∧ (∀ j < allocations k keySize, env.allocOk (s.count + j) = decide (j + 1 ≠ allocations k keySize)) ∧
      ∃ p i o k0, key = some p ∧ buffer = some i ∧ hmac = some o ∧ k0 = (if keySize ≤ k.blockSize then slice s.caller p keySize else k.len64.digest (slice s.caller p keySize)) ∧
        slice s'.caller o k.hashSize = k.len64.digest ((k0 ++ List.replicate (k.blockSize - k0.length) 0).map (· ^^^ 0x36) ++ slice s.caller i size) ∧
        s'.caller.length = s.caller.length ∧ ∀ j, j < o ∨ o + k.hashSize ≤ j → s'.caller[j]? = s.caller[j]?) := by
  obtain ⟨r, l₂, s₂, fl, e, h⟩ := hmacEnd u hc
  rw [hrun] at e
  simp only [Res.ok.injEq, Prod.mk.injEq] at e
  obtain ⟨rfl, rfl, rfl⟩ := e
  rcases h.result with ⟨h, -⟩ | ⟨-, h, -⟩ | ⟨-, h1, h2, p, i, o, hp, hi, ho, h4, h5⟩
  · cases h
  · exact .inl h
  · refine .inr ⟨hmacArgs_iff.mpr h4, ?_, p, i, o, _, hp, hi, ho, rfl, ?_⟩
    · intro j hj
      rw [allocations_eq] at h1 h2
      by_cases hjj : j + 1 = allocations k keySize
      · rw [show j = allocations k keySize - 1 by omega, h2]
        simp
        omega
      · rw [h1 j (by omega)]
        simp [hjj]
    · have ha := hmacArgs_iff.mpr h4
      have hl := slice_length (hc.key p hp ha.2.1)
      have hob := hc.hmac o ho ha.2.2.2.2.2.2
      have hn := ha.2.2.2.2.2.1
      rw [h5, algOf_hmacBs]
      have hdl := digest_length k ((paddedKey k.blockSize k.len64.digest (slice s.caller p keySize)).map (· ^^^ 0x36#8) ++ slice s.caller i size)
      refine ⟨?_, overwrite_length (by rw [hdl]; omega), fun j hj => ?_⟩
      · rw [slice_overwrite hdl (by omega), paddedKey, hl]
        rfl
      · rw [overwrite_getElem? (by rw [hdl]; omega), if_neg (by rw [hdl]; omega)]

/-- Both ways of failing occur: no allocation succeeds; only the last one fails. -/
example (k : Kind) : ∃ l' s', calculateHmac (algOf k) true { env0 k with allocOk := fun _ => false } (List.replicate k.hashSize 1) (some 10) 20 (some 120) 100
    (some 60) 80 (st1 k.width) = .ok (-1, l', s') := by
  obtain ⟨r, l', s', e, h, h2⟩ := C20_hmac_result k true { env0 k with allocOk := fun _ => false } _ _ _ _ _ _ _ _ (call1 k _ 20 (by omega))
  rcases h with rfl | rfl
  · have := (h2.mp rfl).2 0 (by unfold allocations; split <;> omega)
    cases this
  · exact ⟨l', s', e⟩

example (k : Kind) : ∃ l' s', calculateHmac (algOf k) true { env0 k with allocOk := fun n => n != 10 } (List.replicate k.hashSize 1) (some 10) 200 (some 120) 100
    (some 60) 80 (st1 k.width) = .ok (-1, l', s') := by
  obtain ⟨r, l', s', e, h, h2⟩ := C20_hmac_result k true { env0 k with allocOk := fun n => n != 10 } _ _ _ _ _ _ _ _ (call1 k _ 200 (by omega))
  rcases h with rfl | rfl
  · have := (h2.mp rfl).2 5 (by cases k <;> decide)
    exact absurd this Bool.false_ne_true
  · exact ⟨l', s', e⟩

/-- C11, HMAC. A successful `calculate_hmac` changes no byte of the caller's memory outside the first HASH_SIZE bytes of the output area. -/
theorem C11_hmac_writes_digest_only (k : Kind) (u : Bool) (env : Env k.width) (kh : List Byte) (s : St k.width) (key : Option Nat) (keySize : Nat)
    (buffer : Option Nat) (size o n : Nat) (l' : Loc) (s' : St k.width)
    (hc : HmacCall k env kh s key keySize buffer size (some o) n)
    (hrun : calculateHmac (algOf k) u env kh key keySize buffer size (some o) n s = .ok (1, l', s')) :
    s'.caller.length = s.caller.length ∧ ∀ j, j < o ∨ o + k.hashSize ≤ j → s'.caller[j]? = s.caller[j]? := by
  obtain ⟨r, l₂, s₂, fl, e, h⟩ := hmacEnd u hc
  rw [hrun] at e
  simp only [Res.ok.injEq, Prod.mk.injEq] at e
  obtain ⟨rfl, rfl, rfl⟩ := e
  rcases h.result with ⟨-, -, p, i, o', hp, hi, ho, h4, h5⟩ | ⟨h, -⟩ | ⟨h, -⟩
  · cases ho
    have ha := hmacArgs_iff.mpr h4
    have hob := hc.hmac o rfl ha.2.2.2.2.2.2
    have hn := ha.2.2.2.2.2.1
    rw [h5, algOf_hmacBs]
    have hdl := hmac_length k (slice s.caller p keySize) (slice s.caller i size)
    change (overwrite s.caller o (Spec.hmac k.blockSize k.len64.digest (slice s.caller p keySize) (slice s.caller i size))).length = _ ∧
      ∀ j, j < o ∨ o + k.hashSize ≤ j → (overwrite s.caller o (Spec.hmac k.blockSize k.len64.digest (slice s.caller p keySize) (slice s.caller i size)))[j]? = s.caller[j]?
    exact ⟨overwrite_length (by rw [hdl]; omega), fun j hj => by rw [overwrite_getElem? (by rw [hdl]; omega), if_neg (by rw [hdl]; omega)]⟩
  · cases h
  · cases h

example (k : Kind) (ks : Nat) (h : ks ≤ 200) : ∃ l' s', calculateHmac (algOf k) true (env0 k) (List.replicate k.hashSize 1) (some 10) ks (some 120) 100 (some 60) 80
    (st1 k.width) = .ok (1, l', s') := by
  obtain ⟨l', s', e, -⟩ := C09_hmac k true (env0 k) (List.replicate k.hashSize 1) (st1 k.width) 10 ks 120 100 60 80 (call1 k _ ks h) (args1 k ks h) (fun _ _ => rfl)
  exact ⟨l', s', e⟩

/-- A heap object without contents: all bytes zero, or a context with counter, chaining value and buffered bytes zero. -/
def Zeroed (k : Kind) : Obj k.width → Prop
  | .bytes b => b = List.replicate k.blockSize 0
  | .ctx c => c.hashCount = 0 ∧ c.hashValues = List.replicate k.words 0 ∧ c.blockOffset = 0 ∧ c.block = List.replicate (2 * k.blockSize) 0

/-- The key of RFC 2104, padded to the block size. -/
def normalisedKey (k : Kind) (key : List Byte) : List Byte :=
  let k0 := if key.length ≤ k.blockSize then key else k.len64.digest key
  k0 ++ List.replicate (k.blockSize - k0.length) 0

/-- C26, partial. Every heap block freed by `calculate_hmac` is zero at that moment: on success, and on failure when message and output arguments are
valid (whatever allocation failed). Missing: "with either result" (`C26_context_freed_unwiped`: with invalid message or output arguments the hash
context is freed with the key absorbed), and the locals (`C26_key_hash_left`). -/
theorem C26_heap_wiped_partial (k : Kind) (u : Bool) (env : Env k.width) (kh : List Byte) (s : St k.width) (key : Option Nat) (keySize : Nat)
    (buffer : Option Nat) (size : Nat) (hmac : Option Nat) (n : Nat) (hc : HmacCall k env kh s key keySize buffer size hmac n) :
    ∃ r l' s' fl, calculateHmac (algOf k) u env kh key keySize buffer size hmac n s = .ok (r, l', s') ∧ s'.freed = fl ++ s.freed ∧
      (r = 1 ∨ DigestArgs k buffer size hmac n → ∀ x ∈ fl, Zeroed k x.2) ∧
      ∀ x ∈ fl, Zeroed k x.2 ∨ x.1 + 1 = s'.count ∧ ∃ c, x.2 = .ctx c := by
  obtain ⟨r, l', s', fl, e, h⟩ := hmacEnd u hc
  have key : ∀ x ∈ fl, Zeroed k x.2 ∨ (r = -1 ∧ ¬ PassArgs (algOf k) buffer size hmac n ∧ x.1 + 1 = s'.count ∧ ∃ c, x.2 = .ctx c) := by
    rintro ⟨p, o⟩ hx
    rcases h.wiped p o hx with rfl | rfl | h
    · left
      rw [algOf_hmacBs]
      rfl
    · left
      simp [Zeroed, zeroCtx, algOf_nHash, algOf_blockSize]
    · exact .inr h
  refine ⟨r, l', s', fl, e, h.freed, fun hd x hx => ?_, fun x hx => ?_⟩
  · rcases key x hx with h | ⟨rfl, h, -⟩
    · exact h
    · rcases hd with hd | hd
      · cases hd
      · unfold DigestArgs at hd
        rw [← algOf_hashSize] at hd
        exact (h hd).elim
  · rcases key x hx with h | h
    · exact .inl h
    · exact .inr h.2.2

example (k : Kind) (al : Nat → Bool) (ks : Nat) (h : ks ≤ 200) : DigestArgs k (some 120) 100 (some 60) 80 ∧
    HmacCall k { env0 k with allocOk := al } (List.replicate k.hashSize 1) (st1 k.width) (some 10) ks (some 120) 100 (some 60) 80 :=
  ⟨(args1 k ks h).2.2, call1 k al ks h⟩

/-- C26, negation. After every successful call with a key longer than a block, the local array `key_hash` holds the digest of the key (which is a
valid key for the same HMACs, see `C10_long_key_is_its_digest`). -/
theorem C26_key_hash_left (k : Kind) (u : Bool) (env : Env k.width) (kh : List Byte) (s : St k.width) (key keySize : Nat)
    (buffer : Option Nat) (size : Nat) (hmac : Option Nat) (n : Nat) (l' : Loc) (s' : St k.width)
    (hc : HmacCall k env kh s (some key) keySize buffer size hmac n) (hk : k.blockSize < keySize)
    (hrun : calculateHmac (algOf k) u env kh (some key) keySize buffer size hmac n s = .ok (1, l', s')) :
    l'.keyHash = k.len64.digest (slice s.caller key keySize) := by
  obtain ⟨r, l₂, s₂, fl, e, h⟩ := hmacEnd u hc
  rw [hrun] at e
  simp only [Res.ok.injEq, Prod.mk.injEq] at e
  obtain ⟨rfl, rfl, rfl⟩ := e
  exact h.keyHash rfl key rfl (by rw [algOf_hmacBs]; exact hk)

example (k : Kind) : k.blockSize < 200 ∧ ∃ l' s', calculateHmac (algOf k) true (env0 k) (List.replicate k.hashSize 1) (some 10) 200 (some 120) 100
    (some 60) 80 (st1 k.width) = .ok (1, l', s') := by
  obtain ⟨l', s', e, -⟩ := C09_hmac k true (env0 k) (List.replicate k.hashSize 1) (st1 k.width) 10 200 120 100 60 80 (call1 k _ 200 (by omega))
    (args1 k 200 (by omega)) (fun _ _ => rfl)
  exact ⟨by cases k <;> decide, l', s', e⟩

/-- C26, negation. Whenever the message or output argument is invalid (but the output size is at least HASH_SIZE, e.g. a NULL output) and the memory
suffices for reaching the inner pass, a context is freed whose chaining value was computed from the padded key. -/
theorem C26_context_freed_unwiped (k : Kind) (u : Bool) (env : Env k.width) (kh : List Byte) (s : St k.width) (key keySize : Nat)
    (buffer : Option Nat) (size : Nat) (hmac : Option Nat) (n : Nat) (hc : HmacCall k env kh s (some key) keySize buffer size hmac n)
    (hk : keySize ≤ maxSize) (hn : k.hashSize ≤ n) (hbad : ¬ DigestArgs k buffer size hmac n)
    (hal : ∀ j, j + 1 < allocations k keySize → env.allocOk (s.count + j) = true) :
    ∃ l' s' p c rest, calculateHmac (algOf k) u env kh (some key) keySize buffer size hmac n s = .ok (-1, l', s') ∧ (p, Obj.ctx c) ∈ s'.freed ∧
      s.count ≤ p ∧ c.hashValues = k.len64.chain k.len64.iv ((normalisedKey k (slice s.caller key keySize)).map (· ^^^ 0x36) :: rest) := by
  obtain ⟨r, l', s', fl, e, h⟩ := hmacEnd u hc
  have hbad' : ¬ PassArgs (algOf k) buffer size hmac n := by
    unfold PassArgs
    rw [algOf_hashSize]
    exact hbad
  obtain ⟨c, x, hm, p, t, hpt, h1, h2, h3, -⟩ := h.leak key rfl hk (by rw [algOf_hashSize]; exact hn) hbad' (by rw [allocations_eq]; exact hal)
  have hr : r = -1 := by
    rcases h.result with ⟨-, -, -, -, -, -, -, -, hh, -⟩ | ⟨h, -⟩ | ⟨h, -⟩
    · exact (hbad' hh.2.2).elim
    · exact h
    · exact h
  subst hr
  have hB : 0 < k.blockSize := by cases k <;> decide
  rw [algOf_hmacBs, algOf_blockSize] at *
  have hkl : ((paddedKey k.blockSize k.len64.digest (slice s.caller key keySize)).map (· ^^^ 0x36#8)).length = k.blockSize := by
    obtain ⟨enc, L⟩ := lawful k
    have := paddedKey_length L (slice s.caller key keySize)
    rw [algOf_hmacBs] at this
    simpa using this
  have hpl : k.blockSize ≤ p.length := by
    have hh := congrArg List.length hpt
    rw [List.length_append, List.length_append, hkl] at hh
    by_contra hc
    have : p.length % k.blockSize = p.length := Nat.mod_eq_of_lt (by omega)
    omega
  have htake : p.take k.blockSize = (paddedKey k.blockSize k.len64.digest (slice s.caller key keySize)).map (· ^^^ 0x36#8) := by
    have hh := congrArg (List.take k.blockSize) hpt
    rw [List.take_left' hkl, List.take_append_of_le_length hpl] at hh
    exact hh.symm
  refine ⟨l', s', _, c, blocks k.blockSize (p.drop k.blockSize), e, by rw [h.freed]; exact List.mem_append_left _ hm, by omega, ?_⟩
  rw [h3, blocks_step hB hpl, htake]
  rfl

/-- A NULL output with a sufficient size. -/
example (k : Kind) : HmacCall k (env0 k) (List.replicate k.hashSize 1) (st1 k.width) (some 10) 20 (some 120) 100 none 80 ∧ k.hashSize ≤ 80 ∧
    ¬ DigestArgs k (some 120) 100 none 80 := by
  refine ⟨⟨?_, ?_, ?_, junk0_ok k, by simp⟩, by cases k <;> decide, by simp [DigestArgs]⟩
  · rintro _ ⟨⟩ -; rw [st1_len]; omega
  · rintro _ ⟨⟩ -; rw [st1_len]; omega
  · rintro _ ⟨⟩

/-- Memory for the witnesses. -/
def st2 : St 32 := ⟨List.replicate 80 7, 0, [], []⟩

/-- C26, witness for `C26_key_hash_left`: with a key of 65 bytes `key_hash` is not zero at return. -/
theorem C26_key_hash_left_nonzero : ∃ l' s', calculateHmac Model.md5 false (env0 .md5) (List.replicate 16 0) (some 0) 65 (some 0) 0 (some 0) 16 st2 = .ok (1, l', s') ∧
    l'.keyHash ≠ List.replicate 16 0 := by
  have h : (match calculateHmac Model.md5 false (env0 .md5) (List.replicate 16 0) (some 0) 65 (some 0) 0 (some 0) 16 st2 with
    | .ok (r, l, _) => decide (r = 1 ∧ l.keyHash ≠ List.replicate 16 0)
    | _ => false) = true := by decide +kernel
  revert h
  generalize calculateHmac Model.md5 false (env0 .md5) (List.replicate 16 0) (some 0) 65 (some 0) 0 (some 0) 16 st2 = x
  intro h
  cases x with
  | ok x =>
    obtain ⟨r, l, s⟩ := x
    simp only [decide_eq_true_eq] at h
    exact ⟨l, s, by rw [h.1], h.2⟩
  | ub => cases h
  | diverge => cases h

/-- C26, witness for `C26_context_freed_unwiped`: with a NULL output the context freed last has a chaining value that is neither zero nor the initial
value. -/
theorem C26_context_freed_nonzero : ∃ l' s' p c rest, calculateHmac Model.md5 false (env0 .md5) (List.replicate 16 0) (some 0) 3 (some 0) 0 none 16 st2 = .ok (-1, l', s') ∧
    s'.freed = rest ++ [(p, .ctx c)] ∧ c.hashValues ≠ List.replicate 4 0 ∧ c.hashValues ≠ Spec.md5.iv := by
  have h : (match calculateHmac Model.md5 false (env0 .md5) (List.replicate 16 0) (some 0) 3 (some 0) 0 none 16 st2 with
    | .ok (r, _, s) => match s.freed.getLast? with
      | some (_, .ctx c) => decide (r = -1 ∧ c.hashValues ≠ List.replicate 4 0 ∧ c.hashValues ≠ Spec.md5.iv)
      | _ => false
    | _ => false) = true := by decide +kernel
  revert h
  generalize calculateHmac Model.md5 false (env0 .md5) (List.replicate 16 0) (some 0) 3 (some 0) 0 none 16 st2 = x
  intro h
  cases x with
  | ok x =>
    obtain ⟨r, l, s⟩ := x
    simp only at h
    split at h
    · rename_i p c hg
      simp only [decide_eq_true_eq] at h
      obtain ⟨rest, hrest⟩ := List.getLast?_eq_some_iff.mp hg
      exact ⟨l, s, p, c, rest, by rw [h.1], hrest, h.2⟩
    · cases h
  | ub => cases h
  | diverge => cases h

end Props
