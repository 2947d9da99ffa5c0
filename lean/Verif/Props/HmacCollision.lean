import Verif.Props.Hmac
/-! C53: when two HMACs are equal. Two calls of `calculate_hmac` (any placement in memory, build variants, allocation schedules) give the same HMAC exactly
for equivalent keys and equal messages, except where the hash function itself collides, and then on inputs that can be written down. -/

namespace Props

open Model Spec

/-- The block that RFC 2104 derives from a key: the key, or its digest if it is longer than a block, filled up with zero bytes. -/
def keyBlock (k : Kind) (key : List Byte) : List Byte :=
  if key.length ≤ k.blockSize then key ++ List.replicate (k.blockSize - key.length) 0
  else k.len64.digest key ++ List.replicate (k.blockSize - k.hashSize) 0

/-- The input of the inner hash computation. -/
def innerInput (k : Kind) (key msg : List Byte) : List Byte := (keyBlock k key).map (· ^^^ 0x36) ++ msg

/-- The input of the outer hash computation. -/
def outerInput (k : Kind) (key msg : List Byte) : List Byte := (keyBlock k key).map (· ^^^ 0x5c) ++ k.len64.digest (innerInput k key msg)

/-- Two different byte strings with the same digest. -/
def Collide (k : Kind) (a b : List Byte) : Prop := a ≠ b ∧ k.len64.digest a = k.len64.digest b

theorem hmac_outerInput (k : Kind) (key msg : List Byte) : Spec.hmac k.blockSize k.len64.digest key msg = k.len64.digest (outerInput k key msg) := by
  unfold Spec.hmac outerInput innerInput keyBlock
  by_cases h : key.length ≤ k.blockSize
  · simp only [h, if_true]; rfl
  · simp only [h, if_false, digest_length]; rfl

theorem keyBlock_length (k : Kind) (key : List Byte) : (keyBlock k key).length = k.blockSize := by
  have : k.hashSize ≤ k.blockSize := by cases k <;> decide
  unfold keyBlock
  split
  · simp; omega
  · simp [digest_length]; omega

theorem xor_map_inj (x : Byte) : ∀ {a b : List Byte}, a.map (· ^^^ x) = b.map (· ^^^ x) → a = b
  | [], [], _ => rfl
  | [], _ :: _, h => by cases h
  | _ :: _, [], h => by cases h
  | p :: a, q :: b, h => by
    simp only [List.map_cons, List.cons.injEq] at h
    have hp : p = q := by
      have := congrArg (· ^^^ x) h.1
      simpa [BitVec.xor_assoc] using this
    rw [hp, xor_map_inj x h.2]

theorem innerInput_inj {k : Kind} {K₁ K₂ m₁ m₂ : List Byte} (h : innerInput k K₁ m₁ = innerInput k K₂ m₂) : keyBlock k K₁ = keyBlock k K₂ ∧ m₁ = m₂ := by
  have := List.append_inj h (by simp [keyBlock_length])
  exact ⟨xor_map_inj _ this.1, this.2⟩

theorem outerInput_inj {k : Kind} {K₁ K₂ m₁ m₂ : List Byte} (h : outerInput k K₁ m₁ = outerInput k K₂ m₂) :
    keyBlock k K₁ = keyBlock k K₂ ∧ k.len64.digest (innerInput k K₁ m₁) = k.len64.digest (innerInput k K₂ m₂) := by
  have := List.append_inj h (by simp [keyBlock_length])
  exact ⟨xor_map_inj _ this.1, this.2⟩

/-- A call that returned 1 stored the HMAC. -/
theorem hmac_stored {k : Kind} {u : Bool} {env : Env k.width} {kh : List Byte} {s t : St k.width} {key keySize i size o n : Nat} {l : Loc}
    (hc : HmacCall k env kh s (some key) keySize (some i) size (some o) n)
    (e : calculateHmac (algOf k) u env kh (some key) keySize (some i) size (some o) n s = .ok (1, l, t)) :
    slice t.caller o k.hashSize = k.len64.digest (outerInput k (slice s.caller key keySize) (slice s.caller i size)) := by
  obtain ⟨r, l', s', fl, e', h⟩ := hmacEnd u hc
  rw [e] at e'
  cases e'
  rcases h.result with ⟨-, -, k', i', o', h1, h2, h3, hp, h5⟩ | ⟨h, -⟩ | ⟨h, -⟩
  · cases h1; cases h2; cases h3
    have ha := hmacArgs_iff.mpr hp
    have b := hc.hmac o rfl ha.2.2.2.2.2.2
    have m := ha.2.2.2.2.2.1
    rw [h5, slice_overwrite (by rw [algOf_hmacBs]; exact hmac_length k _ _) (by omega), algOf_hmacBs, ← hmac_outerInput]
    rfl
  · cases h
  · cases h

/-- C53. If two calls of `calculate_hmac` returned 1 and stored the same HMAC, then the keys are equivalent (same key block) and the messages equal, or the
inputs of the two inner hash computations are different and have the same digest, or those of the two outer ones. So a second message or an inequivalent
key with the same HMAC gives a collision of the hash function. -/
theorem C53_equal_hmacs (k : Kind) (u₁ u₂ : Bool) (env₁ env₂ : Env k.width) (kh₁ kh₂ : List Byte) (s₁ s₂ t₁ t₂ : St k.width)
    (key₁ ks₁ i₁ size₁ o₁ n₁ key₂ ks₂ i₂ size₂ o₂ n₂ : Nat) (l₁ l₂ : Loc)
    (hc₁ : HmacCall k env₁ kh₁ s₁ (some key₁) ks₁ (some i₁) size₁ (some o₁) n₁) (hc₂ : HmacCall k env₂ kh₂ s₂ (some key₂) ks₂ (some i₂) size₂ (some o₂) n₂)
    (e₁ : calculateHmac (algOf k) u₁ env₁ kh₁ (some key₁) ks₁ (some i₁) size₁ (some o₁) n₁ s₁ = .ok (1, l₁, t₁))
    (e₂ : calculateHmac (algOf k) u₂ env₂ kh₂ (some key₂) ks₂ (some i₂) size₂ (some o₂) n₂ s₂ = .ok (1, l₂, t₂))
    (heq : slice t₁.caller o₁ k.hashSize = slice t₂.caller o₂ k.hashSize) :
    (keyBlock k (slice s₁.caller key₁ ks₁) = keyBlock k (slice s₂.caller key₂ ks₂) ∧ slice s₁.caller i₁ size₁ = slice s₂.caller i₂ size₂) ∨
    Collide k (innerInput k (slice s₁.caller key₁ ks₁) (slice s₁.caller i₁ size₁)) (innerInput k (slice s₂.caller key₂ ks₂) (slice s₂.caller i₂ size₂)) ∨
    Collide k (outerInput k (slice s₁.caller key₁ ks₁) (slice s₁.caller i₁ size₁)) (outerInput k (slice s₂.caller key₂ ks₂) (slice s₂.caller i₂ size₂)) := by
  rw [hmac_stored hc₁ e₁, hmac_stored hc₂ e₂] at heq
  by_cases ho : outerInput k (slice s₁.caller key₁ ks₁) (slice s₁.caller i₁ size₁) = outerInput k (slice s₂.caller key₂ ks₂) (slice s₂.caller i₂ size₂)
  · by_cases hi : innerInput k (slice s₁.caller key₁ ks₁) (slice s₁.caller i₁ size₁) = innerInput k (slice s₂.caller key₂ ks₂) (slice s₂.caller i₂ size₂)
    · exact .inl (innerInput_inj hi)
    · exact .inr (.inl ⟨hi, (outerInput_inj ho).2⟩)
  · exact .inr (.inr ⟨ho, heq⟩)

/-- C53, converse. Equivalent keys and equal messages give the same HMAC, whatever the memory, the build variant and the schedule of allocations. -/
theorem C53_equivalent_keys (k : Kind) (u₁ u₂ : Bool) (env₁ env₂ : Env k.width) (kh₁ kh₂ : List Byte) (s₁ s₂ t₁ t₂ : St k.width)
    (key₁ ks₁ i₁ size₁ o₁ n₁ key₂ ks₂ i₂ size₂ o₂ n₂ : Nat) (l₁ l₂ : Loc)
    (hc₁ : HmacCall k env₁ kh₁ s₁ (some key₁) ks₁ (some i₁) size₁ (some o₁) n₁) (hc₂ : HmacCall k env₂ kh₂ s₂ (some key₂) ks₂ (some i₂) size₂ (some o₂) n₂)
    (e₁ : calculateHmac (algOf k) u₁ env₁ kh₁ (some key₁) ks₁ (some i₁) size₁ (some o₁) n₁ s₁ = .ok (1, l₁, t₁))
    (e₂ : calculateHmac (algOf k) u₂ env₂ kh₂ (some key₂) ks₂ (some i₂) size₂ (some o₂) n₂ s₂ = .ok (1, l₂, t₂))
    (hk : keyBlock k (slice s₁.caller key₁ ks₁) = keyBlock k (slice s₂.caller key₂ ks₂)) (hm : slice s₁.caller i₁ size₁ = slice s₂.caller i₂ size₂) :
    slice t₁.caller o₁ k.hashSize = slice t₂.caller o₂ k.hashSize := by
  rw [hmac_stored hc₁ e₁, hmac_stored hc₂ e₂]
  unfold outerInput innerInput
  rw [hk, hm]

/-- C53. Keys of at most a block are equivalent only if they differ in trailing zero bytes; in particular different keys of the same size are not. -/
theorem C53_short_keys (k : Kind) (K₁ K₂ : List Byte) (h₁ : K₁.length ≤ K₂.length) (h₂ : K₂.length ≤ k.blockSize) :
    keyBlock k K₁ = keyBlock k K₂ ↔ K₂ = K₁ ++ List.replicate (K₂.length - K₁.length) 0 := by
  unfold keyBlock
  rw [if_pos (by omega), if_pos h₂]
  constructor
  · intro h
    rw [show k.blockSize - K₁.length = (K₂.length - K₁.length) + (k.blockSize - K₂.length) by omega, ← List.replicate_append_replicate, ← List.append_assoc] at h
    exact (List.append_inj h (by simp; omega)).1.symm
  · intro h
    rw [h, List.append_assoc, List.replicate_append_replicate]
    simp only [List.length_append, List.length_replicate]
    congr 2
    omega

/-- C53. Keys longer than a block are equivalent exactly if they are equal or collide. -/
theorem C53_long_keys (k : Kind) (K₁ K₂ : List Byte) (h₁ : k.blockSize < K₁.length) (h₂ : k.blockSize < K₂.length) :
    keyBlock k K₁ = keyBlock k K₂ ↔ K₁ = K₂ ∨ Collide k K₁ K₂ := by
  unfold keyBlock Collide
  rw [if_neg (by omega), if_neg (by omega)]
  constructor
  · intro h
    have := (List.append_inj h (by rw [digest_length, digest_length])).1
    by_cases e : K₁ = K₂
    · exact .inl e
    · exact .inr ⟨e, this⟩
  · rintro (h | h)
    · rw [h]
    · rw [h.2]

/-- A memory of zero bytes. -/
def stZero (w : Nat) : St w := ⟨List.replicate 300 0, 0, [], []⟩

theorem callZero (k : Kind) (ks : Nat) (h : ks ≤ 200) :
    HmacCall k (env0 k) (List.replicate k.hashSize 1) (stZero k.width) (some 10) ks (some 120) 100 (some 60) 80 where
  key := by rintro _ ⟨⟩ -; simp [stZero, -List.reduceReplicate]; omega
  buffer := by rintro _ ⟨⟩ -; simp [stZero, -List.reduceReplicate]
  hmac := by rintro _ ⟨⟩ -; simp [stZero, -List.reduceReplicate]
  junk := junk0_ok k
  keyHash := by simp

theorem sliceZero (w o n : Nat) (h : o + n ≤ 300) : slice (stZero w).caller o n = List.replicate n 0 := by
  unfold slice stZero
  rw [List.drop_replicate, List.take_replicate]
  congr 1
  omega

/-- The hypotheses of C53 hold: two calls with different (equivalent) keys of 3 and 40 bytes return 1 and store the same HMAC; both have the same message. -/
example (k : Kind) : ∃ l₁ l₂ t₁ t₂,
    calculateHmac (algOf k) true (env0 k) (List.replicate k.hashSize 1) (some 10) 3 (some 120) 100 (some 60) 80 (stZero k.width) = .ok (1, l₁, t₁) ∧
    calculateHmac (algOf k) false (env0 k) (List.replicate k.hashSize 1) (some 10) 40 (some 120) 100 (some 60) 80 (stZero k.width) = .ok (1, l₂, t₂) ∧
    slice t₁.caller 60 k.hashSize = slice t₂.caller 60 k.hashSize := by
  obtain ⟨l₁, t₁, e₁, -⟩ := C09_hmac k true (env0 k) _ (stZero k.width) 10 3 120 100 60 80 (callZero k 3 (by decide)) (args1 k 3 (by decide)) (fun _ _ => rfl)
  obtain ⟨l₂, t₂, e₂, -⟩ := C09_hmac k false (env0 k) _ (stZero k.width) 10 40 120 100 60 80 (callZero k 40 (by decide)) (args1 k 40 (by decide)) (fun _ _ => rfl)
  refine ⟨l₁, l₂, t₁, t₂, e₁, e₂, C53_equivalent_keys k _ _ _ _ _ _ _ _ _ _ _ _ _ _ _ _ _ _ _ _ _ _ _ _ (callZero k 3 (by decide)) (callZero k 40 (by decide)) e₁ e₂ ?_ rfl⟩
  rw [sliceZero _ _ _ (by decide), sliceZero _ _ _ (by decide)]
  exact (C53_short_keys k _ _ (by simp) (by rw [List.length_replicate]; cases k <;> decide)).mpr (by rw [List.replicate_append_replicate]; simp)

/-- Different keys of one size are not equivalent. -/
example (k : Kind) : keyBlock k [1, 2] ≠ keyBlock k [1, 3] := fun h => by
  have := (C53_short_keys k [1, 2] [1, 3] (by decide) (by cases k <;> decide)).mp h
  revert this
  decide

example (k : Kind) : k.blockSize < (List.replicate 129 (1 : Byte)).length := by rw [List.length_replicate]; cases k <;> decide

end Props
