import Verif.Spec.Extension
import Verif.Proofs.Padding
import Verif.Proofs.ByteOrder
import Verif.Props.Vectors
import Verif.Props.HmacCollision
/-! C64: digests can be extended. -/

namespace Props

open Model Spec

theorem pad_suffix (k : Kind) (m : List Byte) : pad k.blockSize k.len64.lenBytes k.len64.lenField m = m ++ k.suffix m.length := by
  simp [pad, Kind.suffix]

theorem words_flatMap {w : Nat} (f : BitVec w → List Byte) (g : List Byte → BitVec w) (b : Nat) (hl : ∀ x, (f x).length = b) (hg : ∀ x, g (f x) = x) :
    ∀ l : List (BitVec w), (List.range l.length).map (fun i => g (((l.flatMap f).drop (i * b)).take b)) = l
  | [] => rfl
  | x :: l => by
    have ih := words_flatMap f g b hl hg l
    rw [List.length_cons, List.range_succ_eq_map, List.map_cons, List.map_map]
    congr 1
    · rw [List.flatMap_cons, Nat.zero_mul, List.drop_zero, ← hl x, List.take_left, hg]
    · refine Eq.trans (List.map_congr_left fun i _ => ?_) ih
      simp only [Function.comp, List.flatMap_cons]
      rw [Nat.succ_mul, Nat.add_comm, ← List.drop_drop]
      rw [show (f x ++ l.flatMap f).drop b = l.flatMap f by rw [← hl x]; exact List.drop_left]

theorem digestWords_output (k : Kind) (hk : k ≠ .sha224) (h : List (BitVec k.width)) (hl : h.length = k.words) : k.digestWords (k.len64.output h) = h := by
  unfold Kind.digestWords
  rw [← hl]
  cases k
  · exact words_flatMap _ (fun b => BitVec.ofNat 32 (leNat b)) 4 (fun _ => leBytes_length _ _)
      (fun x => by rw [leNat_leBytes]; exact BitVec.eq_of_toNat_eq (by simpa using x.isLt)) h
  · exact words_flatMap _ (fun b => BitVec.ofNat 32 (beNat b)) 4 (fun _ => beBytes_length _ _)
      (fun x => by rw [beNat_beBytes]; exact BitVec.eq_of_toNat_eq (by simpa using x.isLt)) h
  · exact absurd rfl hk
  · exact words_flatMap _ (fun b => BitVec.ofNat 32 (beNat b)) 4 (fun _ => beBytes_length _ _)
      (fun x => by rw [beNat_beBytes]; exact BitVec.eq_of_toNat_eq (by simpa using x.isLt)) h
  · exact words_flatMap _ (fun b => BitVec.ofNat 64 (beNat b)) 8 (fun _ => beBytes_length _ _)
      (fun x => by rw [beNat_beBytes]; exact BitVec.eq_of_toNat_eq (by simpa using x.isLt)) h

theorem digest_extend (k : Kind) (hk : k ≠ .sha224) (m x : List Byte) :
    k.len64.digest (m ++ k.suffix m.length ++ x) = k.extend (k.len64.digest m) m.length x := by
  have hB : 0 < k.blockSize := by cases k <;> decide
  have hz := (Spec.pad_length hB k.len64.lenField (lenField_length k) m).2
  rw [pad_suffix] at hz
  unfold Kind.extend IterHash.digest IterHash.digestFrom
  rw [len64_bs, pad_suffix, pad_suffix, digestWords_output k hk _ (chain_length_words k _ _ (iv_length k)), List.append_assoc (m ++ _), Spec.blocks_append hB _ _ hz]
  unfold IterHash.chain
  rw [List.foldl_append]
  simp [Nat.add_assoc]

/-- A message of 128 bytes (X. Wang, D. Feng, X. Lai, H. Yu, Collisions for hash functions, 2004). -/
def wang₁ : List Byte := [
  0xd1, 0x31, 0xdd, 0x02, 0xc5, 0xe6, 0xee, 0xc4, 0x69, 0x3d, 0x9a, 0x06, 0x98, 0xaf, 0xf9, 0x5c, 0x2f, 0xca, 0xb5, 0x87, 0x12, 0x46, 0x7e, 0xab, 0x40, 0x04, 0x58, 0x3e, 0xb8, 0xfb, 0x7f, 0x89,
  0x55, 0xad, 0x34, 0x06, 0x09, 0xf4, 0xb3, 0x02, 0x83, 0xe4, 0x88, 0x83, 0x25, 0x71, 0x41, 0x5a, 0x08, 0x51, 0x25, 0xe8, 0xf7, 0xcd, 0xc9, 0x9f, 0xd9, 0x1d, 0xbd, 0xf2, 0x80, 0x37, 0x3c, 0x5b,
  0xd8, 0x82, 0x3e, 0x31, 0x56, 0x34, 0x8f, 0x5b, 0xae, 0x6d, 0xac, 0xd4, 0x36, 0xc9, 0x19, 0xc6, 0xdd, 0x53, 0xe2, 0xb4, 0x87, 0xda, 0x03, 0xfd, 0x02, 0x39, 0x63, 0x06, 0xd2, 0x48, 0xcd, 0xa0,
  0xe9, 0x9f, 0x33, 0x42, 0x0f, 0x57, 0x7e, 0xe8, 0xce, 0x54, 0xb6, 0x70, 0x80, 0xa8, 0x0d, 0x1e, 0xc6, 0x98, 0x21, 0xbc, 0xb6, 0xa8, 0x83, 0x93, 0x96, 0xf9, 0x65, 0x2b, 0x6f, 0xf7, 0x2a, 0x70]

/-- Another one, with the same MD5. -/
def wang₂ : List Byte := [
  0xd1, 0x31, 0xdd, 0x02, 0xc5, 0xe6, 0xee, 0xc4, 0x69, 0x3d, 0x9a, 0x06, 0x98, 0xaf, 0xf9, 0x5c, 0x2f, 0xca, 0xb5, 0x07, 0x12, 0x46, 0x7e, 0xab, 0x40, 0x04, 0x58, 0x3e, 0xb8, 0xfb, 0x7f, 0x89,
  0x55, 0xad, 0x34, 0x06, 0x09, 0xf4, 0xb3, 0x02, 0x83, 0xe4, 0x88, 0x83, 0x25, 0xf1, 0x41, 0x5a, 0x08, 0x51, 0x25, 0xe8, 0xf7, 0xcd, 0xc9, 0x9f, 0xd9, 0x1d, 0xbd, 0x72, 0x80, 0x37, 0x3c, 0x5b,
  0xd8, 0x82, 0x3e, 0x31, 0x56, 0x34, 0x8f, 0x5b, 0xae, 0x6d, 0xac, 0xd4, 0x36, 0xc9, 0x19, 0xc6, 0xdd, 0x53, 0xe2, 0x34, 0x87, 0xda, 0x03, 0xfd, 0x02, 0x39, 0x63, 0x06, 0xd2, 0x48, 0xcd, 0xa0,
  0xe9, 0x9f, 0x33, 0x42, 0x0f, 0x57, 0x7e, 0xe8, 0xce, 0x54, 0xb6, 0x70, 0x80, 0x28, 0x0d, 0x1e, 0xc6, 0x98, 0x21, 0xbc, 0xb6, 0xa8, 0x83, 0x93, 0x96, 0xf9, 0x65, 0xab, 0x6f, 0xf7, 0x2a, 0x70]

theorem wang_digest₁ : Spec.md5.digest wang₁ = [0x79, 0x05, 0x40, 0x25, 0x25, 0x5f, 0xb1, 0xa2, 0x6e, 0x4b, 0xc4, 0x22, 0xae, 0xf5, 0x4e, 0xb4] :=
  digest_of_eval (k := .md5) (u := true) (by decide +kernel) (by decide +kernel)

theorem wang_digest₂ : Spec.md5.digest wang₂ = [0x79, 0x05, 0x40, 0x25, 0x25, 0x5f, 0xb1, 0xa2, 0x6e, 0x4b, 0xc4, 0x22, 0xae, 0xf5, 0x4e, 0xb4] :=
  digest_of_eval (k := .md5) (u := true) (by decide +kernel) (by decide +kernel)

/-- C64. For MD5, SHA-1, SHA-256 and SHA-512: a client hashes a message and gets the digest `d`. A client that hashes that message, followed by its padding and any bytes `x`, gets `extend d n x`, where `n` is the length of
the first message: the message itself is not needed to know the second digest. Any cutting, build variants, environments, memories and output areas. -/
theorem C64_extension (k : Kind) (hk : k ≠ .sha224) (u₁ u₂ : Bool) (env₁ env₂ : Env k.width) (s₁ s₂ : St k.width)
    (chunks₁ chunks₂ : List (List Byte × Scr k.width)) (last₁ last₂ : Scr k.width) (out₁ out₂ : List Byte) (n₁ n₂ : Nat)
    (h₁ : env₁.allocOk s₁.count = true) (h₂ : env₂.allocOk s₂.count = true)
    (v₁ : ValidStream k chunks₁ last₁ out₁ n₁) (v₂ : ValidStream k chunks₂ last₂ out₂ n₂) (x : List Byte)
    (heq : (chunks₂.map (·.1)).flatten = (chunks₁.map (·.1)).flatten ++ k.suffix (chunks₁.map (·.1)).flatten.length ++ x) :
    ∃ (d : List Byte) (p₁ p₂ : Option Nat) (t₁ t₂ : St k.width), d.length = k.hashSize ∧
      run (algOf k) u₁ env₁ (hashCalls chunks₁ last₁ out₁ n₁) none s₁ = .ok (goodReplies chunks₁.length (d ++ out₁.drop k.hashSize), p₁, t₁) ∧
      run (algOf k) u₂ env₂ (hashCalls chunks₂ last₂ out₂ n₂) none s₂ =
        .ok (goodReplies chunks₂.length (k.extend d (chunks₁.map (·.1)).flatten.length x ++ out₂.drop k.hashSize), p₂, t₂) := by
  obtain ⟨p₁, t₁, e₁⟩ := stream_ok k u₁ env₁ s₁ chunks₁ last₁ out₁ n₁ h₁ v₁
  obtain ⟨p₂, t₂, e₂⟩ := stream_ok k u₂ env₂ s₂ chunks₂ last₂ out₂ n₂ h₂ v₂
  refine ⟨_, p₁, p₂, t₁, t₂, digest_length k _, e₁, ?_⟩
  have hd : k.len64.digest (message chunks₂) = k.extend (k.len64.digest (message chunks₁)) (message chunks₁).length x := by
    rw [← digest_extend k hk]
    exact congrArg _ heq
  rw [e₂, hd]
  rfl

/-- The example message of 203 bytes in three chunks, and the same followed by its padding and two bytes in another cutting. -/
example (k : Kind) (hk : k ≠ .sha224) : ∃ c : List (List Byte × Scr k.width), ValidStream k c (junk0 k) (List.replicate 64 0) 64 ∧
    (c.map (·.1)).flatten = (((chunks0 k).map (·.1)).flatten ++ k.suffix ((chunks0 k).map (·.1)).flatten.length ++ [7, 8]) ∧ k ≠ .sha224 := by
  refine ⟨[((((chunks0 k).map (·.1)).flatten ++ k.suffix ((chunks0 k).map (·.1)).flatten.length), junk0 k), ([7, 8], junk0 k)], ⟨?_, junk0_ok k, by cases k <;> decide, by simp⟩, by simp, hk⟩
  intro c hc
  simp only [List.mem_cons, List.not_mem_nil, or_false] at hc
  rcases hc with rfl | rfl
  · refine ⟨?_, junk0_ok k⟩
    cases k <;> decide +kernel
  · exact ⟨by simp [maxSize], junk0_ok k⟩

/-- C64. So of two messages of the same length with the same digest, the extensions by the same bytes have the same digest, too. -/
theorem C64_collisions_extend (k : Kind) (hk : k ≠ .sha224) (m₁ m₂ x : List Byte) (hl : m₁.length = m₂.length) (h : k.len64.digest m₁ = k.len64.digest m₂) :
    k.len64.digest (m₁ ++ k.suffix m₁.length ++ x) = k.len64.digest (m₂ ++ k.suffix m₂.length ++ x) := by
  rw [digest_extend k hk, digest_extend k hk, h, hl]

example := C64_collisions_extend .md5 (by decide) wang₁ wang₂ [1, 2, 3] rfl (wang_digest₁.trans wang_digest₂.symm)

/-- C64, C32. The collisions of MD5 as computed by the library are not bounded in length: for every byte string `x` there are two different messages that end in `x` and that clients of the library cannot tell apart by their digests. -/
theorem C64_md5_collisions (u₁ u₂ : Bool) (env₁ env₂ : Env 32) (s₁ s₂ : St 32) (x : List Byte) (hx : x.length ≤ 2 ^ 62) (h₁ : env₁.allocOk s₁.count = true)
    (h₂ : env₂.allocOk s₂.count = true) :
    ∃ m₁ m₂ d p₁ t₁ p₂ t₂, m₁ ≠ m₂ ∧ x <:+ m₁ ∧ x <:+ m₂ ∧
      run Model.md5 u₁ env₁ (hashCalls [(m₁, junk0 .md5)] (junk0 .md5) (List.replicate 16 0) 16) none s₁ = .ok (goodReplies 1 d, p₁, t₁) ∧
      run Model.md5 u₂ env₂ (hashCalls [(m₂, junk0 .md5)] (junk0 .md5) (List.replicate 16 0) 16) none s₂ = .ok (goodReplies 1 d, p₂, t₂) := by
  have hl : ∀ w : List Byte, w.length = 128 → (w ++ Kind.md5.suffix w.length ++ x).length ≤ 2 ^ 63 - 1 := by
    intro w hw
    rw [hw, List.length_append, List.length_append, hw, show (Kind.md5.suffix 128).length = 64 by decide +kernel]
    omega
  have v : ∀ w : List Byte, w.length ≤ 2 ^ 63 - 1 → ValidStream .md5 [(w, junk0 .md5)] (junk0 .md5) (List.replicate 16 0) 16 := by
    intro w hw
    refine ⟨?_, junk0_ok .md5, by decide, by simp⟩
    intro c hc
    rw [List.mem_singleton] at hc
    subst hc
    exact ⟨hw, junk0_ok .md5⟩
  obtain ⟨p₁, t₁, e₁⟩ := stream_ok .md5 u₁ env₁ s₁ _ _ _ _ h₁ (v _ (hl wang₁ rfl))
  obtain ⟨p₂, t₂, e₂⟩ := stream_ok .md5 u₂ env₂ s₂ _ _ _ _ h₂ (v _ (hl wang₂ rfl))
  refine ⟨wang₁ ++ Kind.md5.suffix wang₁.length ++ x, wang₂ ++ Kind.md5.suffix wang₂.length ++ x, Spec.md5.digest (wang₁ ++ Kind.md5.suffix wang₁.length ++ x), p₁, t₁, p₂, t₂, ?_, ⟨_, rfl⟩, ⟨_, rfl⟩, ?_, ?_⟩
  · intro h
    rw [List.append_assoc, List.append_assoc] at h
    have := (List.append_inj h rfl).1
    revert this
    decide +kernel
  · refine e₁.trans ?_
    simp only [message, List.map_cons, List.map_nil, List.flatten_cons, List.flatten_nil, List.append_nil, List.length_singleton]
    rw [show (List.replicate 16 (0 : Byte)).drop Kind.md5.hashSize = [] by decide, List.append_nil]
    rfl
  · refine e₂.trans ?_
    simp only [message, List.map_cons, List.map_nil, List.flatten_cons, List.flatten_nil, List.append_nil, List.length_singleton]
    rw [show (List.replicate 16 (0 : Byte)).drop Kind.md5.hashSize = [] by decide, List.append_nil]
    rw [show Spec.md5.digest (wang₁ ++ Kind.md5.suffix wang₁.length ++ x) = _ from
      C64_collisions_extend .md5 (by decide) wang₁ wang₂ x rfl (wang_digest₁.trans wang_digest₂.symm)]
    rfl

example := C64_md5_collisions true false (env0 .md5) (env0 .md5) (st0 32) (st0 32) [1, 2, 3] (by decide) rfl rfl

theorem wang_ne : wang₁ ≠ wang₂ := by decide +kernel

/-- C53. The exception in C53 is real for HMAC-MD5: there are two different keys of 128 bytes with which `calculate_hmac` stores the same HMAC for every message. -/
theorem C53_md5_colliding_keys (u₁ u₂ : Bool) (env₁ env₂ : Env 32) (kh₁ kh₂ : List Byte) (s₁ s₂ t₁ t₂ : St 32)
    (key₁ ks₁ i₁ size₁ o₁ n₁ key₂ ks₂ i₂ size₂ o₂ n₂ : Nat) (l₁ l₂ : Loc)
    (hc₁ : HmacCall .md5 env₁ kh₁ s₁ (some key₁) ks₁ (some i₁) size₁ (some o₁) n₁) (hc₂ : HmacCall .md5 env₂ kh₂ s₂ (some key₂) ks₂ (some i₂) size₂ (some o₂) n₂)
    (e₁ : calculateHmac Model.md5 u₁ env₁ kh₁ (some key₁) ks₁ (some i₁) size₁ (some o₁) n₁ s₁ = .ok (1, l₁, t₁))
    (e₂ : calculateHmac Model.md5 u₂ env₂ kh₂ (some key₂) ks₂ (some i₂) size₂ (some o₂) n₂ s₂ = .ok (1, l₂, t₂))
    (hk₁ : slice s₁.caller key₁ ks₁ = wang₁) (hk₂ : slice s₂.caller key₂ ks₂ = wang₂) (hm : slice s₁.caller i₁ size₁ = slice s₂.caller i₂ size₂) :
    slice s₁.caller key₁ ks₁ ≠ slice s₂.caller key₂ ks₂ ∧ slice t₁.caller o₁ 16 = slice t₂.caller o₂ 16 := by
  refine ⟨by rw [hk₁, hk₂]; exact wang_ne, ?_⟩
  refine C53_equivalent_keys .md5 u₁ u₂ env₁ env₂ kh₁ kh₂ s₁ s₂ t₁ t₂ _ _ _ _ _ _ _ _ _ _ _ _ _ _ hc₁ hc₂ e₁ e₂ ?_ hm
  rw [hk₁, hk₂]
  exact (C53_long_keys .md5 wang₁ wang₂ (by decide +kernel) (by decide +kernel)).mpr (.inr ⟨wang_ne, wang_digest₁.trans wang_digest₂.symm⟩)

/-- A memory with a key, a message of 100 bytes and an output area. -/
def stKey (key : List Byte) : St 32 := ⟨key ++ List.replicate 180 3, 0, [], []⟩

theorem callKey (key : List Byte) (h : key.length = 128) : HmacCall .md5 (env0 .md5) (List.replicate 16 1) (stKey key) (some 0) 128 (some 128) 100 (some 228) 80 where
  key := by rintro _ ⟨⟩ -; simp [stKey, h, -List.reduceReplicate]
  buffer := by rintro _ ⟨⟩ -; simp [stKey, h, -List.reduceReplicate]
  hmac := by rintro _ ⟨⟩ -; simp [stKey, h, -List.reduceReplicate]
  junk := junk0_ok .md5
  keyHash := by simp [Kind.hashSize]

/-- The hypotheses hold: both calls return 1. -/
example : ∃ l₁ l₂ t₁ t₂,
    calculateHmac Model.md5 true (env0 .md5) (List.replicate 16 1) (some 0) 128 (some 128) 100 (some 228) 80 (stKey wang₁) = .ok (1, l₁, t₁) ∧
    calculateHmac Model.md5 true (env0 .md5) (List.replicate 16 1) (some 0) 128 (some 128) 100 (some 228) 80 (stKey wang₂) = .ok (1, l₂, t₂) ∧
    slice t₁.caller 228 16 = slice t₂.caller 228 16 := by
  have ha : HmacArgs .md5 (some 0) 128 (some 128) 100 (some 228) 80 := ⟨by simp, by unfold maxSize; omega, by simp, by decide, by simp, by decide, by decide⟩
  obtain ⟨l₁, t₁, e₁, -⟩ := C09_hmac .md5 true (env0 .md5) _ (stKey wang₁) 0 128 128 100 228 80 (callKey _ rfl) ha (fun _ _ => rfl)
  obtain ⟨l₂, t₂, e₂, -⟩ := C09_hmac .md5 true (env0 .md5) _ (stKey wang₂) 0 128 128 100 228 80 (callKey _ rfl) ha (fun _ _ => rfl)
  exact ⟨l₁, l₂, t₁, t₂, e₁, e₂, (C53_md5_colliding_keys _ _ _ _ _ _ _ _ _ _ _ _ _ _ _ _ _ _ _ _ _ _ _ _ (callKey _ rfl) (callKey _ rfl) e₁ e₂
    (by simp [slice, stKey, wang₁]) (by simp [slice, stKey, wang₂]) (by simp [slice, stKey, wang₁, wang₂])).2⟩

end Props
