import Verif.Proofs.Stream
/-! C01-C05: the streaming interface computes the standard hash functions. -/

namespace Props

open Model Spec

/-- C01. MD5: every message of any length, cut in any way; the 16 bytes stored are the RFC 1321 digest (whose length field is the bit length
modulo 2^64), the rest of the output area is unchanged, and every call returns 1. -/
theorem C01_md5_streaming (u : Bool) (env : Env 32) (s : St 32) (chunks : List (List Byte × Scr 32)) (last : Scr 32) (out : List Byte) (n : Nat)
    (hal : env.allocOk s.count = true) (hv : ValidStream .md5 chunks last out n) :
    ∃ slot s', run Model.md5 u env (hashCalls chunks last out n) none s =
      .ok (goodReplies chunks.length (Spec.md5.digest (message chunks) ++ out.drop 16), slot, s') :=
  stream_ok .md5 u env s chunks last out n hal hv

example :=
  C01_md5_streaming true (env0 .md5) (st0 32) (chunks0 .md5) (junk0 .md5) (List.replicate 70 1) 66 rfl (chunks0_ok .md5)

/-- C02. SHA-1, for every message (FIPS 180-4 defines SHA-1 below 2^61 bytes only; above, the length field is the bit length modulo 2^64). -/
theorem C02_sha1_streaming (u : Bool) (env : Env 32) (s : St 32) (chunks : List (List Byte × Scr 32)) (last : Scr 32) (out : List Byte) (n : Nat)
    (hal : env.allocOk s.count = true) (hv : ValidStream .sha1 chunks last out n) :
    ∃ slot s', run Model.sha1 u env (hashCalls chunks last out n) none s =
      .ok (goodReplies chunks.length (Spec.sha1.digest (message chunks) ++ out.drop 20), slot, s') :=
  stream_ok .sha1 u env s chunks last out n hal hv

example :=
  C02_sha1_streaming false (env0 .sha1) (st0 32) (chunks0 .sha1) (junk0 .sha1) (List.replicate 70 1) 66 rfl (chunks0_ok .sha1)

/-- C03. SHA-224, as C02. -/
theorem C03_sha224_streaming (u : Bool) (env : Env 32) (s : St 32) (chunks : List (List Byte × Scr 32)) (last : Scr 32) (out : List Byte) (n : Nat)
    (hal : env.allocOk s.count = true) (hv : ValidStream .sha224 chunks last out n) :
    ∃ slot s', run Model.sha224 u env (hashCalls chunks last out n) none s =
      .ok (goodReplies chunks.length (Spec.sha224.digest (message chunks) ++ out.drop 28), slot, s') :=
  stream_ok .sha224 u env s chunks last out n hal hv

example :=
  C03_sha224_streaming true (env0 .sha224) (st0 32) (chunks0 .sha224) (junk0 .sha224) (List.replicate 70 1) 66 rfl (chunks0_ok .sha224)

/-- C04. SHA-256, as C02. -/
theorem C04_sha256_streaming (u : Bool) (env : Env 32) (s : St 32) (chunks : List (List Byte × Scr 32)) (last : Scr 32) (out : List Byte) (n : Nat)
    (hal : env.allocOk s.count = true) (hv : ValidStream .sha256 chunks last out n) :
    ∃ slot s', run Model.sha256 u env (hashCalls chunks last out n) none s =
      .ok (goodReplies chunks.length (Spec.sha256.digest (message chunks) ++ out.drop 32), slot, s') :=
  stream_ok .sha256 u env s chunks last out n hal hv

example :=
  C04_sha256_streaming true (env0 .sha256) (st0 32) (chunks0 .sha256) (junk0 .sha256) (List.replicate 70 1) 66 rfl (chunks0_ok .sha256)

/-- C05, partial. SHA-512 for messages below 2^61 bytes. Missing: the full claim is for all messages below 2^125 bytes; it is false of the code for
messages of 2^61 bytes and more (`C05_sha512_long`, `C05_sha512_length_field_wrong`), because the bit length is kept in 64 bits. -/
theorem C05_sha512_streaming_partial (u : Bool) (env : Env 64) (s : St 64) (chunks : List (List Byte × Scr 64)) (last : Scr 64) (out : List Byte)
    (n : Nat) (hal : env.allocOk s.count = true) (hv : ValidStream .sha512 chunks last out n) (hlen : (message chunks).length < 2 ^ 61) :
    ∃ slot s', run Model.sha512 u env (hashCalls chunks last out n) none s =
      .ok (goodReplies chunks.length (Spec.sha512.digest (message chunks) ++ out.drop 64), slot, s') :=
  stream_std .sha512 u env s chunks last out n hal hv hlen

example :=
  C05_sha512_streaming_partial true (env0 .sha512) (st0 64) (chunks0 .sha512) (junk0 .sha512) (List.replicate 70 1) 66 rfl (chunks0_ok .sha512)
    (lt_of_eq_of_lt (chunks0_len .sha512) (by decide))

/-- C05. What the code computes for every length: the iterated hash of the message padded with its bit length modulo 2^64
(`sha512Len64` is SHA-512 with this length field). -/
theorem C05_sha512_long (u : Bool) (env : Env 64) (s : St 64) (chunks : List (List Byte × Scr 64)) (last : Scr 64) (out : List Byte) (n : Nat)
    (hal : env.allocOk s.count = true) (hv : ValidStream .sha512 chunks last out n) :
    ∃ slot s', run Model.sha512 u env (hashCalls chunks last out n) none s =
      .ok (goodReplies chunks.length
        (Spec.sha512Len64.digest (message chunks) ++ out.drop 64), slot, s') :=
  stream_ok .sha512 u env s chunks last out n hal hv

/-- C05, negation. For every message of at least 2^61 bytes that SHA-512 allows, the padded message the code hashes is not the one of the standard. -/
theorem C05_sha512_length_field_wrong (m : List Byte) (h1 : 2 ^ 61 ≤ m.length) (h2 : m.length < 2 ^ 125) :
    pad 128 16 (fun l => beBytes 16 (l % 2 ^ 64)) m ≠ pad 128 16 Spec.sha512.lenField m := by
  intro h
  have h := List.append_cancel_left h
  have key : ∀ i, i < 8 → (8 * m.length / 2 ^ (8 * (15 - i))) % 256 = 0 := by
    intro i hi
    have hh : (beBytes 16 (8 * m.length % 2 ^ 64))[i]? = (beBytes 16 (8 * m.length))[i]? := congrArg (·[i]?) h
    rw [beBytes_getElem? _ _ _ (by omega), beBytes_getElem? _ _ _ (by omega)] at hh
    have hh := congrArg BitVec.toNat (Option.some.inj hh)
    simp only [BitVec.toNat_ofNat] at hh
    have hz : 8 * m.length % 2 ^ 64 / 2 ^ (8 * (16 - 1 - i)) = 0 := by
      apply Nat.div_eq_of_lt
      calc 8 * m.length % 2 ^ 64 < 2 ^ 64 := Nat.mod_lt _ (by decide)
        _ ≤ 2 ^ (8 * (16 - 1 - i)) := Nat.pow_le_pow_right (by decide) (by omega)
    rw [hz] at hh
    simpa using hh.symm
  have k0 := key 0 (by omega)
  have k1 := key 1 (by omega)
  have k2 := key 2 (by omega)
  have k3 := key 3 (by omega)
  have k4 := key 4 (by omega)
  have k5 := key 5 (by omega)
  have k6 := key 6 (by omega)
  have k7 := key 7 (by omega)
  simp only [Nat.reduceSub, Nat.reduceMul, Nat.reducePow] at k0 k1 k2 k3 k4 k5 k6 k7 h1 h2
  omega

/-- Such messages exist and can be fed: a single update of 2^61 bytes is accepted. -/
example : ∃ b : List Byte, 2 ^ 61 ≤ b.length ∧ b.length < 2 ^ 125 ∧
    ValidStream .sha512 [(b, junk0 .sha512)] (junk0 .sha512) (List.replicate 64 0) 64 := by
  obtain ⟨b, hb⟩ : ∃ b : List Byte, b.length = 2 ^ 61 := ⟨List.replicate (2 ^ 61) 0, List.length_replicate⟩
  refine ⟨b, by omega, by omega, ⟨?_, junk0_ok .sha512, by decide, by simp⟩⟩
  intro c hc
  simp only [List.mem_singleton] at hc
  subst hc
  exact ⟨by simp only [maxSize]; omega, junk0_ok .sha512⟩

end Props
