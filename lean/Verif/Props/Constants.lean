import Verif.Proofs.Constants
import Verif.Model.Block
import Verif.Model.Tables
import Verif.Spec.Sha1
import Verif.Spec.Sha2
import Verif.Spec.Md5
/-! The constant tables of the hash functions are the ones the standards define by primes, roots and sines. -/

namespace Props

open Model Spec

/-- C29. The round constants of SHA-256. -/
theorem C29_sha256_constants : sha256K.length = 64 ∧ ∀ i < 64, ((sha256K.getD i 0).toNat : ℤ) = sha2Constant 32 i := by
  have h : sha256K.length = 64 ∧ ∀ i < 64, rootTest 3 32 (primes.getD i 0) (sha256K.getD i 0).toNat = true := by decide +kernel
  refine ⟨h.1, fun i hi => ?_⟩
  rw [sha2Constant, prime_table i (by omega), rootTest_cbrt (BitVec.isLt _) (h.2 i hi)]

/-- C29. The round constants of SHA-224. -/
theorem C29_sha224_constants : sha224K.length = 64 ∧ ∀ i < 64, ((sha224K.getD i 0).toNat : ℤ) = sha2Constant 32 i := by
  have h : sha224K.length = 64 ∧ ∀ i < 64, rootTest 3 32 (primes.getD i 0) (sha224K.getD i 0).toNat = true := by decide +kernel
  refine ⟨h.1, fun i hi => ?_⟩
  rw [sha2Constant, prime_table i (by omega), rootTest_cbrt (BitVec.isLt _) (h.2 i hi)]

/-- C29. The round constants of SHA-512. -/
theorem C29_sha512_constants : sha512K.length = 80 ∧ ∀ i < 80, ((sha512K.getD i 0).toNat : ℤ) = sha2Constant 64 i := by
  have h : sha512K.length = 80 ∧ ∀ i < 80, rootTest 3 64 (primes.getD i 0) (sha512K.getD i 0).toNat = true := by decide +kernel
  refine ⟨h.1, fun i hi => ?_⟩
  rw [sha2Constant, prime_table i (by omega), rootTest_cbrt (BitVec.isLt _) (h.2 i hi)]

/-- C29. The initial values of SHA-256. -/
theorem C29_sha256_initial : sha256Iv.length = 8 ∧ ∀ i < 8, ((sha256Iv.getD i 0).toNat : ℤ) = sha2Initial 32 i := by
  have h : sha256Iv.length = 8 ∧ ∀ i < 8, rootTest 2 32 (primes.getD i 0) (sha256Iv.getD i 0).toNat = true := by decide +kernel
  refine ⟨h.1, fun i hi => ?_⟩
  rw [sha2Initial, prime_table i (by omega), rootTest_sqrt (BitVec.isLt _) (h.2 i hi)]

/-- C29. The initial values of SHA-512. -/
theorem C29_sha512_initial : sha512Iv.length = 8 ∧ ∀ i < 8, ((sha512Iv.getD i 0).toNat : ℤ) = sha2Initial 64 i := by
  have h : sha512Iv.length = 8 ∧ ∀ i < 8, rootTest 2 64 (primes.getD i 0) (sha512Iv.getD i 0).toNat = true := by decide +kernel
  refine ⟨h.1, fun i hi => ?_⟩
  rw [sha2Initial, prime_table i (by omega), rootTest_sqrt (BitVec.isLt _) (h.2 i hi)]

/-- The 64 fraction bits of the square roots of the ninth to sixteenth prime. -/
private def sha224Roots : List (BitVec 64) := [0xcbbb9d5dc1059ed8, 0x629a292a367cd507, 0x9159015a3070dd17, 0x152fecd8f70e5939, 0x67332667ffc00b31, 0x8eb44a8768581511, 0xdb0c2e0d64f98fa7, 0x47b5481dbefa4fa4]

/-- C29. The initial values of SHA-224. -/
theorem C29_sha224_initial : sha224Iv.length = 8 ∧ ∀ i < 8, ((sha224Iv.getD i 0).toNat : ℤ) = sha224Initial i := by
  have h : sha224Iv.length = 8 ∧ ∀ i < 8, rootTest 2 64 (primes.getD (i + 8) 0) (sha224Roots.getD i 0).toNat = true ∧ (sha224Iv.getD i 0).toNat = (sha224Roots.getD i 0).toNat % 2 ^ 32 := by decide +kernel
  refine ⟨h.1, fun i hi => ?_⟩
  rw [sha224Initial, prime_table (i + 8) (by omega), rootTest_sqrt (BitVec.isLt _) (h.2 i hi).1, (h.2 i hi).2]
  push_cast
  rfl

/-- C29. The sine table of MD5. -/
theorem C29_md5_sines : md5Sines.length = 64 ∧ ∀ i < 64, ((md5Sines.getD i 0).toNat : ℤ) = md5Constant (i + 1) := by
  have h : md5Sines.length = 64 ∧ ∀ i < 64, sineTest (i + 1) (md5Sines.getD i 0).toNat = true := by decide +kernel
  exact ⟨h.1, fun i hi => (sineTest_ok (h.2 i hi)).symm⟩

/-- The number under the root of the constant of SHA-1 for a round. -/
def sha1Radicand (t : Nat) : Nat := if t < 20 then 2 else if t < 40 then 3 else if t < 60 then 5 else 10

theorem sha1_floor : sha1Constant 2 = 0x5a827999 ∧ sha1Constant 3 = 0x6ed9eba1 ∧ sha1Constant 5 = 0x8f1bbcdc ∧ sha1Constant 10 = 0xca62c1d6 :=
  ⟨floor_sqrt (w := 30) (n := 0x5a827999) (by decide) (by decide), floor_sqrt (w := 30) (n := 0x6ed9eba1) (by decide) (by decide), floor_sqrt (w := 30) (n := 0x8f1bbcdc) (by decide) (by decide),
    floor_sqrt (w := 30) (n := 0xca62c1d6) (by decide) (by decide)⟩

/-- C29. The round constants of SHA-1 in the standard, which both variants of the transform use (C23). -/
theorem C29_sha1_standard (t : Nat) : ((sha1K t).toNat : ℤ) = sha1Constant (sha1Radicand t) := by
  obtain ⟨h1, h2, h3, h4⟩ := sha1_floor
  unfold sha1K sha1Radicand
  split
  · rw [h1]; rfl
  split
  · rw [h2]; rfl
  split
  · rw [h3]; rfl
  · rw [h4]; rfl

/-- C29. The round constants of SHA-1 in the macros of the unrolled transform. -/
theorem C29_sha1_macros (b c d : BitVec 32) : ((sha1MacroF 1 b c d).2.toNat : ℤ) = sha1Constant 2 ∧ ((sha1MacroF 2 b c d).2.toNat : ℤ) = sha1Constant 3 ∧
    ((sha1MacroF 3 b c d).2.toNat : ℤ) = sha1Constant 5 ∧ ((sha1MacroF 4 b c d).2.toNat : ℤ) = sha1Constant 10 := by
  obtain ⟨h1, h2, h3, h4⟩ := sha1_floor
  rw [h1, h2, h3, h4]
  exact ⟨rfl, rfl, rfl, rfl⟩

/-- C29. The initial values of MD5 (RFC 1321 §3.3): in memory, low-order byte first, the hexadecimal digits count up and then down. -/
theorem C29_md5_initial : md5Iv.flatMap (fun x => leBytes 4 x.toNat) = (List.range 16).map fun i => if i < 8 then BitVec.ofNat 8 (0x01 + 0x22 * i) else BitVec.ofNat 8 (0xfe - 0x22 * (i - 8)) := by decide

/-- C29. The initial values of SHA-1 (FIPS 180-4 §5.3.1): those of MD5 and one more word. -/
theorem C29_sha1_initial : sha1Iv = md5Iv ++ [0xc3d2e1f0] := by decide

end Props
