import Mathlib.Analysis.SpecialFunctions.Pow.Real
import Mathlib.Analysis.Complex.Trigonometric
import Mathlib.Data.Nat.Nth
import Mathlib.Data.Nat.Prime.Defs
/-! The mathematical definitions of the constants of the hash functions. Independent of the model. -/

namespace Spec

/-- The i-th prime, counted from 0. -/
noncomputable def prime (i : Nat) : Nat := Nat.nth Nat.Prime i

/-- The first `w` bits of the fractional part of a number. -/
noncomputable def fractionBits (w : Nat) (x : ℝ) : ℤ := ⌊2 ^ w * Int.fract x⌋

/-- FIPS 180-4 §4.2.2, §4.2.3: round constant i of SHA-2: "the first `w` bits of the fractional parts of the cube roots of the first prime numbers". -/
noncomputable def sha2Constant (w i : Nat) : ℤ := fractionBits w ((prime i : ℝ) ^ (1 / 3 : ℝ))

/-- FIPS 180-4 §5.3.3, §5.3.5: initial hash value i of SHA-256 and SHA-512: "the first `w` bits of the fractional parts of the square roots of the first eight prime numbers". -/
noncomputable def sha2Initial (w i : Nat) : ℤ := fractionBits w (Real.sqrt (prime i))

/-- FIPS 180-4 §5.3.2 (explained in RFC 3874 §2.1): initial hash value i of SHA-224: "the second thirty-two bits of the fractional parts of the square roots of the ninth through sixteenth primes". -/
noncomputable def sha224Initial (i : Nat) : ℤ := fractionBits 64 (Real.sqrt (prime (i + 8))) % 2 ^ 32

/-- RFC 1321 §3.4: "the integer part of 4294967296 times abs(sin(i)), where i is in radians", for i from 1. -/
noncomputable def md5Constant (i : Nat) : ℤ := ⌊4294967296 * |Real.sin i|⌋

/-- The origin of the four round constants of SHA-1 (FIPS 180-4 §4.2.1): 2^30 times the square root of 2, 3, 5 and 10. -/
noncomputable def sha1Constant (n : Nat) : ℤ := ⌊2 ^ 30 * Real.sqrt n⌋

end Spec
