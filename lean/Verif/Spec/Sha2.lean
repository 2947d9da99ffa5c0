import Verif.Spec.Common
/-! SHA-224, SHA-256 and SHA-512 as in FIPS 180-4. Independent of the model. -/

namespace Spec

/-- FIPS 180-4 (4.2)/(4.8): Ch(x,y,z). -/
def ch {w} (x y z : BitVec w) : BitVec w := (x &&& y) ^^^ (~~~x &&& z)
/-- FIPS 180-4 (4.3)/(4.9): Maj(x,y,z). -/
def maj {w} (x y z : BitVec w) : BitVec w := (x &&& y) ^^^ (x &&& z) ^^^ (y &&& z)

/-- The functions in which SHA-224/256 and SHA-512 differ, and the constants K. -/
structure Sha2Fns (w : Nat) where
  rounds : Nat
  bigSigma0 : BitVec w → BitVec w
  bigSigma1 : BitVec w → BitVec w
  smallSigma0 : BitVec w → BitVec w
  smallSigma1 : BitVec w → BitVec w
  k : List (BitVec w)

/-- Message word `t` (0..15) of a block: `w/8` bytes, big-endian. -/
def beWord (w : Nat) (blk : List Byte) (t : Nat) : BitVec w :=
  BitVec.ofNat w (beNat ((blk.drop (t * (w / 8))).take (w / 8)))

/-- The message schedule W_t (FIPS 180-4 §6.2.2 step 1, §6.4.2 step 1). -/
def sha2W {w} (F : Sha2Fns w) (blk : List Byte) (t : Nat) : BitVec w :=
  if t < 16 then beWord w blk t
  else F.smallSigma1 (sha2W F blk (t - 2)) + sha2W F blk (t - 7)
     + F.smallSigma0 (sha2W F blk (t - 15)) + sha2W F blk (t - 16)
termination_by t
decreasing_by all_goals omega

/-- The working variables a..h. -/
structure Vars8 (w : Nat) where
  (a b c d e f g h : BitVec w)

/-- One round (FIPS 180-4 §6.2.2 step 3, §6.4.2 step 3) with constant `kt` and schedule word `wt`. -/
def sha2Round {w} (F : Sha2Fns w) (kt wt : BitVec w) (v : Vars8 w) : Vars8 w :=
  let t1 := v.h + F.bigSigma1 v.e + ch v.e v.f v.g + kt + wt
  let t2 := F.bigSigma0 v.a + maj v.a v.b v.c
  { a := t1 + t2, b := v.a, c := v.b, d := v.c, e := v.d + t1, f := v.e, g := v.f, h := v.g }

/-- The first `t` rounds. -/
def sha2Rounds {w} (F : Sha2Fns w) (blk : List Byte) (v0 : Vars8 w) : Nat → Vars8 w
  | 0 => v0
  | t + 1 => sha2Round F (F.k.getD t 0) (sha2W F blk t) (sha2Rounds F blk v0 t)

/-- Compression: eight hash words, one block. (For a list of other length the value is irrelevant.) -/
def sha2Compress {w} (F : Sha2Fns w) (H : List (BitVec w)) (blk : List Byte) : List (BitVec w) :=
  match H with
  | [h0, h1, h2, h3, h4, h5, h6, h7] =>
    let v := sha2Rounds F blk ⟨h0, h1, h2, h3, h4, h5, h6, h7⟩ F.rounds
    [v.a + h0, v.b + h1, v.c + h2, v.d + h3, v.e + h4, v.f + h5, v.g + h6, v.h + h7]
  | _ => H

/-- FIPS 180-4 §4.2.2: the constants K^{256}. `C29` ties them to the cube roots of the first 64 primes. -/
def k256 : List (BitVec 32) := [
  0x428a2f98, 0x71374491, 0xb5c0fbcf, 0xe9b5dba5, 0x3956c25b, 0x59f111f1, 0x923f82a4, 0xab1c5ed5,
  0xd807aa98, 0x12835b01, 0x243185be, 0x550c7dc3, 0x72be5d74, 0x80deb1fe, 0x9bdc06a7, 0xc19bf174,
  0xe49b69c1, 0xefbe4786, 0x0fc19dc6, 0x240ca1cc, 0x2de92c6f, 0x4a7484aa, 0x5cb0a9dc, 0x76f988da,
  0x983e5152, 0xa831c66d, 0xb00327c8, 0xbf597fc7, 0xc6e00bf3, 0xd5a79147, 0x06ca6351, 0x14292967,
  0x27b70a85, 0x2e1b2138, 0x4d2c6dfc, 0x53380d13, 0x650a7354, 0x766a0abb, 0x81c2c92e, 0x92722c85,
  0xa2bfe8a1, 0xa81a664b, 0xc24b8b70, 0xc76c51a3, 0xd192e819, 0xd6990624, 0xf40e3585, 0x106aa070,
  0x19a4c116, 0x1e376c08, 0x2748774c, 0x34b0bcb5, 0x391c0cb3, 0x4ed8aa4a, 0x5b9cca4f, 0x682e6ff3,
  0x748f82ee, 0x78a5636f, 0x84c87814, 0x8cc70208, 0x90befffa, 0xa4506ceb, 0xbef9a3f7, 0xc67178f2]

/-- FIPS 180-4 §4.2.3: the constants K^{512}. -/
def k512 : List (BitVec 64) := [
  0x428a2f98d728ae22, 0x7137449123ef65cd, 0xb5c0fbcfec4d3b2f, 0xe9b5dba58189dbbc,
  0x3956c25bf348b538, 0x59f111f1b605d019, 0x923f82a4af194f9b, 0xab1c5ed5da6d8118,
  0xd807aa98a3030242, 0x12835b0145706fbe, 0x243185be4ee4b28c, 0x550c7dc3d5ffb4e2,
  0x72be5d74f27b896f, 0x80deb1fe3b1696b1, 0x9bdc06a725c71235, 0xc19bf174cf692694,
  0xe49b69c19ef14ad2, 0xefbe4786384f25e3, 0x0fc19dc68b8cd5b5, 0x240ca1cc77ac9c65,
  0x2de92c6f592b0275, 0x4a7484aa6ea6e483, 0x5cb0a9dcbd41fbd4, 0x76f988da831153b5,
  0x983e5152ee66dfab, 0xa831c66d2db43210, 0xb00327c898fb213f, 0xbf597fc7beef0ee4,
  0xc6e00bf33da88fc2, 0xd5a79147930aa725, 0x06ca6351e003826f, 0x142929670a0e6e70,
  0x27b70a8546d22ffc, 0x2e1b21385c26c926, 0x4d2c6dfc5ac42aed, 0x53380d139d95b3df,
  0x650a73548baf63de, 0x766a0abb3c77b2a8, 0x81c2c92e47edaee6, 0x92722c851482353b,
  0xa2bfe8a14cf10364, 0xa81a664bbc423001, 0xc24b8b70d0f89791, 0xc76c51a30654be30,
  0xd192e819d6ef5218, 0xd69906245565a910, 0xf40e35855771202a, 0x106aa07032bbd1b8,
  0x19a4c116b8d2d0c8, 0x1e376c085141ab53, 0x2748774cdf8eeb99, 0x34b0bcb5e19b48a8,
  0x391c0cb3c5c95a63, 0x4ed8aa4ae3418acb, 0x5b9cca4f7763e373, 0x682e6ff3d6b2b8a3,
  0x748f82ee5defb2fc, 0x78a5636f43172f60, 0x84c87814a1f0ab72, 0x8cc702081a6439ec,
  0x90befffa23631e28, 0xa4506cebde82bde9, 0xbef9a3f7b2c67915, 0xc67178f2e372532b,
  0xca273eceea26619c, 0xd186b8c721c0c207, 0xeada7dd6cde0eb1e, 0xf57d4f7fee6ed178,
  0x06f067aa72176fba, 0x0a637dc5a2c898a6, 0x113f9804bef90dae, 0x1b710b35131c471b,
  0x28db77f523047d84, 0x32caab7b40c72493, 0x3c9ebe0a15c9bebc, 0x431d67c49c100d4c,
  0x4cc5d4becb3e42b6, 0x597f299cfc657e2a, 0x5fcb6fab3ad6faec, 0x6c44198c4a475817]

/-- FIPS 180-4 §4.1.2. -/
def fns256 : Sha2Fns 32 where
  rounds := 64
  bigSigma0 x := x.rotateRight 2 ^^^ x.rotateRight 13 ^^^ x.rotateRight 22
  bigSigma1 x := x.rotateRight 6 ^^^ x.rotateRight 11 ^^^ x.rotateRight 25
  smallSigma0 x := x.rotateRight 7 ^^^ x.rotateRight 18 ^^^ (x >>> 3)
  smallSigma1 x := x.rotateRight 17 ^^^ x.rotateRight 19 ^^^ (x >>> 10)
  k := k256

/-- FIPS 180-4 §4.1.3. -/
def fns512 : Sha2Fns 64 where
  rounds := 80
  bigSigma0 x := x.rotateRight 28 ^^^ x.rotateRight 34 ^^^ x.rotateRight 39
  bigSigma1 x := x.rotateRight 14 ^^^ x.rotateRight 18 ^^^ x.rotateRight 41
  smallSigma0 x := x.rotateRight 1 ^^^ x.rotateRight 8 ^^^ (x >>> 7)
  smallSigma1 x := x.rotateRight 19 ^^^ x.rotateRight 61 ^^^ (x >>> 6)
  k := k512

/-- SHA-256 (FIPS 180-4 §5.3.3, §6.2). -/
def sha256 : IterHash 32 where
  blockBytes := 64
  lenBytes := 8
  lenField := beBytes 8
  iv := [0x6a09e667, 0xbb67ae85, 0x3c6ef372, 0xa54ff53a, 0x510e527f, 0x9b05688c, 0x1f83d9ab, 0x5be0cd19]
  compress := sha2Compress fns256
  output h := h.flatMap fun x => beBytes 4 x.toNat

/-- SHA-224 (FIPS 180-4 §5.3.2, §6.3): other initial value, output truncated to seven words. -/
def sha224 : IterHash 32 where
  blockBytes := 64
  lenBytes := 8
  lenField := beBytes 8
  iv := [0xc1059ed8, 0x367cd507, 0x3070dd17, 0xf70e5939, 0xffc00b31, 0x68581511, 0x64f98fa7, 0xbefa4fa4]
  compress := sha2Compress fns256
  output h := (h.take 7).flatMap fun x => beBytes 4 x.toNat

/-- SHA-512 (FIPS 180-4 §5.3.5, §6.4): 128-bit length field. -/
def sha512 : IterHash 64 where
  blockBytes := 128
  lenBytes := 16
  lenField := beBytes 16
  iv := [0x6a09e667f3bcc908, 0xbb67ae8584caa73b, 0x3c6ef372fe94f82b, 0xa54ff53a5f1d36f1,
         0x510e527fade682d1, 0x9b05688c2b3e6c1f, 0x1f83d9abfb41bd6b, 0x5be0cd19137e2179]
  compress := sha2Compress fns512
  output h := h.flatMap fun x => beBytes 8 x.toNat

/-- SHA-512 with the length modulo 2^64 in the 128-bit length field: equal to SHA-512 for messages of less than 2^64 bits (2^61 bytes), not
a standard function above that. -/
def sha512Len64 : IterHash 64 := { sha512 with lenField := fun n => beBytes 16 (n % 2 ^ 64) }

end Spec
