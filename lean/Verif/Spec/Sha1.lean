import Verif.Spec.Sha2
/-! SHA-1 as in FIPS 180-4 §6.1 (RFC 3174). Independent of the model. -/

namespace Spec

/-- FIPS 180-4 (4.1): f_t. -/
def sha1F (t : Nat) (x y z : BitVec 32) : BitVec 32 :=
  if t < 20 then (x &&& y) ^^^ (~~~x &&& z)
  else if t < 40 then x ^^^ y ^^^ z
  else if t < 60 then (x &&& y) ^^^ (x &&& z) ^^^ (y &&& z)
  else x ^^^ y ^^^ z

/-- FIPS 180-4 §4.2.1: K_t. -/
def sha1K (t : Nat) : BitVec 32 :=
  if t < 20 then 0x5a827999
  else if t < 40 then 0x6ed9eba1
  else if t < 60 then 0x8f1bbcdc
  else 0xca62c1d6

/-- The message schedule (FIPS 180-4 §6.1.2 step 1). -/
def sha1W (blk : List Byte) (t : Nat) : BitVec 32 :=
  if t < 16 then beWord 32 blk t
  else (sha1W blk (t - 3) ^^^ sha1W blk (t - 8) ^^^ sha1W blk (t - 14) ^^^ sha1W blk (t - 16)).rotateLeft 1
termination_by t
decreasing_by all_goals omega

/-- The working variables a..e. -/
structure Vars5 where
  (a b c d e : BitVec 32)

/-- One round (FIPS 180-4 §6.1.2 step 3). -/
def sha1Round (t : Nat) (wt : BitVec 32) (v : Vars5) : Vars5 :=
  { a := v.a.rotateLeft 5 + sha1F t v.b v.c v.d + v.e + sha1K t + wt
    b := v.a, c := v.b.rotateLeft 30, d := v.c, e := v.d }

/-- The first `t` rounds. -/
def sha1Rounds (blk : List Byte) (v0 : Vars5) : Nat → Vars5
  | 0 => v0
  | t + 1 => sha1Round t (sha1W blk t) (sha1Rounds blk v0 t)

/-- Compression. -/
def sha1Compress (H : List (BitVec 32)) (blk : List Byte) : List (BitVec 32) :=
  match H with
  | [h0, h1, h2, h3, h4] =>
    let v := sha1Rounds blk ⟨h0, h1, h2, h3, h4⟩ 80
    [v.a + h0, v.b + h1, v.c + h2, v.d + h3, v.e + h4]
  | _ => H

/-- SHA-1 (FIPS 180-4 §5.3.1, §6.1). -/
def sha1 : IterHash 32 where
  blockBytes := 64
  lenBytes := 8
  lenField := beBytes 8
  iv := [0x67452301, 0xefcdab89, 0x98badcfe, 0x10325476, 0xc3d2e1f0]
  compress := sha1Compress
  output h := h.flatMap fun x => beBytes 4 x.toNat

end Spec
