import Verif.Base
/-! Specification vocabulary shared by the hash standards: byte order, padding, iterated hashing.
Written from RFC 1321, FIPS 180-4 and RFC 2104; independent of the model. -/

namespace Spec

/-- Value of a byte string, most significant byte first. -/
def beNat (bs : List Byte) : Nat := bs.foldl (fun acc b => 256 * acc + b.toNat) 0

/-- Value of a byte string, least significant byte first. -/
def leNat : List Byte → Nat
  | [] => 0
  | b :: bs => b.toNat + 256 * leNat bs

/-- The `n` byte big-endian representation of `v` (its low `8 n` bits). -/
def beBytes : Nat → Nat → List Byte
  | 0, _ => []
  | n + 1, v => beBytes n (v / 256) ++ [BitVec.ofNat 8 v]

/-- The `n` byte little-endian representation of `v` (its low `8 n` bits). -/
def leBytes : Nat → Nat → List Byte
  | 0, _ => []
  | n + 1, v => BitVec.ofNat 8 v :: leBytes n (v / 256)

/-- Block number `i` of a byte string: bytes `i B .. (i+1) B - 1`. -/
def block (B : Nat) (m : List Byte) (i : Nat) : List Byte := (m.drop (i * B)).take B

/-- The whole blocks contained in a byte string, in order. -/
def blocks (B : Nat) (m : List Byte) : List (List Byte) :=
  (List.range (m.length / B)).map (block B m)

/-- Number of zero bytes appended after the `0x80` byte: the smallest `k` with `len + 1 + k + lenBytes ≡ 0 (mod B)`
(FIPS 180-4 §5.1.1/§5.1.2, RFC 1321 §3.1, in bytes). `padZeros_spec` shows it is the smallest. -/
def padZeros (B lenBytes len : Nat) : Nat := (B - (len + 1 + lenBytes) % B) % B

/-- Padded message: message, `0x80`, zero bytes, length field. -/
def pad (B lenBytes : Nat) (lenField : Nat → List Byte) (m : List Byte) : List Byte :=
  m ++ [0x80#8] ++ List.replicate (padZeros B lenBytes m.length) 0#8 ++ lenField (8 * m.length)

/-- An iterated (Merkle–Damgård) hash function on `w`-bit words. -/
structure IterHash (w : Nat) where
  /-- block size in bytes -/
  blockBytes : Nat
  /-- size of the length field in bytes -/
  lenBytes : Nat
  /-- encoding of the bit length -/
  lenField : Nat → List Byte
  /-- initial hash value -/
  iv : List (BitVec w)
  /-- compression function -/
  compress : List (BitVec w) → List Byte → List (BitVec w)
  /-- output transformation of the final hash value -/
  output : List (BitVec w) → List Byte

/-- The chaining value after hashing whole blocks from `h0`. -/
def IterHash.chain {w} (H : IterHash w) (h0 : List (BitVec w)) (bs : List (List Byte)) : List (BitVec w) :=
  bs.foldl H.compress h0

/-- Hash of a message from an arbitrary initial chaining value. -/
def IterHash.digestFrom {w} (H : IterHash w) (h0 : List (BitVec w)) (m : List Byte) : List Byte :=
  H.output (H.chain h0 (blocks H.blockBytes (pad H.blockBytes H.lenBytes H.lenField m)))

/-- The hash function. -/
def IterHash.digest {w} (H : IterHash w) (m : List Byte) : List Byte := H.digestFrom H.iv m

/-- HMAC (RFC 2104 §2) over an arbitrary hash function `h` with block size `B`. -/
def hmac (B : Nat) (h : List Byte → List Byte) (key msg : List Byte) : List Byte :=
  let k0 := if key.length ≤ B then key else h key
  let k := k0 ++ List.replicate (B - k0.length) 0#8
  h (k.map (· ^^^ 0x5c#8) ++ h (k.map (· ^^^ 0x36#8) ++ msg))

end Spec
