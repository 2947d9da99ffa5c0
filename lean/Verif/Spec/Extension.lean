import Verif.Spec.Kinds
/-! What can be computed from a digest and the length of the message alone. -/

namespace Spec

/-- The bytes that padding adds to a message of `n` bytes: `0x80`, zero bytes up to a block boundary, and the bit length (modulo 2^64). -/
def Kind.suffix (k : Kind) (n : Nat) : List Byte :=
  [0x80#8] ++ List.replicate (padZeros k.blockSize k.len64.lenBytes n) 0#8 ++ k.len64.lenField (8 * n)

/-- Byte string to number, in the byte order of the hash function. -/
def Kind.value : Kind → List Byte → Nat
  | .md5, b => leNat b
  | _, b => beNat b

/-- The words that a digest consists of. -/
def Kind.digestWords (k : Kind) (d : List Byte) : List (BitVec k.width) :=
  (List.range k.words).map fun i => BitVec.ofNat k.width (k.value ((d.drop (i * (k.width / 8))).take (k.width / 8)))

/-- From the digest `d` of a message of `n` bytes: hashing is continued with `x` after the padding of that message. The message is not an argument. -/
def Kind.extend (k : Kind) (d : List Byte) (n : Nat) (x : List Byte) : List Byte :=
  k.len64.output ((blocks k.blockSize (x ++ k.suffix (n + (k.suffix n).length + x.length))).foldl k.len64.compress (k.digestWords d))

end Spec
