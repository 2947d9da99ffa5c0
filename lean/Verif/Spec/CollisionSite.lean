import Verif.Spec.Kinds
/-! The place where the computations of two digests meet. -/

namespace Spec

/-- The blocks that are compressed for a message of less than 2^61 bytes: the message with its padding. -/
def Kind.compressed (k : Kind) (m : List Byte) : List (List Byte) := blocks k.blockSize (pad k.blockSize k.std.lenBytes k.std.lenField m)

/-- The chaining value when block `i` of the message comes. -/
def Kind.valueAt (k : Kind) (m : List Byte) (i : Nat) : List (BitVec k.width) := k.std.chain k.std.iv ((k.compressed m).take i)

/-- Block `i` of the message. -/
def Kind.blockAt (k : Kind) (m : List Byte) (i : Nat) : List Byte := (k.compressed m).getD i []

/-- The computations of the digests of `a` and `b` differ at block `i` of the one and block `j` of the other, in the chaining value or in the block, and agree after these blocks:
in the whole chaining value, or for SHA-224 at the last blocks in the seven words that are put out. This is a collision of the compression function, at a place that is found by computing the two digests. -/
structure Kind.Meets (k : Kind) (a b : List Byte) (i j : Nat) : Prop where
  left : i < (k.compressed a).length
  right : j < (k.compressed b).length
  before : (k.valueAt a i, k.blockAt a i) ≠ (k.valueAt b j, k.blockAt b j)
  after : k.std.compress (k.valueAt a i) (k.blockAt a i) = k.std.compress (k.valueAt b j) (k.blockAt b j) ∨
    k = .sha224 ∧ i + 1 = (k.compressed a).length ∧ j + 1 = (k.compressed b).length ∧
      (k.std.compress (k.valueAt a i) (k.blockAt a i)).take 7 = (k.std.compress (k.valueAt b j) (k.blockAt b j)).take 7
  /-- The blocks have the same distance from the end. -/
  distance : (k.compressed a).length - i = (k.compressed b).length - j

end Spec
