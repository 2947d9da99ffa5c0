import Verif.Spec.Md5
import Verif.Spec.Sha1
import Verif.Spec.Sha2
import Verif.Spec.Machine
/-! The five hash functions as a family. -/

namespace Spec

/-- The hash functions of the library. -/
inductive Kind where
  | md5
  | sha1
  | sha224
  | sha256
  | sha512
  deriving DecidableEq, Repr

/-- Word width. -/
def Kind.width : Kind → Nat
  | .md5 => 32
  | .sha1 => 32
  | .sha224 => 32
  | .sha256 => 32
  | .sha512 => 64

/-- Digest size in bytes. -/
def Kind.hashSize : Kind → Nat
  | .md5 => 16
  | .sha1 => 20
  | .sha224 => 28
  | .sha256 => 32
  | .sha512 => 64

/-- Block size in bytes. -/
def Kind.blockSize : Kind → Nat
  | .md5 => 64
  | .sha1 => 64
  | .sha224 => 64
  | .sha256 => 64
  | .sha512 => 128

/-- The standard hash function. -/
def Kind.std : (k : Kind) → IterHash k.width
  | .md5 => Spec.md5
  | .sha1 => Spec.sha1
  | .sha224 => Spec.sha224
  | .sha256 => Spec.sha256
  | .sha512 => Spec.sha512

/-- The hash function with the bit length reduced modulo 2^64: differs from `std` only for SHA-512, and there only for messages of 2^61 bytes
and more. -/
def Kind.len64 : (k : Kind) → IterHash k.width
  | .md5 => Spec.md5
  | .sha1 => Spec.sha1
  | .sha224 => Spec.sha224
  | .sha256 => Spec.sha256
  | .sha512 => sha512Len64

/-- The number of words of the chaining value. -/
def Kind.words : Kind → Nat
  | .md5 => 4
  | .sha1 => 5
  | .sha224 => 8
  | .sha256 => 8
  | .sha512 => 8

/-- Messages for which the 64-bit length field of the implementation is enough: all, except for SHA-512 (less than 2^61 bytes). -/
def Kind.LengthOk : Kind → Nat → Prop
  | .sha512, n => n < 2 ^ 61
  | _, _ => True

instance (k : Kind) (n : Nat) : Decidable (k.LengthOk n) := by cases k <;> unfold Kind.LengthOk <;> infer_instance

end Spec
