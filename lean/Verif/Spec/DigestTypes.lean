import Verif.Spec.Kinds
/-! The accepted names of digests and lists of names separated by commas. Characters are their numeric values. -/

namespace Spec

/-- The characters of a string. -/
def codes (s : String) : List Nat := s.toList.map Char.toNat

/-- The number in the name of an algorithm of the SHA family. -/
def Kind.number : Kind → String
  | .md5 => "5"
  | .sha1 => "1"
  | .sha224 => "224"
  | .sha256 => "256"
  | .sha512 => "512"

/-- The accepted names: md5 and MD5; sha or SHA, then nothing, a minus or an underscore, then the number. -/
def Kind.names : Kind → List (List Nat)
  | .md5 => [codes "md5", codes "MD5"]
  | k => ["sha", "SHA"].flatMap fun p => ["", "-", "_"].map fun s => codes p ++ codes s ++ codes k.number

/-- The order in which digests are printed. -/
def printOrder : List Kind := [.md5, .sha1, .sha224, .sha256, .sha512]

/-- `name` stands in the list `string`: between commas or the ends. -/
def InList (name string : List Nat) : Prop :=
  44 ∉ name ∧ ∃ a c, string = a ++ name ++ c ∧ (a = [] ∨ ∃ a', a = a' ++ [44]) ∧ (c = [] ∨ ∃ c', c = 44 :: c')

/-- The list names the algorithm. -/
def Kind.Named (k : Kind) (string : List Nat) : Prop := ∃ name ∈ k.names, InList name string

end Spec
