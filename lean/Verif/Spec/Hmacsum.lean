import Verif.Spec.DigestTypes
import Verif.Spec.Hex
/-! What hmacsum prints. -/

namespace Spec

/-- Lines on standard output: the version line, the usage text, the copyright text, a digest, the notice of an abort. -/
inductive Line where
  | version
  | usage
  | copyright
  | digest (k : Kind) (text : List Nat)
  | aborted
  deriving DecidableEq

/-- The digests to calculate: always MD5, and those named by the argument of -d. -/
def Selected (types : Option (List Nat)) (k : Kind) : Prop := k = .md5 ∨ ∃ s, types = some s ∧ k.Named s

/-- The lines for some data: the selected digests in the order of printing, in hexadecimal. -/
def DigestLines (types : Option (List Nat)) (data : List Byte) (lines : List Line) : Prop :=
  ∃ sel : Kind → Bool, (∀ k, sel k = true ↔ Selected types k) ∧ lines = (printOrder.filter sel).map fun k => .digest k (hex (k.std.digest data))

/-- The argument of the last occurrence of an option. -/
def lastArgument (c : Nat) (options : List (Nat × Option (List Nat))) : Option (List Nat) := ((options.filter (·.1 = c)).getLast?.map (·.2)).join

end Spec
