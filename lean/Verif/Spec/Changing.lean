import Verif.Spec.Hmacsum
/-! A source that changes while it is read. Independent of the model. -/

namespace Spec

/-- A source of data, as its reader sees it: what the n-th read delivers when it is made at a position and asks for at most a number of bytes (`none`: failure). A file that others write to, a device and a pipe are such
sources. A source that delivers more than was asked for is taken to deliver the beginning. -/
abbrev Source := Nat → Nat → Nat → Option (List Byte)

/-- `Pieces S most n pos left ds`: reads of at most `most` bytes, starting with the n-th at position `pos`, delivered the pieces `ds`, none of them empty, when at most `left` bytes were wanted in all. Each read is made where the one before it ended. -/
inductive Pieces (S : Source) (most : Nat) : Nat → Nat → Nat → List (List Byte) → Prop where
  | done (n pos left : Nat) : Pieces S most n pos left []
  | more (n pos left : Nat) (d : List Byte) (ds : List (List Byte)) (e : (S n pos (min most left)).map (List.take (min most left)) = some d) (he : d ≠ [])
      (h : Pieces S most (n + 1) (pos + d.length) (left - d.length) ds) : Pieces S most n pos left (d :: ds)

/-- The source that a file is whose content at the n-th read is `view n`, of which the n-th read delivers at most `most n` bytes. -/
def fileSource (view : Nat → List Byte) (most : Nat → Option Nat) : Source := fun n pos size => (most n).map fun c => ((view n).drop pos).take (min c size)

end Spec
