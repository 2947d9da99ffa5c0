import Verif.Base
/-! Hexadecimal notation. Characters are their numeric values. -/

namespace Spec

/-- The sixteen digits. -/
def hexDigits : List Nat := "0123456789abcdef".toList.map Char.toNat

/-- Two digits per byte, most significant first. -/
def hex (bs : List Byte) : List Nat := bs.flatMap fun b => [hexDigits.getD (b.toNat / 16) 0, hexDigits.getD (b.toNat % 16) 0]

/-- The value of a digit character. -/
def hexValue (c : Nat) : Option Nat :=
  if 48 ≤ c ∧ c ≤ 57 then some (c - 48) else if 97 ≤ c ∧ c ≤ 102 then some (c - 87) else none

/-- Reading of a string of digit pairs. -/
def unhex : List Nat → Option (List Byte)
  | [] => some []
  | [_] => none
  | a :: b :: t => do
    let x ← hexValue a
    let y ← hexValue b
    let r ← unhex t
    pure (BitVec.ofNat 8 (16 * x + y) :: r)

end Spec
