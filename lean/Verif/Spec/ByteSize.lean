import Mathlib.Data.Nat.Digits.Defs
/-! Byte size notation: a decimal number, an optional fraction, an optional factor letter and an optional unit. Characters are their numeric values. -/

namespace Spec

/-- Decimal digits as characters. -/
def digitChars (ds : List (Fin 10)) : List Nat := ds.map fun d => 48 + d.1

/-- The value of a string of decimal digits, most significant first. -/
def decimal (ds : List (Fin 10)) : Nat := Nat.ofDigits 10 (ds.map (·.1)).reverse

/-- A decimal number without leading zeros. -/
def canonical (ds : List (Fin 10)) : Prop := ds = [0] ∨ ∃ d t, ds = d :: t ∧ d ≠ 0

/-- The factor letters for 1000 or 1024 to the power of 0 (no letter) to 8, in both cases. -/
def factorLetter (f : Fin 9) (upper : Bool) : List Nat :=
  (((if upper then ["", "K", "M", "G", "T", "P", "E", "Z", "Y"] else ["", "k", "m", "g", "t", "p", "e", "z", "y"])[f.1]?.getD "").toList).map Char.toNat

/-- The units. -/
inductive SizeUnit where
  | none
  | iB
  | B
  deriving DecidableEq

/-- Text of a unit. -/
def SizeUnit.text : SizeUnit → List Nat
  | .none => []
  | .iB => "iB".toList.map Char.toNat
  | .B => "B".toList.map Char.toNat

/-- The base of the factors. -/
def SizeUnit.base : SizeUnit → Nat
  | .none => 1024
  | .iB => 1024
  | .B => 1000

/-- The first two digits of a fraction as hundredths. -/
def hundredths : List (Fin 10) → Nat
  | [] => 0
  | [a] => 10 * a.1
  | a :: b :: _ => 10 * a.1 + b.1

/-- Characters with a meaning of their own in the notation; the decimal point of the locale is assumed to be another one. -/
def sizeChars : List Nat := 0 :: (" 0123456789KMGTPEZYkmgtpezyiB".toList.map Char.toNat)

/-- Text of an optional fraction. -/
def fracText (dp : Nat) (frac : Option (List (Fin 10))) : List Nat := match frac with
  | none => []
  | some ds => dp :: digitChars ds

/-- Text of an optional space. -/
def spaceText (sp : Bool) : List Nat := if sp then [32] else []

/-- A complete size text without terminator. -/
def sizeText (dp : Nat) (ds : List (Fin 10)) (frac : Option (List (Fin 10))) (sp : Bool) (f : Fin 9) (up : Bool) (u : SizeUnit) : List Nat :=
  digitChars ds ++ fracText dp frac ++ spaceText sp ++ factorLetter f up ++ u.text

/-- The hundredths of an optional fraction. -/
def fracValue (frac : Option (List (Fin 10))) : Nat := hundredths (frac.getD [])

/-- The value of a number `n` with hundredths `h`, factor `f` and base `u`. For base 1000 this is `(n + h / 100) * 1000 ^ f`. For base 1024 a hundredth
counts as ten times the next smaller factor. Without factor the hundredths do not count. -/
def scaled (n h f u : Nat) : Nat := if 0 < f ∧ 0 < h then (n * u + 10 * h) * u ^ (f - 1) else n * u ^ f

/-- The unit shown for a size: `iB` for base 1024, except for sizes below 1024. -/
def shownUnit (size base : Nat) : SizeUnit := if size < 1024 ∨ base = 1000 then .B else .iB

/-- The fraction shown for a size with factor `f`: the tenths, if the number is below 10 and there is a factor. For base 1024 a tenth is taken as 100 times the
next smaller factor and the last tenth is longer. -/
def shownFraction (size base f : Nat) : Option (List (Fin 10)) :=
  if f = 0 ∨ 10 ≤ size / base ^ f then none else some [⟨min 9 (size / base ^ (f - 1) % base / 100), by omega⟩]

end Spec
