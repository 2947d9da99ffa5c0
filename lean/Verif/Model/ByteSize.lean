import Mathlib.Data.Nat.Digits.Defs
import Verif.Base
/-! hmactools/byte_size_string.c. Characters (`system_character_t`) are their numeric values. The error object and the text of the verbose output are not modelled. The result of `libclocale_locale_get_decimal_point` is a parameter: `none` if it fails. -/

namespace Model

/-- Test `c >= '0' && c <= '9'` of hmactools/byte_size_string.c:258-259, 272-273, 281-282, 292-293. -/
def isDigit (c : Nat) : Prop := 48 ≤ c ∧ c ≤ 57

/-- The test of hmactools/byte_size_string.c:258-259 can be decided. -/
instance (c : Nat) : Decidable (isDigit c) := by unfold isDigit; infer_instance

/-- The loop over the digits (hmactools/byte_size_string.c:256-267). `fuel` is `byte_size_string_length - byte_size_string_iterator`, so the loop
condition is `0 < fuel`. `byte_size` wraps around as `uint64_t`. -/
def convDigits (s : List Nat) : Nat → Nat → BitVec 64 → Res (Nat × BitVec 64)
  | 0, it, v => .ok (it, v)
  | fuel + 1, it, v => do
    let c ← rd s it
    if ¬ isDigit c then pure (it, v)
    else convDigits s fuel (it + 1) (v * 10 + BitVec.ofNat 64 (c - 48))

/-- The loop that skips further digits of the fraction (hmactools/byte_size_string.c:290-298), as `convDigits`. -/
def convSkip (s : List Nat) : Nat → Nat → Res Nat
  | 0, it => .ok it
  | fuel + 1, it => do
    let c ← rd s it
    if ¬ isDigit c then pure it else convSkip s fuel (it + 1)

/-- The fraction (hmactools/byte_size_string.c:268-299): the new iterator and `remainder`. `remainder` is an `int8_t`; its values here are between -10
and 99, so an `Int` is exact. -/
def convFraction (s : List Nat) (len dp it : Nat) : Res (Nat × Int) := do
  let c ← rd s it
  if c = dp then do
    let c1 ← rd s (it + 1)
    let (it, r) := if isDigit c1 then (it + 2, ((c1 - 48 : Nat) : Int)) else (it + 1, -1)
    let r := r * 10
    let c2 ← rd s it
    let (it, r) := if isDigit c2 then (it + 1, r + ((c2 - 48 : Nat) : Int)) else (it, r)
    let it ← convSkip s (len - it) it
    pure (it, r)
  else pure (it, -1)

/-- The `switch` over the factor letter (hmactools/byte_size_string.c:304-338). -/
def convFactor (c : Nat) : Nat :=
  if c = 107 ∨ c = 75 then 1
  else if c = 109 ∨ c = 77 then 2
  else if c = 103 ∨ c = 71 then 3
  else if c = 116 ∨ c = 84 then 4
  else if c = 112 ∨ c = 80 then 5
  else if c = 101 ∨ c = 69 then 6
  else if c = 122 ∨ c = 90 then 7
  else if c = 121 ∨ c = 89 then 8
  else 0

/-- The units (hmactools/byte_size_string.c:354-381): the units and the new iterator, `none` is the error return. The condition of the second branch is
evaluated left to right. -/
def convUnits (s : List Nat) (len it : Nat) : Res (Option (Nat × Nat)) :=
  if len ≤ it then .ok (some (1024, it))
  else do
    let c ← rd s it
    let iB ← (if c = 105 then do let c' ← rd s (it + 1); pure (decide (c' = 66)) else pure false)
    if iB then pure (some (1024, it + 2))
    else if c = 66 then pure (some (1000, it + 1))
    else pure none

/-- `for( ; factor > 0; factor-- ) byte_size *= units` (hmactools/byte_size_string.c:392-395). -/
def mulLoop (units : Nat) : Nat → BitVec 64 → BitVec 64
  | 0, v => v
  | n + 1, v => mulLoop units n (v * BitVec.ofNat 64 units)

/-- The scaling (hmactools/byte_size_string.c:382-396). -/
def convScale (v : BitVec 64) (factor : Nat) (remainder : Int) (units : Nat) : BitVec 64 :=
  if 0 < factor then
    if 0 < remainder then mulLoop units (factor - 1) (v * BitVec.ofNat 64 units + BitVec.ofInt 64 (remainder * 10))
    else mulLoop units factor v
  else v

/-- `byte_size_string_convert` (hmactools/byte_size_string.c:207-419). `string` is the memory at the string pointer, `len` the length argument, `size` the
variable behind the size pointer; pointers may be NULL (`none`). Returns the result and the new value of the variable. `factor` cannot be negative, so the
test in line 339 is left out. `verbose` says if the check for trailing data (lines 405-415) is compiled in. -/
def byteSizeConvert (verbose : Bool) (dp : Option Nat) (string : Option (List Nat)) (len : Nat) (size : Option (BitVec 64)) : Res (Int × Option (BitVec 64)) :=
  match string with
  | none => .ok (-1, size)
  | some s => match size with
    | none => .ok (-1, none)
    | some old => match dp with
      | none => .ok (-1, some old)
      | some dp => do
        let (it, v) ← convDigits s len 0 0
        let (it, remainder) ← convFraction s len dp it
        let c ← rd s it
        let it := if c = 32 then it + 1 else it
        let c ← rd s it
        let factor := convFactor c
        let it := if 1 < factor then it + 1 else it
        let units ← convUnits s len it
        match units with
        | none => pure (-1, some old)
        | some (units, it) => do
          let _ ← (if verbose then rd s it else pure 0)
          pure (1, some (convScale v factor remainder units))

/-- Decimal digits of a number, as printed by `%` `PRIu64`. -/
def decChars (n : Nat) : List Nat := if n = 0 then [48] else (Nat.digits 10 n).reverse.map fun d => 48 + d

/-- The factor strings (hmactools/byte_size_string.c:114-143). -/
def factorString (factor : Nat) : List Nat := match factor with
  | 0 => []
  | 1 => [75]
  | 2 => [77]
  | 3 => [71]
  | 4 => [84]
  | 5 => [80]
  | 6 => [69]
  | 7 => [90]
  | _ => [89]

/-- The loop that divides by the units (hmactools/byte_size_string.c:88-96): `factored_size`, `last_factored_size` and `factor`. 64 iterations are
enough for a 64 bit number and units of at least 2; with units 1 the loop does not end, with units 0 it divides by zero. -/
def divLoop (units : Nat) : Nat → Nat → Nat → Nat → Res (Nat × Nat × Nat)
  | fuel, x, last, factor =>
    if units ≤ x then
      if units = 0 then .ub
      else match fuel with
        | 0 => .diverge
        | fuel + 1 => divLoop units fuel (x / units) x (factor + 1)
    else .ok (x, last, factor)

/-- `system_string_sprintf` (common/system_string.h:77-82, 127-132, `snprintf`) of a text into a buffer with size argument `n`: writes at most `n - 1` characters and a
terminator, returns the length of the text. -/
def sprintf (buf : List Nat) (n : Nat) (text : List Nat) : Res (Nat × List Nat) :=
  if n = 0 then .ok (text.length, buf)
  else do
    let t := text.take (n - 1) ++ [0]
    let buf ← memCopy buf 0 t 0 t.length
    pure (text.length, buf)

/-- `byte_size_string_create` (hmactools/byte_size_string.c:36-202). `units` is the value after conversion to `uint64_t`. Returns the result and the contents
of the string buffer. A NULL units string (units other than 1000 and 1024) given to `%s` is undefined behaviour.
`remainder` is an `int8_t`: with units up to 1024, or a size below 1024, its values are between -1 and 10. -/
def byteSizeCreate (dp : Option Nat) (string : Option (List Nat)) (len size units : Nat) : Res (Int × Option (List Nat)) :=
  match string with
  | none => .ok (-1, none)
  | some buf =>
    if len < 9 then .ok (-1, some buf)
    else do
      let unitsString : Option (List Nat) := if size < 1024 ∨ units = 1000 then some [66] else if units = 1024 then some [105, 66] else none
      let (x, last, factor) ← divLoop units 64 size 0 0
      let remainder : Int := if units ≤ size ∧ x < 10 then (((last % units) / 100 : Nat) : Int) else -1
      if 8 < factor then pure (-1, some buf)
      else do
        let remainder : Int := if 9 < remainder then 9 else remainder
        match unitsString with
        | none => .ub
        | some us =>
          if 0 ≤ remainder then
            match dp with
            | none => pure (-1, some buf)
            | some dp => do
              let (n, buf) ← sprintf buf len (decChars x ++ dp :: decChars remainder.toNat ++ 32 :: factorString factor ++ us)
              if len < n then pure (-1, some buf) else pure (1, some buf)
          else do
            let (n, buf) ← sprintf buf len (decChars x ++ 32 :: factorString factor ++ us)
            if len < n then pure (-1, some buf) else pure (1, some buf)

end Model
