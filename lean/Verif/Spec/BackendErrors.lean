import Verif.Spec.Errors
/-! Which errors a caller gets in the builds over a crypto library. -/

namespace Spec

/-- The limits of a build: the largest input and output area, and whether there is one test for both bounds of the size of the output area. -/
structure Limits where
  maxInput : Nat
  maxOutput : Nat
  oneTest : Bool

/-- The errors found before the library is called. `present`: the variable holds a context, `ok`: the next allocation succeeds. -/
def checkErrors (m : Limits) (n : Nat) (present ok : Bool) : ApiCall → List Err
  | .init => if present then [.rtAlreadySet] else memoryErrors ok
  | .initNull => [.argInvalid]
  | .free => []
  | .freeNull => [.argInvalid]
  | .update buf size => if !present || !buf.isSome then [.argInvalid] else if m.maxInput < size then [.argExceeds] else []
  | .finalize out size =>
    if !present || !out.isSome then [.argInvalid]
    else if m.maxOutput < size then [if m.oneTest then .argOutOfBounds else .argExceeds]
    else if size < n then [if m.oneTest then .argOutOfBounds else .argTooSmall]
    else []

/-- A call with result `code` and errors `es`: those of the checks; or success without error, or the error of the function (only if it calls the library and is not free). `dirty`: free may also give an error with success. -/
def CallOutcome (dirty : Prop) (pre : List Err) (c : ApiCall) (code : Int) (es : List Err) : Prop :=
  (pre ≠ [] ∧ code = -1 ∧ es = pre) ∨ (pre = [] ∧ code = 1 ∧ es = []) ∨ (pre = [] ∧ c ≠ .free ∧ code = -1 ∧ es = [functionError c]) ∨ (dirty ∧ c = .free ∧ code = 1 ∧ es = [.rtFinalizeFailed])

/-- The variable holds a context after the call. -/
def holdsAfter (present : Bool) (code : Int) : ApiCall → Bool
  | .init => present || code == 1
  | .free => false
  | _ => present

/-- Every call of a program has such an outcome. `i`: the number of allocations tried before. -/
def Explained (dirty : Prop) (m : Limits) (n : Nat) (allocOk : Nat → Bool) : Bool → Nat → List (ApiCall × Reply × List Err) → Prop
  | _, _, [] => True
  | present, i, (c, r, es) :: t =>
    CallOutcome dirty (checkErrors m n present (allocOk i) c) c r.code es ∧
      Explained dirty m n allocOk (holdsAfter present r.code c) (if c = .init ∧ present = false then i + 1 else i) t

end Spec
