import Verif.Spec.Machine
/-! Which errors a caller gets for a call, in order: first the cause, then what failed because of it. -/

namespace Spec

/-- The error domains and codes that are used: LIBCERROR_ERROR_DOMAIN_{ARGUMENTS,MEMORY,RUNTIME} with LIBCERROR_ARGUMENT_ERROR_{INVALID_VALUE,VALUE_EXCEEDS_MAXIMUM,VALUE_TOO_SMALL,VALUE_OUT_OF_BOUNDS}, LIBCERROR_MEMORY_ERROR_INSUFFICIENT and
LIBCERROR_RUNTIME_ERROR_{VALUE_ALREADY_SET,INITIALIZE_FAILED,SET_FAILED,FINALIZE_FAILED,VALUE_OUT_OF_BOUNDS}. -/
inductive Err where
  | argInvalid
  | argExceeds
  | argTooSmall
  | argOutOfBounds
  | memInsufficient
  | rtAlreadySet
  | rtInitializeFailed
  | rtSetFailed
  | rtFinalizeFailed
  | rtOutOfBounds
  deriving DecidableEq, Repr

/-- Of several checks made one after the other, the errors of the first that fails. -/
def firstErrors : List (List Err) → List Err
  | [] => []
  | [] :: rest => firstErrors rest
  | (e :: es) :: _ => e :: es

/-- The errors of a step, followed by that of the function the step belongs to. -/
def within (e : Err) : List Err → List Err
  | [] => []
  | c :: es => c :: es ++ [e]

/-- An allocation. -/
def memoryErrors (ok : Bool) : List Err := if ok then [] else [.memInsufficient]

/-- An input area. -/
def inputErrors (given : Bool) (size : Nat) : List Err :=
  if !given then [.argInvalid] else if 2 ^ 63 - 1 < size then [.argExceeds] else []

/-- An output area for a digest of `n` bytes. -/
def outputErrors (n : Nat) (given : Bool) (size : Nat) : List Err :=
  if !given then [.argInvalid] else if size < n then [.argTooSmall] else if 2 ^ 63 - 1 < size then [.argExceeds] else []

/-- A digest of `n` bytes in one call. `alloc i`: the allocation with number `i` (from 0) succeeds. -/
def calculateErrors (n : Nat) (alloc : Nat → Bool) (buffer : Bool) (size : Nat) (hash : Bool) (hashSize : Nat) : List Err :=
  firstErrors [
    within .rtInitializeFailed (memoryErrors (alloc 0)),
    within .rtSetFailed (inputErrors buffer size),
    within .rtFinalizeFailed (outputErrors n hash hashSize)]

/-- An HMAC of `n` bytes in one call, with blocks of `b` bytes: the arguments that are checked at once, the memory for the padded key, the context for a key longer than a block, the memory for the two paddings,
the context of the first pass, its arguments, and the context of the second pass. -/
def hmacErrors (n b : Nat) (alloc : Nat → Bool) (key : Bool) (keySize : Nat) (buffer : Bool) (size : Nat) (hmac : Bool) (hmacSize : Nat) : List Err :=
  let c := if keySize ≤ b then 1 else 2
  firstErrors [
    inputErrors key keySize,
    if hmacSize < n then [.argTooSmall] else [],
    memoryErrors (alloc 0),
    if keySize ≤ b then [] else within .rtInitializeFailed (memoryErrors (alloc 1)),
    memoryErrors (alloc c),
    memoryErrors (alloc (c + 1)),
    within .rtInitializeFailed (memoryErrors (alloc (c + 2))),
    within .rtSetFailed (inputErrors buffer size),
    within .rtFinalizeFailed (outputErrors n hmac hmacSize),
    within .rtInitializeFailed (memoryErrors (alloc (c + 3)))]

/-- One call on a context variable for digests of `n` bytes. `present`: the variable holds a context, `ok`: the next allocation succeeds. -/
def callErrors (n : Nat) (present ok : Bool) : ApiCall → List Err
  | .init => if present then [.rtAlreadySet] else memoryErrors ok
  | .initNull => [.argInvalid]
  | .free => []
  | .freeNull => [.argInvalid]
  | .update buf size => firstErrors [if present then [] else [.argInvalid], inputErrors buf.isSome size]
  | .finalize out size => firstErrors [if present then [] else [.argInvalid], outputErrors n out.isSome size]

/-- The error that says what failed: a function of the deprecated set adds it to those of its counterpart, and in the builds over a crypto library it stands for a failure of the library. -/
def functionError : ApiCall → Err
  | .init => .rtInitializeFailed
  | .initNull => .rtInitializeFailed
  | .free => .rtFinalizeFailed
  | .freeNull => .rtFinalizeFailed
  | .update _ _ => .rtSetFailed
  | .finalize _ _ => .rtFinalizeFailed

/-- One call through either set of functions (`dep`: the deprecated one). -/
def mixedErrors (n : Nat) (present ok dep : Bool) (c : ApiCall) : List Err :=
  if dep then within (functionError c) (callErrors n present ok c) else callErrors n present ok c

/-- A sequence of calls, each with the set of functions it uses: the errors of each call. -/
def apiErrors {w} (H : IterHash w) (hashSize : Nat) (zero : List (BitVec w)) (allocOk : Nat → Bool) : List (Bool × ApiCall) → ApiState w → List (List Err)
  | [], _ => []
  | (dep, c) :: cs, a =>
    mixedErrors hashSize a.slot.isSome (allocOk a.attempts) dep c :: apiErrors H hashSize zero allocOk cs (apiStep H hashSize zero allocOk c a).2

end Spec
