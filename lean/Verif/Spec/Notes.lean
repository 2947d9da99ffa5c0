import Verif.Spec.Errors
import Verif.Spec.Kinds
/-! Which messages a caller gets for a call: the function each comes from, its error and its text. As in Spec/Errors, first the cause, then what failed because of it. -/

namespace Spec

/-- The functions that give messages: of a context (`ctx…`), of the deprecated set, and the ones that do everything in one call. `transform` is not called by a user. -/
inductive Fn where
  | transform
  | ctxInitialize
  | ctxFree
  | ctxUpdate
  | ctxFinalize
  | initialize
  | free
  | update
  | finalize
  | calculate
  | calculateHmac
  deriving DecidableEq, Repr

/-- The texts, without the name of the function. The last three occur only in the builds over a crypto library. -/
inductive Txt where
  | invalidInternal
  | invalidContext
  | alreadySet
  | createContext
  | invalidBuffer
  | sizeExceeds
  | sizeOut
  | offsetOut
  | transformBlock
  | transformBuffer
  | invalidHash
  | hashTooSmall
  | hashExceeds
  | invalidKey
  | keyExceeds
  | hmacTooSmall
  | createKey
  | createInner
  | createOuter
  | initialize
  | free
  | update
  | finalize
  | createEvp
  | cleanUp
  | hashOut
  deriving DecidableEq, Repr

/-- A message: the function, the error domain and code, the text. -/
structure Note where
  fn : Fn
  err : Err
  txt : Txt
  deriving DecidableEq, Repr

/-- Of several checks made one after the other, the messages of the first that fails. -/
def firstNotes : List (List Note) → List Note
  | [] => []
  | [] :: rest => firstNotes rest
  | (e :: es) :: _ => e :: es

/-- The messages of a step, followed by that of the function the step belongs to. -/
def withinNote (e : Note) : List Note → List Note
  | [] => []
  | c :: es => c :: es ++ [e]

/-- An allocation, with its message. -/
def memoryNotes (e : Note) (ok : Bool) : List Note := if ok then [] else [e]

/-- The memory of a context. -/
def contextNotes (ok : Bool) : List Note := memoryNotes ⟨.ctxInitialize, .memInsufficient, .createContext⟩ ok

/-- The data of an update. -/
def inputNotes (given : Bool) (size : Nat) : List Note :=
  if !given then [⟨.ctxUpdate, .argInvalid, .invalidBuffer⟩] else if 2 ^ 63 - 1 < size then [⟨.ctxUpdate, .argExceeds, .sizeExceeds⟩] else []

/-- The area for a digest of `n` bytes. -/
def outputNotes (n : Nat) (given : Bool) (size : Nat) : List Note :=
  if !given then [⟨.ctxFinalize, .argInvalid, .invalidHash⟩]
  else if size < n then [⟨.ctxFinalize, .argTooSmall, .hashTooSmall⟩]
  else if 2 ^ 63 - 1 < size then [⟨.ctxFinalize, .argExceeds, .hashExceeds⟩]
  else []

/-- The key of an HMAC. -/
def keyNotes (given : Bool) (size : Nat) : List Note :=
  if !given then [⟨.calculateHmac, .argInvalid, .invalidKey⟩] else if 2 ^ 63 - 1 < size then [⟨.calculateHmac, .argExceeds, .keyExceeds⟩] else []

/-- What a function that does everything in one call adds if it cannot make its context. -/
def initializeNote (fn : Fn) : Note := ⟨fn, .rtInitializeFailed, .initialize⟩
/-- The same if it cannot add the data. -/
def updateNote (fn : Fn) : Note := ⟨fn, .rtSetFailed, .update⟩
/-- The same if it cannot take the digest. -/
def finalizeNote (fn : Fn) : Note := ⟨fn, .rtFinalizeFailed, .finalize⟩

/-- A digest of `n` bytes in one call. `alloc i`: the allocation with number `i` (from 0) succeeds. -/
def calculateNotes (n : Nat) (alloc : Nat → Bool) (buffer : Bool) (size : Nat) (hash : Bool) (hashSize : Nat) : List Note :=
  firstNotes [
    withinNote (initializeNote .calculate) (contextNotes (alloc 0)),
    withinNote (updateNote .calculate) (inputNotes buffer size),
    withinNote (finalizeNote .calculate) (outputNotes n hash hashSize)]

/-- An HMAC of `n` bytes in one call, with blocks of `b` bytes. -/
def hmacNotes (n b : Nat) (alloc : Nat → Bool) (key : Bool) (keySize : Nat) (buffer : Bool) (size : Nat) (hmac : Bool) (hmacSize : Nat) : List Note :=
  let c := if keySize ≤ b then 1 else 2
  firstNotes [
    keyNotes key keySize,
    if hmacSize < n then [⟨.calculateHmac, .argTooSmall, .hmacTooSmall⟩] else [],
    memoryNotes ⟨.calculateHmac, .memInsufficient, .createKey⟩ (alloc 0),
    if keySize ≤ b then [] else withinNote (initializeNote .calculateHmac) (contextNotes (alloc 1)),
    memoryNotes ⟨.calculateHmac, .memInsufficient, .createInner⟩ (alloc c),
    memoryNotes ⟨.calculateHmac, .memInsufficient, .createOuter⟩ (alloc (c + 1)),
    withinNote (initializeNote .calculateHmac) (contextNotes (alloc (c + 2))),
    withinNote (updateNote .calculateHmac) (inputNotes buffer size),
    withinNote (finalizeNote .calculateHmac) (outputNotes n hmac hmacSize),
    withinNote (initializeNote .calculateHmac) (contextNotes (alloc (c + 3)))]

/-- One call on a context variable for digests of `n` bytes. `present`: the variable holds a context, `ok`: the next allocation succeeds. -/
def callNotes (n : Nat) (present ok : Bool) : ApiCall → List Note
  | .init => if present then [⟨.ctxInitialize, .rtAlreadySet, .alreadySet⟩] else contextNotes ok
  | .initNull => [⟨.ctxInitialize, .argInvalid, .invalidContext⟩]
  | .free => []
  | .freeNull => [⟨.ctxFree, .argInvalid, .invalidContext⟩]
  | .update buf size => firstNotes [if present then [] else [⟨.ctxUpdate, .argInvalid, .invalidContext⟩], inputNotes buf.isSome size]
  | .finalize out size => firstNotes [if present then [] else [⟨.ctxFinalize, .argInvalid, .invalidContext⟩], outputNotes n out.isSome size]

/-- The function a user calls (`dep`: that of the deprecated set). -/
def calledFn (dep : Bool) : ApiCall → Fn
  | .init => if dep then .initialize else .ctxInitialize
  | .initNull => if dep then .initialize else .ctxInitialize
  | .free => if dep then .free else .ctxFree
  | .freeNull => if dep then .free else .ctxFree
  | .update _ _ => if dep then .update else .ctxUpdate
  | .finalize _ _ => if dep then .finalize else .ctxFinalize

/-- What a function of the deprecated set adds to the messages of its counterpart. -/
def functionNote : ApiCall → Note
  | .init => ⟨.initialize, .rtInitializeFailed, .initialize⟩
  | .initNull => ⟨.initialize, .rtInitializeFailed, .initialize⟩
  | .free => ⟨.free, .rtFinalizeFailed, .free⟩
  | .freeNull => ⟨.free, .rtFinalizeFailed, .free⟩
  | .update _ _ => ⟨.update, .rtSetFailed, .update⟩
  | .finalize _ _ => ⟨.finalize, .rtFinalizeFailed, .finalize⟩

/-- One call through either set of functions (`dep`: the deprecated one). -/
def mixedNotes (n : Nat) (present ok dep : Bool) (c : ApiCall) : List Note :=
  if dep then withinNote (functionNote c) (callNotes n present ok c) else callNotes n present ok c

/-- A sequence of calls, each with the set of functions it uses: the messages of each call. -/
def apiNotes {w} (H : IterHash w) (hashSize : Nat) (zero : List (BitVec w)) (allocOk : Nat → Bool) : List (Bool × ApiCall) → ApiState w → List (List Note)
  | [], _ => []
  | (dep, c) :: cs, a =>
    mixedNotes hashSize a.slot.isSome (allocOk a.attempts) dep c :: apiNotes H hashSize zero allocOk cs (apiStep H hashSize zero allocOk c a).2

end Spec
