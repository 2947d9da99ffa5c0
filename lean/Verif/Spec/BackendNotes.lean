import Verif.Spec.OneShotErrors
import Verif.Spec.Notes
/-! Which messages a caller gets in the builds over a crypto library, where the library may fail. As Spec/BackendErrors and Spec/OneShotErrors, with the function and the text of each message, and with the function of the library that
failed. -/

namespace Spec

/-- What a crypto library can fail to do. -/
inductive Fault where
  | initialize
  | create
  | update
  | finalize
  | cleanUp
  deriving DecidableEq, Repr

/-- The message about each fault. -/
def faultNote : Fault → Note
  | .initialize => ⟨.ctxInitialize, .rtInitializeFailed, .initialize⟩
  | .create => ⟨.ctxInitialize, .rtInitializeFailed, .createEvp⟩
  | .update => ⟨.ctxUpdate, .rtSetFailed, .update⟩
  | .finalize => ⟨.ctxFinalize, .rtFinalizeFailed, .finalize⟩
  | .cleanUp => ⟨.ctxFree, .rtFinalizeFailed, .cleanUp⟩

/-- The data of an update. -/
def givenNotes (m : Limits) (given : Bool) (size : Nat) : List Note :=
  if !given then [⟨.ctxUpdate, .argInvalid, .invalidBuffer⟩] else if m.maxInput < size then [⟨.ctxUpdate, .argExceeds, .sizeExceeds⟩] else []

/-- The area for a digest of `n` bytes. -/
def areaNotes (m : Limits) (n : Nat) (given : Bool) (size : Nat) : List Note :=
  if !given then [⟨.ctxFinalize, .argInvalid, .invalidHash⟩]
  else if m.maxOutput < size then [if m.oneTest then ⟨.ctxFinalize, .argOutOfBounds, .hashOut⟩ else ⟨.ctxFinalize, .argExceeds, .hashExceeds⟩]
  else if size < n then [if m.oneTest then ⟨.ctxFinalize, .argOutOfBounds, .hashOut⟩ else ⟨.ctxFinalize, .argTooSmall, .hashTooSmall⟩]
  else []

/-- The messages of the checks made before the library is called. `present`: the variable holds a context, `ok`: the next allocation succeeds. -/
def checkNotes (m : Limits) (n : Nat) (present ok : Bool) : ApiCall → List Note
  | .init => if present then [⟨.ctxInitialize, .rtAlreadySet, .alreadySet⟩] else contextNotes ok
  | .initNull => [⟨.ctxInitialize, .argInvalid, .invalidContext⟩]
  | .free => []
  | .freeNull => [⟨.ctxFree, .argInvalid, .invalidContext⟩]
  | .update buf size => if !present then [⟨.ctxUpdate, .argInvalid, .invalidContext⟩] else givenNotes m buf.isSome size
  | .finalize out size => if !present then [⟨.ctxFinalize, .argInvalid, .invalidContext⟩] else areaNotes m n out.isSome size

/-- The faults that make a call fail. -/
def callFaults : ApiCall → List Fault
  | .init => [.initialize, .create]
  | .update _ size => if size = 0 then [] else [.update]
  | .finalize _ _ => [.finalize]
  | _ => []

/-- A call with result `code` and messages `ns`: those of the checks; or success without message; or the message of a fault that makes the call fail; or free, that returns 1 after a failing clean up with the message of that.
`fault f`: the library fails so. -/
def NoteOutcome (fault : Fault → Prop) (pre : List Note) (c : ApiCall) (code : Int) (ns : List Note) : Prop :=
  (pre ≠ [] ∧ code = -1 ∧ ns = pre) ∨ (pre = [] ∧ code = 1 ∧ ns = []) ∨ (pre = [] ∧ code = -1 ∧ ∃ f ∈ callFaults c, fault f ∧ ns = [faultNote f]) ∨ (fault .cleanUp ∧ c = .free ∧ code = 1 ∧ ns = [faultNote .cleanUp])

/-- What the function called adds: a function of the deprecated set (`dep`) says that it failed. -/
def addedNotes (dep : Bool) (code : Int) (c : ApiCall) : List Note := if dep ∧ code ≠ 1 then [functionNote c] else []

/-- Every call of a program has such an outcome. `i`: the number of allocations tried before. -/
def NotesExplained (fault : Fault → Prop) (m : Limits) (n : Nat) (allocOk : Nat → Bool) : Bool → Nat → List ((Bool × ApiCall) × Reply × List Note) → Prop
  | _, _, [] => True
  | present, i, ((dep, c), r, ns) :: t =>
    (∃ own, NoteOutcome fault (checkNotes m n present (allocOk i) c) c r.code own ∧ ns = own ++ addedNotes dep r.code c) ∧
      NotesExplained fault m n allocOk (holdsAfter present r.code c) (if c = .init ∧ present = false then i + 1 else i) t

/-- A stage of a function: the messages if its checks fail, and for the faults that stop it the message that follows that of the fault. -/
structure NStage where
  checks : List Note
  faults : List Fault
  after : Note

/-- The function stops in a stage with these messages: all earlier checks passed. -/
def NStops (fault : Fault → Prop) : List NStage → List Note → Prop
  | [], _ => False
  | s :: rest, ns => (s.checks ≠ [] ∧ ns = s.checks) ∨ (s.checks = [] ∧ ((∃ f ∈ s.faults, fault f ∧ ns = [faultNote f, s.after]) ∨ NStops fault rest ns))

/-- Memory for a buffer (it does not call the library). -/
def noteMemoryStage (e : Note) (ok : Bool) : NStage := ⟨memoryNotes e ok, [], e⟩

/-- A context, in function `fn`. -/
def noteContextStage (fn : Fn) (ok : Bool) : NStage := ⟨withinNote (initializeNote fn) (contextNotes ok), [.initialize, .create], initializeNote fn⟩

/-- An input area is hashed. -/
def noteInputStage (fn : Fn) (m : Limits) (given : Bool) (size : Nat) : NStage := ⟨withinNote (updateNote fn) (givenNotes m given size), if size = 0 then [] else [.update], updateNote fn⟩

/-- A digest of `n` bytes is stored in an output area. -/
def noteOutputStage (fn : Fn) (m : Limits) (n : Nat) (given : Bool) (size : Nat) : NStage := ⟨withinNote (finalizeNote fn) (areaNotes m n given size), [.finalize], finalizeNote fn⟩

/-- A digest in one call. `alloc i`: the allocation with number `i` (from 0) succeeds. -/
def noteCalculateStages (m : Limits) (n : Nat) (alloc : Nat → Bool) (buffer : Bool) (size : Nat) (hash : Bool) (hashSize : Nat) : List NStage :=
  [noteContextStage .calculate (alloc 0), noteInputStage .calculate m buffer size, noteOutputStage .calculate m n hash hashSize]

/-- The digest of a key longer than a block. -/
def noteLongKeyStages (m : Limits) (alloc : Nat → Bool) (keySize : Nat) : List NStage :=
  [noteContextStage .calculateHmac (alloc 1), noteInputStage .calculateHmac m true keySize, ⟨[], [.finalize], finalizeNote .calculateHmac⟩]

/-- One of the two passes: a context, the padding, the input and the output. -/
def notePassStages (m : Limits) (n : Nat) (ok buffer : Bool) (size : Nat) (hmac : Bool) (hmacSize : Nat) : List NStage :=
  [noteContextStage .calculateHmac ok, ⟨[], [.update], updateNote .calculateHmac⟩, noteInputStage .calculateHmac m buffer size, noteOutputStage .calculateHmac m n hmac hmacSize]

/-- A check of an argument by `calculate_hmac` itself. -/
def noteCheckStage (ns : List Note) : NStage := ⟨ns, [], initializeNote .calculateHmac⟩

/-- An HMAC in one call, with blocks of `b` bytes. -/
def noteHmacStages (m : Limits) (n b : Nat) (alloc : Nat → Bool) (key : Bool) (keySize : Nat) (buffer : Bool) (size : Nat) (hmac : Bool) (hmacSize : Nat) : List NStage :=
  let c := if keySize ≤ b then 1 else 2
  [noteCheckStage (keyNotes key keySize), noteCheckStage (if hmacSize < n then [⟨.calculateHmac, .argTooSmall, .hmacTooSmall⟩] else []),
    noteMemoryStage ⟨.calculateHmac, .memInsufficient, .createKey⟩ (alloc 0)] ++ (if keySize ≤ b then [] else noteLongKeyStages m alloc keySize) ++
    [noteMemoryStage ⟨.calculateHmac, .memInsufficient, .createInner⟩ (alloc c), noteMemoryStage ⟨.calculateHmac, .memInsufficient, .createOuter⟩ (alloc (c + 1))] ++
    notePassStages m n (alloc (c + 2)) buffer size hmac hmacSize ++ notePassStages m n (alloc (c + 3)) hmac n hmac hmacSize

/-- The outcome of a function with such stages. `unclean`: the messages of failing clean ups, which do not stop the function. -/
def NoteOneShotOutcome (fault : Fault → Prop) (stages : List NStage) (code : Int) (ns : List Note) : Prop :=
  ∃ unclean core, ns = unclean ++ core ∧ (∀ e ∈ unclean, e = faultNote .cleanUp) ∧ (unclean ≠ [] → fault .cleanUp) ∧
    (code = 1 ∧ core = [] ∧ (∀ s ∈ stages, s.checks = []) ∨ code = -1 ∧ NStops fault stages core)

end Spec
