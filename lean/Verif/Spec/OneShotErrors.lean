import Verif.Spec.BackendErrors
/-! Which errors a caller of a one-shot function gets in the builds over a crypto library, where the library may fail. -/

namespace Spec

/-- A stage of a function: the errors if its checks fail, and the errors if the library fails in it (none if it does not call the library). -/
structure Stage where
  checks : List Err
  library : List Err

/-- The function stops in a stage with these errors: all earlier checks passed. `fails`: some call of the library fails. -/
def Stops (fails : Prop) : List Stage → List Err → Prop
  | [], _ => False
  | s :: rest, es => (s.checks ≠ [] ∧ es = s.checks) ∨ (s.checks = [] ∧ ((s.library ≠ [] ∧ fails ∧ es = s.library) ∨ Stops fails rest es))

/-- Memory for a buffer. -/
def memoryStage (ok : Bool) : Stage := ⟨memoryErrors ok, []⟩

/-- A context. -/
def contextStage (ok : Bool) : Stage := ⟨within .rtInitializeFailed (memoryErrors ok), [.rtInitializeFailed, .rtInitializeFailed]⟩

/-- An input area is hashed. -/
def inputStage (m : Limits) (given : Bool) (size : Nat) : Stage :=
  ⟨if !given then [.argInvalid, .rtSetFailed] else if m.maxInput < size then [.argExceeds, .rtSetFailed] else [], if size = 0 then [] else [.rtSetFailed, .rtSetFailed]⟩

/-- A digest of `n` bytes is stored in an output area. -/
def outputStage (m : Limits) (n : Nat) (given : Bool) (size : Nat) : Stage :=
  ⟨if !given then [.argInvalid, .rtFinalizeFailed]
    else if m.maxOutput < size then [if m.oneTest then .argOutOfBounds else .argExceeds, .rtFinalizeFailed]
    else if size < n then [if m.oneTest then .argOutOfBounds else .argTooSmall, .rtFinalizeFailed]
    else [], [.rtFinalizeFailed, .rtFinalizeFailed]⟩

/-- A digest in one call. `alloc i`: the allocation with number `i` (from 0) succeeds. -/
def calculateStages (m : Limits) (n : Nat) (alloc : Nat → Bool) (buffer : Bool) (size : Nat) (hash : Bool) (hashSize : Nat) : List Stage :=
  [contextStage (alloc 0), inputStage m buffer size, outputStage m n hash hashSize]

/-- The digest of a key longer than a block. -/
def longKeyStages (m : Limits) (alloc : Nat → Bool) (keySize : Nat) : List Stage :=
  [contextStage (alloc 1), inputStage m true keySize, ⟨[], [.rtFinalizeFailed, .rtFinalizeFailed]⟩]

/-- One of the two passes: a context, the padding, the input and the output. -/
def passStages (m : Limits) (n : Nat) (ok buffer : Bool) (size : Nat) (hmac : Bool) (hmacSize : Nat) : List Stage :=
  [contextStage ok, ⟨[], [.rtSetFailed, .rtSetFailed]⟩, inputStage m buffer size, outputStage m n hmac hmacSize]

/-- An HMAC in one call, with blocks of `b` bytes: the arguments that are checked at once, the memory for the padded key, the digest of a long key, the memory for the paddings, and the two passes. -/
def hmacStages (m : Limits) (n b : Nat) (alloc : Nat → Bool) (key : Bool) (keySize : Nat) (buffer : Bool) (size : Nat) (hmac : Bool) (hmacSize : Nat) : List Stage :=
  let c := if keySize ≤ b then 1 else 2
  [⟨inputErrors key keySize, []⟩, ⟨if hmacSize < n then [.argTooSmall] else [], []⟩, memoryStage (alloc 0)] ++ (if keySize ≤ b then [] else longKeyStages m alloc keySize) ++
    [memoryStage (alloc c), memoryStage (alloc (c + 1))] ++ passStages m n (alloc (c + 2)) buffer size hmac hmacSize ++ passStages m n (alloc (c + 3)) hmac n hmac hmacSize

/-- The outcome of a function with such stages. `unclean`: errors that the library's clean up gave, which do not stop the function. -/
def OneShotOutcome (dirty fails : Prop) (stages : List Stage) (code : Int) (es : List Err) : Prop :=
  ∃ unclean core, es = unclean ++ core ∧ (∀ e ∈ unclean, e = Err.rtFinalizeFailed) ∧ (unclean ≠ [] → dirty) ∧
    (code = 1 ∧ core = [] ∧ (∀ s ∈ stages, s.checks = []) ∨ code = -1 ∧ Stops fails stages core)

end Spec
