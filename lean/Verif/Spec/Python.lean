import Mathlib.Logic.Function.Basic
import Verif.Spec.Machine
import Verif.Spec.Kinds
import Verif.Spec.Memory
/-! What a Python program sees of the module `pyhmac`. -/

namespace Spec

/-- An argument of a Python call: a bytes object (or one of a subclass), an object that only claims to be one (`isinstance` says yes), any other object, or an object for which `isinstance` raises an exception. -/
inductive PyArg where
  | bytes (b : List Byte)
  | pretender
  | other
  | broken
  deriving DecidableEq

/-- Kinds of exceptions. -/
inductive PyExc where
  | type | value | io | memory | runtime | name
  deriving DecidableEq

/-- Outcome of a statement of a Python program. -/
inductive PyResult where
  | none
  | bytes (b : List Byte)
  | raised (e : PyExc)
  deriving DecidableEq

/-- Statements, on the variables `i`. `ok`: the interpreter has memory for the new Python object. An argument `none`: wrong number or names of arguments.
`create`: `x = pyhmac.sha256_context()`; `createRaw`: `x = pyhmac.sha256_context.__new__(pyhmac.sha256_context)`; `reinit`: `x.__init__()`; `release`: `del x`, the last reference. -/
inductive PyOp where
  | create (i : Nat) (ok : Bool)
  | createRaw (i : Nat) (ok : Bool)
  | reinit (i : Nat)
  | update (i : Nat) (arg : Option PyArg)
  | finalize (i : Nat) (ok : Bool)
  | release (i : Nat)
  | calculate (k : Kind) (arg : Option PyArg) (ok : Bool)
  | calculateHmac (k : Kind) (args : Option (PyArg × PyArg)) (ok : Bool)
  deriving DecidableEq

/-- The bytes of a data argument, or the exception. -/
def pyBytes : Option PyArg → PyExc ⊕ List Byte
  | some (.bytes b) => if b.length ≤ maxSize then .inr b else .inl .value
  | some .pretender => .inl .value
  | some .other => .inl .type
  | some .broken => .inl .runtime
  | none => .inl .type

/-- The bytes of a key argument, or the exception. -/
def pyKey : PyArg → PyExc ⊕ List Byte
  | .bytes b => if b.length ≤ maxSize then .inr b else .inl .value
  | _ => .inl .value

/-- The objects of a program: unbound variable, object without context, or object whose context stands for a message that follows a chaining value. -/
abbrev PyObjects (kinds : Nat → Kind) := (i : Nat) → Option (Option (List (BitVec (kinds i).width) × List Byte))

/-- One statement. `fail`: the library finds no memory. -/
def pyStep (kinds : Nat → Kind) (fail : Bool) (op : PyOp) (st : PyObjects kinds) : PyResult × PyObjects kinds :=
  match op with
  | .create i ok => match st i with
    | some _ => (.raised .name, st)
    | none => if ok then (if fail then (.raised .value, st) else (.none, Function.update st i (some (some ((kinds i).len64.iv, []))))) else (.raised .memory, st)
  | .createRaw i ok => match st i with
    | some _ => (.raised .name, st)
    | none => if ok then (.none, Function.update st i (some none)) else (.raised .memory, st)
  | .reinit i => match st i with
    | none => (.raised .name, st)
    | some _ => if fail then (.raised .memory, Function.update st i (some none)) else (.none, Function.update st i (some (some ((kinds i).len64.iv, []))))
  | .update i arg => match st i with
    | none => (.raised .name, st)
    | some o => match pyBytes arg with
      | .inl e => (.raised e, st)
      | .inr b => match o with
        | none => (.raised .io, st)
        | some (h0, m) => (.none, Function.update st i (some (some (h0, m ++ b))))
  | .finalize i ok => match st i with
    | none => (.raised .name, st)
    | some none => (.raised .io, st)
    | some (some (h0, m)) => (if ok then .bytes ((kinds i).len64.digestFrom h0 m) else .raised .io, Function.update st i (some (some (List.replicate (kinds i).words 0, []))))
  | .release i => match st i with
    | none => (.raised .name, st)
    | some none => (.raised .value, Function.update st i none)
    | some (some _) => (.none, Function.update st i none)
  | .calculate k arg ok => match pyBytes arg with
    | .inl e => (.raised e, st)
    | .inr b => (if fail || !ok then .raised .io else .bytes (k.len64.digest b), st)
  | .calculateHmac k args ok => match args with
    | none => (.raised .type, st)
    | some (key, data) => match pyKey key with
      | .inl e => (.raised e, st)
      | .inr kb => match pyBytes (some data) with
        | .inl e => (.raised e, st)
        | .inr b => (if fail || !ok then .raised .io else .bytes (hmac k.blockSize k.len64.digest kb b), st)

/-- A program, with the failures of the library's allocations. -/
def pyRun (kinds : Nat → Kind) : List (PyOp × Bool) → PyObjects kinds → List PyResult × PyObjects kinds
  | [], st => ([], st)
  | (op, fail) :: t, st =>
    let (r, st) := pyStep kinds fail op st
    let (rs, st) := pyRun kinds t st
    (r :: rs, st)

/-- The data that variable `i` was fed since its object was created or initialised again, from the statements and their outcomes (`none`: no object, or one that was finalised). -/
def pyFed (i : Nat) : List (PyOp × PyResult) → Option (List Byte) → Option (List Byte)
  | [], m => m
  | (.create j _, .none) :: t, m => pyFed i t (if j = i then some [] else m)
  | (.reinit j, .none) :: t, m => pyFed i t (if j = i then some [] else m)
  | (.update j (some (.bytes b)), .none) :: t, m => pyFed i t (if j = i then m.map (· ++ b) else m)
  | (.reinit j, _) :: t, m => pyFed i t (if j = i then none else m)
  | (.finalize j _, _) :: t, m => pyFed i t (if j = i then none else m)
  | (.release j, _) :: t, m => pyFed i t (if j = i then none else m)
  | _ :: t, m => pyFed i t m

/-- The change of the number of module objects in memory, from a statement and its outcome. An object whose constructor fails stays in memory (it adds one, though no variable refers to it), and so does an object without context that is
released. -/
def pyObjectChange : PyOp → PyResult → Int
  | .create _ _, .none => 1
  | .create _ _, .raised .value => 1
  | .createRaw _ _, .none => 1
  | .release _, .none => -1
  | _, _ => 0

end Spec
