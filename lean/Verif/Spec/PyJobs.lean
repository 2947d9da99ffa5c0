import Verif.Spec.Python
/-! What threads of a Python program see if their calls on objects happen one after the other, in some order. -/

namespace Spec

/-- A call of a method of object `o`: `o.update(arg)` or `o.finalize()`. `ok`: the interpreter has memory for the bytes object. -/
inductive PyCall where
  | update (o : Nat) (arg : Option PyArg)
  | finalize (o : Nat) (ok : Bool)
  deriving DecidableEq

/-- The object. -/
def PyCall.obj : PyCall → Nat
  | .update o _ => o
  | .finalize o _ => o

/-- The call as a statement of a program (C47). -/
def PyCall.op : PyCall → PyOp
  | .update o arg => .update o arg
  | .finalize o ok => .finalize o ok

/-- One thread alone: the results of its calls, and the objects after them. -/
def pyAlone (kinds : Nat → Kind) : List PyCall → PyObjects kinds → List PyResult × PyObjects kinds
  | [], st => ([], st)
  | call :: rest, st =>
    let (r, st) := pyStep kinds false call.op st
    let (rs, st) := pyAlone kinds rest st
    (r :: rs, st)

/-- Threads whose calls happen one after the other: the calls that each one has still to make, the results it got, and the objects. -/
structure PySerial (kinds : Nat → Kind) where
  todo : Nat → List PyCall
  results : Nat → List PyResult
  objects : PyObjects kinds

/-- Thread `t` makes its next call, if it has one. -/
def PySerial.next {kinds : Nat → Kind} (S : PySerial kinds) (t : Nat) : PySerial kinds :=
  match S.todo t with
  | [] => S
  | call :: rest =>
    let (r, st) := pyStep kinds false call.op S.objects
    ⟨Function.update S.todo t rest, Function.update S.results t (S.results t ++ [r]), st⟩

/-- The threads make their calls in this order. -/
def PySerial.run {kinds : Nat → Kind} (S : PySerial kinds) (order : List Nat) : PySerial kinds := order.foldl PySerial.next S

/-- New objects, which have been given the bytes `m`. -/
def newObjects (kinds : Nat → Kind) (m : Nat → List Byte) : PyObjects kinds := fun o => some (some ((kinds o).len64.iv, m o))

end Spec
