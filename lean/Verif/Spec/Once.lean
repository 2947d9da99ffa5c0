import Verif.Model.Trace
import Verif.Spec.Kinds
import Verif.Spec.Machine
/-! Of a list of observations: the positions of the input that are read and the positions of the output that are written, in order and with repetitions. -/

namespace Spec

open Model (Obs Arr)

/-- The positions of the input that are read. A single element is read at an index from the pointer that was computed last (`ptr`; at first the pointer is at `base`); a copy takes its index from the
begin of the input. -/
def inputReads (base : Nat) : List Obs → List Nat
  | [] => []
  | .ptr n :: t => inputReads n t
  | .read .input i :: t => (base + i) :: inputReads base t
  | .copy _ _ .input j n :: t => List.range' j n ++ inputReads base t
  | _ :: t => inputReads base t

/-- The positions of the output that are written. -/
def outputWrites : List Obs → List Nat
  | [] => []
  | .write .output i :: t => i :: outputWrites t
  | .copy .output i _ _ n :: t => List.range' i n ++ outputWrites t
  | .set .output i n :: t => List.range' i n ++ outputWrites t
  | _ :: t => outputWrites t

/-- Each of the first `n` positions once, and no other. -/
def EachOnce (n : Nat) (l : List Nat) : Prop := l.Nodup ∧ ∀ i, i ∈ l ↔ i < n

/-- What a call with the given result reads of its input and writes of its output: a successful `update` reads each byte given once, a successful `finalize` writes each byte of the digest once;
a call that fails reads and writes nothing, and other calls have nothing to read or write. -/
def CallTouches (k : Kind) (call : ApiCall) (code : Int) (reads writes : List Nat) : Prop :=
  match call with
  | .update _ size => writes = [] ∧ (code = 1 → EachOnce size reads) ∧ (code ≠ 1 → reads = [])
  | .finalize _ _ => reads = [] ∧ (code = 1 → EachOnce k.hashSize writes) ∧ (code ≠ 1 → writes = [])
  | _ => reads = [] ∧ writes = []

end Spec
