import Verif.Spec.Common
/-! What a client of the hashing interface relies on: an abstract state machine for one context variable, without any of the
implementation's structure. The state of a live context is the chaining value it started from and the message received so far. -/

namespace Spec

/-- A call on one context variable. Buffers and output areas are byte strings, NULL is `none`; sizes are separate arguments, as in C. -/
inductive ApiCall where
  | init
  | initNull
  | free
  | freeNull
  | update (buf : Option (List Byte)) (size : Nat)
  | finalize (out : Option (List Byte)) (size : Nat)
  deriving DecidableEq

/-- Result code of a call, and the contents of its output area afterwards (calls without output area: `none`). -/
structure Reply where
  code : Int
  out : Option (List Byte)
  deriving DecidableEq

/-- Abstract state: the context variable (`none` is NULL, otherwise initial chaining value and message so far), and the number of
allocations attempted so far. -/
structure ApiState (w : Nat) where
  slot : Option (List (BitVec w) × List Byte)
  attempts : Nat

/-- The largest size accepted (SSIZE_MAX of an LP64 system). -/
def maxSize : Nat := 2 ^ 63 - 1

/-- What one call does. `hashSize` is the digest size, `zero` the chaining value of a finalised context, `allocOk` the outcome of the
allocations. -/
def apiStep {w} (H : IterHash w) (hashSize : Nat) (zero : List (BitVec w)) (allocOk : Nat → Bool) :
    ApiCall → ApiState w → Reply × ApiState w
  | .init, a => match a.slot with
    | some _ => (⟨-1, none⟩, a)
    | none => if allocOk a.attempts then (⟨1, none⟩, ⟨some (H.iv, []), a.attempts + 1⟩) else (⟨-1, none⟩, ⟨none, a.attempts + 1⟩)
  | .initNull, a => (⟨-1, none⟩, a)
  | .free, a => (⟨1, none⟩, ⟨none, a.attempts⟩)
  | .freeNull, a => (⟨-1, none⟩, a)
  | .update buf size, a => match a.slot, buf with
    | some (h0, m), some b => if size ≤ maxSize then (⟨1, none⟩, ⟨some (h0, m ++ b.take size), a.attempts⟩) else (⟨-1, none⟩, a)
    | _, _ => (⟨-1, none⟩, a)
  | .finalize out size, a => match a.slot, out with
    | some (h0, m), some o =>
      if hashSize ≤ size ∧ size ≤ maxSize then (⟨1, some (H.digestFrom h0 m ++ o.drop hashSize)⟩, ⟨some (zero, []), a.attempts⟩)
      else (⟨-1, some o⟩, a)
    | _, o => (⟨-1, o⟩, a)

/-- A sequence of calls: the replies, and the final state. -/
def apiRun {w} (H : IterHash w) (hashSize : Nat) (zero : List (BitVec w)) (allocOk : Nat → Bool) :
    List ApiCall → ApiState w → List Reply × ApiState w
  | [], a => ([], a)
  | c :: cs, a =>
    let (r, a) := apiStep H hashSize zero allocOk c a
    let (rs, a) := apiRun H hashSize zero allocOk cs a
    (r :: rs, a)

/-- The caller's obligation: a non-NULL area really has the stated number of bytes. (For a size above the maximum nothing is accessed.) -/
def ApiCall.Valid : ApiCall → Prop
  | .update (some b) size => size ≤ maxSize → size ≤ b.length
  | .finalize (some o) size => size ≤ maxSize → size ≤ o.length
  | _ => True

end Spec
