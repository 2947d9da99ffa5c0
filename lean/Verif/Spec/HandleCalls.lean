import Verif.Model.SumHandle
import Verif.Spec.DigestTypes
/-! The functions of hmactools/sum_handle.h as a user sees them: the result of a call and what it changes of the settings of the handle. -/

namespace Spec

open Model (HandleOp)

/-- What a handle is set to do: the digests selected, the size of the read buffer, whether it was asked to stop; and how often it has read. -/
structure Settings where
  digests : Kind → Bool
  bufferSize : Nat
  stopping : Bool
  reads : Nat

/-- A new handle computes MD5 with a buffer of 32 KiB. -/
def Settings.initial : Settings := ⟨fun k => k = .md5, 32768, false, 0⟩

/-- The size that the buffer cannot exceed on a host whose `size_t` has `bits` bits: the largest positive `ssize_t`. -/
def Settings.limit (bits : Nat) : Nat := 2 ^ (bits - 1) - 1

/-- The result `r` of a call on a variable, and the settings behind the variable before and after; on a host whose `size_t` has `bits` bits. -/
def HandleCall (bits : Nat) (op : HandleOp) (before : Option Settings) (r : Int) (after : Option Settings) : Prop :=
  match op, before with
  | .init, none => r = 1 ∧ after = some .initial ∨ r = -1 ∧ after = none
  | .init, some x => r = -1 ∧ after = some x
  | .free _, none => r = 1 ∧ after = none
  | .free closed, some _ => r = (if closed then 1 else -1) ∧ after = none
  | _, none => r = -1 ∧ after = none
  | .abort, some x => r = 1 ∧ after = some { x with stopping := true }
  | .open ok, some x => r = (if ok then 1 else -1) ∧ after = some x
  | .close ok, some x => r = (if ok then 0 else -1) ∧ after = some x
  | .process _ stop, some x => (r = 1 ∨ r = -1) ∧ ∃ y, after = some y ∧ y.digests = x.digests ∧ y.bufferSize = x.bufferSize ∧ x.reads ≤ y.reads ∧
      (x.stopping = true → y.stopping = true ∧ y.reads ≤ x.reads + 1) ∧ (y.stopping = true → x.stopping = true ∨ ∃ n, n ≤ y.reads ∧ stop n = true)
  | .digests _ read released string, some x => (r = 0 ∨ r = -1) ∧ (r = 0 → read = true ∧ released = true) ∧ ∃ f, after = some { x with digests := f } ∧ (∀ k, x.digests k = true → f k = true) ∧
      (∀ k, f k = true → x.digests k = true ∨ k.Named string) ∧ (r = 0 → ∀ k : Kind, k.Named string → f k = true)
  | .bufferSize _ _ _, some x => (r = 1 ∨ r = 0 ∨ r = -1) ∧ (r ≠ 1 → after = some x) ∧ (r = 1 → ∃ n ≤ Settings.limit bits, after = some { x with bufferSize := n })
  | .print, some x => r = 1 ∧ after = some x

end Spec
