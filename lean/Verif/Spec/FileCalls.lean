import Verif.Spec.Common
/-! How a file object of the file library is to be used. -/

namespace Spec

/-- A call on the file object, with its outcome. -/
inductive FileCall
  /-- the object is created -/
  | create (ok : Bool)
  /-- the file of this name is opened for reading -/
  | open (name : List Nat) (ok : Bool)
  /-- the size is asked for -/
  | size (result : Option Nat)
  /-- so many bytes are asked for; so many are given, or the call fails -/
  | read (asked : Nat) (given : Option Nat)
  /-- the file is closed -/
  | close (ok : Bool)
  /-- the object is freed, and the file closed if it is open -/
  | free (ok : Bool)
  deriving DecidableEq

/-- The object: not there, with no file open, with a file open. -/
inductive FileState
  | absent | closed | opened
  deriving DecidableEq

/-- What a call does; `none` if it must not be made in that state. Freeing leaves no object, whatever it reports. -/
def FileState.step : FileState → FileCall → Option FileState
  | .absent, .create ok => some (if ok then .closed else .absent)
  | .closed, .open _ ok => some (if ok then .opened else .closed)
  | .opened, .size _ => some .opened
  | .opened, .read _ _ => some .opened
  | .opened, .close ok => some (if ok then .closed else .opened)
  | .closed, .free _ => some .absent
  | .opened, .free _ => some .absent
  | _, _ => none

/-- The state after some calls; `none` if one of them must not be made. -/
def FileState.after (s : FileState) (calls : List FileCall) : Option FileState := calls.foldlM FileState.step s

/-- What was read: how much was asked for and how much was given. -/
def readsOf : List FileCall → List (Nat × Option Nat)
  | [] => []
  | .read a g :: l => (a, g) :: readsOf l
  | _ :: l => readsOf l

/-- Reads with `left` bytes of the file not yet read: each asks for at least one byte and for no more than are left, and after a failure or the end of the file there is none. -/
def ReadsWithin : Nat → List (Nat × Option Nat) → Prop
  | _, [] => True
  | left, (asked, none) :: l => 0 < asked ∧ asked ≤ left ∧ l = []
  | left, (asked, some n) :: l => 0 < asked ∧ asked ≤ left ∧ n ≤ asked ∧ (n = 0 → l = []) ∧ ReadsWithin (left - n) l

/-- The number of bytes that were read. -/
def bytesRead (l : List (Nat × Option Nat)) : Nat := (l.map fun r => r.2.getD 0).sum

end Spec
