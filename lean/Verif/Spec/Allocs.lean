import Verif.Spec.Kinds
import Verif.Spec.Machine
/-! How many allocations the functions of the library and hmacsum may ask for. -/

namespace Spec

/-- Allocations that one call asks for: one for a new context, none for anything else. `fresh` tells that the variable given holds no context. -/
def callAllocs (call : ApiCall) (fresh : Bool) : Nat :=
  match call with
  | .init => if fresh then 1 else 0
  | _ => 0

/-- How often a context is asked for in a list of calls. -/
def inits : List ApiCall → Nat
  | [] => 0
  | .init :: t => inits t + 1
  | _ :: t => inits t

/-- Allocations of a successful HMAC: the key data, the inner and the outer padding, and a context for each of the two passes; a key longer than a block takes one more context. -/
def hmacNeeds (k : Kind) (keySize : Nat) : Nat := if k.blockSize < keySize then 6 else 5

/-- Most allocations of a run of hmacsum by its own code and that of the library: the handle, the object for the file, the read buffer, and a string and a context for each of the five algorithms. -/
def toolAllocs : Nat := 3 + 2 * 5

end Spec
