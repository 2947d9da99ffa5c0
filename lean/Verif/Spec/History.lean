import Verif.Spec.Kinds
/-! What a history of calls and their result codes says about a context: the part of the message it received and the chaining value it
started from. Only result codes are used, no internal state. -/

namespace Spec

/-- The message bytes given to the context since it was created or last finalised (`m`: before this history). -/
def received : List (ApiCall × Reply) → List Byte → List Byte
  | [], m => m
  | (.init, r) :: t, m => received t (if r.code = 1 then [] else m)
  | (.finalize _ _, r) :: t, m => received t (if r.code = 1 then [] else m)
  | (.update (some b) n, r) :: t, m => received t (if r.code = 1 then m ++ b.take n else m)
  | _ :: t, m => received t m

/-- The chaining value the current message started from: `iv` after creation, `z` after a successful finalize. -/
def started {α} (iv z : α) : List (ApiCall × Reply) → α → α
  | [], h => h
  | (.init, r) :: t, h => started iv z t (if r.code = 1 then iv else h)
  | (.finalize _ _, r) :: t, h => started iv z t (if r.code = 1 then z else h)
  | _ :: t, h => started iv z t h

end Spec
