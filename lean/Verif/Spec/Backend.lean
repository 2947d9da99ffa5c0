import Verif.Spec.History
/-! Histories in which every context is used for one message, and what the accepted calls of a history say about a context. -/

namespace Spec

/-- After a successful finalize the context is not used before it is freed (`f`: it was finalised). -/
def UsedOnce : Bool → List (ApiCall × Reply) → Prop
  | _, [] => True
  | f, (.finalize _ _, r) :: t => f = false ∧ UsedOnce (decide (r.code = 1)) t
  | f, (.update _ _, _) :: t => f = false ∧ UsedOnce f t
  | _, (.free, _) :: t => UsedOnce false t
  | f, _ :: t => UsedOnce f t

/-- The number of bytes an update hands over. -/
def ApiCall.bytes : ApiCall → Nat
  | .update (some _) n => if n ≤ maxSize then n else 0
  | _ => 0

/-- The message of a context of which every use since its creation was an accepted update (`none`: otherwise, or no context). -/
def accepted : List (ApiCall × Reply) → Option (List Byte) → Option (List Byte)
  | [], m => m
  | (.init, r) :: t, m => accepted t (if r.code = 1 then some [] else m)
  | (.update (some b) n, r) :: t, m => accepted t (if r.code = 1 then m.map (· ++ b.take n) else none)
  | (.update none _, _) :: t, m => accepted t m
  | (.finalize none _, _) :: t, m => accepted t m
  | (.finalize (some _) _, _) :: t, _ => accepted t none
  | (.free, _) :: t, _ => accepted t none
  | (.initNull, _) :: t, m => accepted t m
  | (.freeNull, _) :: t, m => accepted t m

end Spec
