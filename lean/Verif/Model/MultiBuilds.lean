import Verif.Model.Builds
/-! Any number of context variables of any mix of algorithms, in every build. -/

namespace Model

open Spec (Kind ApiCall Reply)

/-- A client with many context variables, as `multiRun`, over any implementation of the contexts: variable `i` is used with the functions of algorithm `kinds i`; `n` is the number of calls made before.
(A client of include/libhmac.h.in:102-137, 224-259, 346-381, 468-503, 590-625; not code of /repo.) -/
def Builds.multi {M : Type} (C : Contexts M) (kinds : Nat → Kind) : Nat → List (Nat × ApiCall) → (Nat → Option Nat) → M → Res (List Reply × (Nat → Option Nat) × M)
  | _, [], slots, m => .ok ([], slots, m)
  | n, (i, c) :: cs, slots, m => do
    let (r, slot, m) ← C.call (kinds i) c n (slots i) m
    let (rs, slots, m) ← multi C kinds (n + 1) cs (Function.update slots i slot) m
    pure (r :: rs, slots, m)

/-- The calls on variable `i` and the replies to them, in order. (Used in statements about `Builds.multi`; no code of /repo, see include/libhmac.h.in:468-503.) -/
def historyOf (i : Nat) (h : List ((Nat × ApiCall) × Reply)) : List (ApiCall × Reply) := (h.filter (·.1.1 = i)).map fun x => (x.1.2, x.2)

end Model
