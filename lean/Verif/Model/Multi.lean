import Mathlib.Logic.Function.Basic
import Verif.Model.Kinds
/-! Any number of context variables of any mix of algorithms, sharing one memory and one allocator. -/

namespace Model

open Spec (Kind ApiCall Reply)

/-- Memory with heap objects of all word widths: `St` (Model/Heap.lean) with the lists of objects indexed by the word width of the contexts. (No code of /repo: one memory for the contexts of libhmac/libhmac_{md5,sha1,sha224,sha256,sha512}_context.h:55-89.) -/
structure Mem where
  caller : List Byte
  count : Nat
  live : (w : Nat) → List (Nat × Obj w)
  freed : (w : Nat) → List (Nat × Obj w)

/-- The memory as functions of one word width access it. (No code of /repo; libhmac/libhmac_sha256_context.h:55-89.) -/
def Mem.view (m : Mem) (w : Nat) : St w := ⟨m.caller, m.count, m.live w, m.freed w⟩

/-- Write-back after a call of a function of word width `w`. (No code of /repo; libhmac/libhmac_sha256_context.h:55-89.) -/
def Mem.put (m : Mem) (w : Nat) (s : St w) : Mem := ⟨s.caller, s.count, Function.update m.live w s.live, Function.update m.freed w s.freed⟩

/-- A call: the number of the variable it is made on, the call, and the contents of fresh stack arrays. (include/libhmac.h.in:102-137, 224-259, 346-381, 468-503, 590-625.) -/
abbrev MultiCall (kinds : Nat → Kind) := (i : Nat) × ApiCall × Scr (kinds i).width

/-- A client with many context variables: variable `i` is used with the functions of algorithm `kinds i`; `u` says which algorithms are compiled with
unrolled loops, `al` the outcome of every allocation. (A client of include/libhmac.h.in:102-137, 224-259, 346-381, 468-503, 590-625; not code of /repo.) -/
def multiRun (kinds : Nat → Kind) (u : Kind → Bool) (al : Nat → Bool) (envs : (w : Nat) → Env w) :
    List (MultiCall kinds) → (Nat → Option Nat) → Mem → Res (List (Nat × Reply) × (Nat → Option Nat) × Mem)
  | [], slots, m => .ok ([], slots, m)
  | ⟨i, c, scr⟩ :: cs, slots, m => do
    let (r, slot, s) ← step (algOf (kinds i)) (u (kinds i)) { envs (kinds i).width with allocOk := al } c scr (slots i) (m.view (kinds i).width)
    let (rs, slots, m) ← multiRun kinds u al envs cs (Function.update slots i slot) (m.put (kinds i).width s)
    pure ((i, r) :: rs, slots, m)

/-- The calls made on variable `i`, in order. (Used in statements about `multiRun`; no code of /repo, see include/libhmac.h.in:468-503.) -/
def callsOf {kinds : Nat → Kind} (i : Nat) (calls : List (MultiCall kinds)) : List ApiCall := (calls.filter (·.1 = i)).map (·.2.1)

/-- The replies to the calls made on variable `i`, in order. (Used in statements about `multiRun`; no code of /repo, see include/libhmac.h.in:468-503.) -/
def repliesOf (i : Nat) (rs : List (Nat × Reply)) : List Reply := (rs.filter (·.1 = i)).map (·.2)

end Model
