import Verif.Model.Heap
import Verif.Spec.Machine
/-! Sequences of API calls on one context variable. Each call comes with the initial contents of the stack arrays it uses. -/

namespace Model

open Spec (ApiCall Reply)

/-- `libhmac_*_context_initialize` (libhmac/libhmac_sha256_context.c:456-619) with the argument `context`: NULL, or the address of a variable. -/
def apiInitialize {w} (A : Alg w) (env : Env w) (context : Option (Option Nat)) (s : St w) : Res (Int × Option (Option Nat) × St w) :=
  match context with
  | none => do
    let (r, _) ← ctxInitialize A none none
    pure (r, none, s)
  | some slot => do
    let (r, slot, s) ← hInitialize A env slot s
    pure (r, some slot, s)

/-- `libhmac_*_context_free` (libhmac/libhmac_sha256_context.c:624-683) with the argument `context`: NULL, or the address of a variable. -/
def apiFree {w} (context : Option (Option Nat)) (s : St w) : Res (Int × Option (Option Nat) × St w) :=
  match context with
  | none => .ok (-1, none, s)
  | some slot => do
    let (r, slot, s) ← hFree slot s
    pure (r, some slot, s)

/-- One call of a client that keeps its context in a variable (`slot`). (the functions of include/libhmac.h.in:468-503 and their counterparts; the client is not code of /repo) -/
def step {w} (A : Alg w) (u : Bool) (env : Env w) (call : ApiCall) (scr : Scr w) (slot : Option Nat) (s : St w) :
    Res (Reply × Option Nat × St w) :=
  match call with
  | .init => do
    let (r, c, s) ← apiInitialize A env (some slot) s
    match c with
    | some slot => pure (⟨r, none⟩, slot, s)
    | none => .ub
  | .initNull => do
    let (r, _, s) ← apiInitialize A env none s
    pure (⟨r, none⟩, slot, s)
  | .free => do
    let (r, c, s) ← apiFree (some slot) s
    match c with
    | some slot => pure (⟨r, none⟩, slot, s)
    | none => .ub
  | .freeNull => do
    let (r, _, s) ← apiFree none s
    pure (⟨r, none⟩, slot, s)
  | .update buf size => do
    let (r, s) ← hUpdate A u { env with scr := scr } slot buf size s
    pure (⟨r, none⟩, slot, s)
  | .finalize out size => do
    let (r, out, s) ← hFinalize A u { env with scr := scr } slot out size s
    pure (⟨r, out⟩, slot, s)

/-- A client program: calls in order. (A client of include/libhmac.h.in:468-503; not code of /repo.) -/
def run {w} (A : Alg w) (u : Bool) (env : Env w) : List (ApiCall × Scr w) → Option Nat → St w → Res (List Reply × Option Nat × St w)
  | [], slot, s => .ok ([], slot, s)
  | (c, scr) :: cs, slot, s => do
    let (r, slot, s) ← step A u env c scr slot s
    let (rs, slot, s) ← run A u env cs slot s
    pure (r :: rs, slot, s)

end Model
