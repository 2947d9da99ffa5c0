import Verif.Model.Api
/-! The deprecated function set `libhmac_*_initialize`, `_free`, `_update` and `_finalize` (libhmac/libhmac_{md5,sha1,sha224,sha256,sha512}.c:35-138,
identical in the five files). The error object is not modelled. -/

namespace Model

open Spec (ApiCall Reply)

/-- `libhmac_*_initialize` (libhmac/libhmac_sha256.c:35-55). -/
def depInitialize {w} (A : Alg w) (env : Env w) (context : Option (Option Nat)) (s : St w) : Res (Int × Option (Option Nat) × St w) := do
  let (r, context, s) ← apiInitialize A env context s
  if r ≠ 1 then pure (-1, context, s) else pure (1, context, s)

/-- `libhmac_*_free` (libhmac/libhmac_sha256.c:60-80). -/
def depFree {w} (context : Option (Option Nat)) (s : St w) : Res (Int × Option (Option Nat) × St w) := do
  let (r, context, s) ← apiFree context s
  if r ≠ 1 then pure (-1, context, s) else pure (1, context, s)

/-- `libhmac_*_update` (libhmac/libhmac_sha256.c:85-109). -/
def depUpdate {w} (A : Alg w) (u : Bool) (env : Env w) (slot : Option Nat) (buf : Option (List Byte)) (size : Nat) (s : St w) : Res (Int × St w) := do
  let (r, s) ← hUpdate A u env slot buf size s
  if r ≠ 1 then pure (-1, s) else pure (1, s)

/-- `libhmac_*_finalize` (libhmac/libhmac_sha256.c:114-138). -/
def depFinalize {w} (A : Alg w) (u : Bool) (env : Env w) (slot : Option Nat) (hash : Option (List Byte)) (hashSize : Nat) (s : St w) :
    Res (Int × Option (List Byte) × St w) := do
  let (r, h, s) ← hFinalize A u env slot hash hashSize s
  if r ≠ 1 then pure (-1, h, s) else pure (1, h, s)

/-- One call of a client that uses the deprecated function set. (libhmac/libhmac_sha256.c:35-138; the client is not code of /repo.) -/
def depStep {w} (A : Alg w) (u : Bool) (env : Env w) (call : ApiCall) (scr : Scr w) (slot : Option Nat) (s : St w) :
    Res (Reply × Option Nat × St w) :=
  match call with
  | .init => do
    let (r, c, s) ← depInitialize A env (some slot) s
    match c with
    | some slot => pure (⟨r, none⟩, slot, s)
    | none => .ub
  | .initNull => do
    let (r, _, s) ← depInitialize A env none s
    pure (⟨r, none⟩, slot, s)
  | .free => do
    let (r, c, s) ← depFree (some slot) s
    match c with
    | some slot => pure (⟨r, none⟩, slot, s)
    | none => .ub
  | .freeNull => do
    let (r, _, s) ← depFree none s
    pure (⟨r, none⟩, slot, s)
  | .update buf size => do
    let (r, s) ← depUpdate A u { env with scr := scr } slot buf size s
    pure (⟨r, none⟩, slot, s)
  | .finalize out size => do
    let (r, out, s) ← depFinalize A u { env with scr := scr } slot out size s
    pure (⟨r, out⟩, slot, s)

/-- A client that mixes both function sets: every call says which set it uses (`true`: deprecated). (A client of include/libhmac.h.in:468-560; not code of /repo.) -/
def mixedRun {w} (A : Alg w) (u : Bool) (env : Env w) :
    List (Bool × ApiCall × Scr w) → Option Nat → St w → Res (List Reply × Option Nat × St w)
  | [], slot, s => .ok ([], slot, s)
  | (dep, c, scr) :: cs, slot, s => do
    let (r, slot, s) ← (if dep then depStep A u env c scr slot s else step A u env c scr slot s)
    let (rs, slot, s) ← mixedRun A u env cs slot s
    pure (r :: rs, slot, s)

end Model
