import Verif.Model.Backend
import Verif.Spec.Errors
/-! The functions of the builds over a crypto library with their error output, as in Model/Errors. Line numbers are those of libhmac_sha256_context.c; the error domains and codes are the same in the five files (compared with `diff`). -/

namespace Model

open Spec (Err ApiCall Reply)

/-- `libhmac_sha256_context_initialize` after `on_error` (lines 612-619), where an error was recorded already. -/
def ebInitError {σ} (p : Nat) (s : BSt σ) (es : List Err) : Res (Int × Option Nat × BSt σ × List Err) := do
  let s ← bErase p s
  pure (-1, none, s, es)

/-- EVP_DigestInit_ex (lines 552-590; error 571). The result of the EVP_MD_CTX_cleanup in line 579 is not tested. -/
def ebDigestInit (L : Library) (p : Nat) (evp : EvpPtr) (s : BSt L.State) (es : List Err) : Res (Int × Option Nat × BSt L.State × List Err) :=
  match L.init s.calls with
  | some st =>
    match evp with
    | .null => .ub
    | .embedded => .ok (1, some p, { s.tick with live := setKey p (.ctx (some st) .embedded) s.live }, es)
    | .heap q => .ok (1, some p, { s.tick with live := setKey p (.ctx none (.heap q)) (setKey q (.md (some st)) s.live) }, es)
  | none =>
    match evp with
    | .null => .ub
    | .embedded => ebInitError p s.tick.tick (es ++ [.rtInitializeFailed])
    | .heap q => do
      let s ← bErase q s.tick
      ebInitError p s (es ++ [.rtInitializeFailed])

/-- `libhmac_sha256_context_initialize` (lines 456-619; errors 480, 494, 524 and 545) for a variable that holds `slot`. -/
def ebInitialize (B : Backend) (L : Library) (allocOk : Nat → Bool) (slot : Option Nat) (s : BSt L.State) (es : List Err) : Res (Int × Option Nat × BSt L.State × List Err) :=
  match slot with
  | some p => .ok (-1, some p, s, es ++ [.rtAlreadySet])
  | none =>
    if allocOk s.count then
      let p := 2 * s.count
      let s := { s with count := s.count + 1, live := (p, .ctx none .null) :: s.live }
      match B with
      | .direct _ =>
        match L.init s.calls with
        | some st => .ok (1, some p, { s.tick with live := setKey p (.ctx (some st) .null) s.live }, es)
        | none => ebInitError p s.tick (es ++ [.rtInitializeFailed])
      | .evpEmbedded => ebDigestInit L p .embedded s es
      | .evpAllocated =>
        if L.create s.calls then
          let q := 2 * s.calls + 1
          ebDigestInit L p (.heap q) { s.tick with live := setKey p (.ctx none (.heap q)) ((q, .md none) :: s.live) } es
        else ebInitError p s.tick (es ++ [.rtInitializeFailed])
    else .ok (-1, none, { s with count := s.count + 1 }, es ++ [.memInsufficient])

/-- `libhmac_sha256_context_free` (lines 624-683; error 656, after which the function goes on) for a variable that holds `slot`. -/
def ebFree (B : Backend) (L : Library) (slot : Option Nat) (s : BSt L.State) (es : List Err) : Res (Int × Option Nat × BSt L.State × List Err) :=
  match slot with
  | none => .ok (1, none, s, es)
  | some p =>
    match B, getKey p s.live with
    | .direct _, some (.ctx _ _) => do
      let s ← bErase p s
      pure (1, none, s, es)
    | .evpEmbedded, some (.ctx _ _) => do
      let es := if L.cleanup s.calls then es else es ++ [.rtFinalizeFailed]
      let s ← bErase p s.tick
      pure (1, none, s, es)
    | .evpAllocated, some (.ctx _ (.heap q)) => do
      let s ← bErase q s.tick
      let s ← bErase p s
      pure (1, none, s, es)
    | .evpAllocated, some (.ctx _ .null) => do
      let s ← bErase p s.tick
      pure (1, none, s, es)
    | _, _ => .ub

/-- `libhmac_sha256_context_update` (lines 690-760 direct, errors 702, 715, 730 and 750; 767-830 EVP, errors 778, 791, 802 and 820). -/
def ebUpdate (B : Backend) (L : Library) (slot : Option Nat) (buf : Option (List Byte)) (size : Nat) (s : BSt L.State) (es : List Err) : Res (Int × BSt L.State × List Err) :=
  match slot, buf with
  | none, _ => .ok (-1, s, es ++ [.argInvalid])
  | some _, none => .ok (-1, s, es ++ [.argInvalid])
  | some p, some b =>
    if B.maxUpdate < size then .ok (-1, s, es ++ [.argExceeds])
    else if size = 0 then .ok (1, s, es)
    else do
      let st ← bState B p s
      let data ← bTake b size
      let s' ← bSetState p (L.update s.calls st data).2 s.tick
      pure (if (L.update s.calls st data).1 then 1 else -1, s', if (L.update s.calls st data).1 then es else es ++ [.rtSetFailed])

/-- `libhmac_sha256_context_finalize` (lines 1013-1082 direct, errors 1024, 1037, 1048, 1059 and 1072; 1089-1152 EVP, errors 1101, 1114, 1126 and 1142; the EVP branch has one test for both bounds). -/
def ebFinalize (B : Backend) (L : Library) (hashSize : Nat) (slot : Option Nat) (out : Option (List Byte)) (size : Nat) (s : BSt L.State) (es : List Err) :
    Res (Int × Option (List Byte) × BSt L.State × List Err) :=
  match slot, out with
  | none, o => .ok (-1, o, s, es ++ [.argInvalid])
  | some _, none => .ok (-1, none, s, es ++ [.argInvalid])
  | some p, some o =>
    if B.maxOutput < size then .ok (-1, some o, s, es ++ [match B with | .direct _ => .argExceeds | _ => .argOutOfBounds])
    else if size < hashSize then .ok (-1, some o, s, es ++ [match B with | .direct _ => .argTooSmall | _ => .argOutOfBounds])
    else do
      let st ← bState B p s
      let (ok, st', o') := L.final s.calls st o
      let s' ← bSetState p st' s.tick
      pure (if ok then 1 else -1, some o', s', if ok then es else es ++ [.rtFinalizeFailed])

/-- One call of a client that keeps its context in a variable. (The functions of include/libhmac.h.in:468-503; the client is not code of /repo.) -/
def ebStep (B : Backend) (L : Library) (hashSize : Nat) (allocOk : Nat → Bool) (call : ApiCall) (slot : Option Nat) (s : BSt L.State) (es : List Err) :
    Res (Reply × Option Nat × BSt L.State × List Err) :=
  match call with
  | .init => do
    let (r, slot, s, es) ← ebInitialize B L allocOk slot s es
    pure (⟨r, none⟩, slot, s, es)
  | .initNull => .ok (⟨-1, none⟩, slot, s, es ++ [.argInvalid])
  | .free => do
    let (r, slot, s, es) ← ebFree B L slot s es
    pure (⟨r, none⟩, slot, s, es)
  | .freeNull => .ok (⟨-1, none⟩, slot, s, es ++ [.argInvalid])
  | .update buf size => do
    let (r, s, es) ← ebUpdate B L slot buf size s es
    pure (⟨r, none⟩, slot, s, es)
  | .finalize out size => do
    let (r, out, s, es) ← ebFinalize B L hashSize slot out size s es
    pure (⟨r, out⟩, slot, s, es)

/-- A client program that passes an empty error to each call: the replies with the errors of each call. (Not code of /repo.) See include/libhmac.h.in:468-503. -/
def ebRun (B : Backend) (L : Library) (hashSize : Nat) (allocOk : Nat → Bool) : List ApiCall → Option Nat → BSt L.State → Res (List (Reply × List Err) × Option Nat × BSt L.State)
  | [], slot, s => .ok ([], slot, s)
  | c :: cs, slot, s => do
    let (r, slot, s, es) ← ebStep B L hashSize allocOk c slot s []
    let (rs, slot, s) ← ebRun B L hashSize allocOk cs slot s
    pure ((r, es) :: rs, slot, s)

end Model
