import Verif.Model.BackendOneShot
import Verif.Model.BackendErrors
import Verif.Model.Errors
/-! The one-shot functions in the builds that use a crypto library (Model/BackendOneShot) with their error output, as in Model/Errors: each function is given the errors recorded so far, and returns its result with the errors recorded then.

Line numbers are those of libhmac_sha256.c. Calls with the error argument NULL (after `on_error`) record nothing; the branches after `memory_copy` or `memory_set` returned NULL are left out, as elsewhere. -/

namespace Model

open Spec (Err)

/-- `libhmac_*_context_initialize( &context, error )` with the error of the caller (lines 153-165, 324-336, 475-487, 546-558). -/
def eoInitialize (B : Backend) (L : Library) (env : OEnv) (slot : Option Nat) (s : OSt L.State) (es : List Err) : Res ((Int × Option Nat × OSt L.State) × List Err) := do
  let (r, slot, c, es) ← ebInitialize B L env.allocOk slot s.ctxs es
  pure ((r, slot, { s with ctxs := c }), failed r .rtInitializeFailed es)

/-- `libhmac_*_context_update( context, buffer, size, error )` with the error of the caller (lines 166-180, 337-351, 488-517, 559-588). -/
def eoUpdate (B : Backend) (L : Library) (slot : Option Nat) (buf : Option (List Byte)) (size : Nat) (s : OSt L.State) (es : List Err) : Res ((Int × OSt L.State) × List Err) := do
  let (r, c, es) ← ebUpdate B L slot buf size s.ctxs es
  pure ((r, { s with ctxs := c }), failed r .rtSetFailed es)

/-- `libhmac_*_context_finalize( context, hash, size, error )` with the error of the caller (lines 181-195, 352-366, 518-532, 589-603). -/
def eoFinalize (B : Backend) (L : Library) (digestSize : Nat) (slot : Option Nat) (out : Option (List Byte)) (size : Nat) (s : OSt L.State) (es : List Err) :
    Res ((Int × Option (List Byte) × OSt L.State) × List Err) := do
  let (r, o, c, es) ← ebFinalize B L digestSize slot out size s.ctxs es
  pure ((r, o, { s with ctxs := c }), failed r .rtFinalizeFailed es)

/-- `libhmac_*_context_free( &context, error )` with the error of the caller (lines 196-208, 367-379, 533-545, 604-616). -/
def eoFree (B : Backend) (L : Library) (slot : Option Nat) (s : OSt L.State) (es : List Err) : Res ((Int × Option Nat × OSt L.State) × List Err) := do
  let (r, slot, c, es) ← ebFree B L slot s.ctxs es
  pure ((r, slot, { s with ctxs := c }), failed r .rtFinalizeFailed es)

/-- `goto on_error` in `libhmac_*_calculate` (lines 211-218). -/
def eoCalculateError (B : Backend) (L : Library) (context : Option Nat) (s : OSt L.State) (es : List Err) : Res ((Int × OSt L.State) × List Err) := do
  let x ← oCalculateError B L context s
  pure (x, es)

/-- `libhmac_*_calculate` (lines 143-219). -/
def eoCalculate (B : Backend) (L : Library) (digestSize : Nat) (env : OEnv) (buffer : Option Nat) (size : Nat) (hash : Option Nat) (hashSize : Nat) (s : OSt L.State) (es : List Err) :
    Res ((Int × OSt L.State) × List Err) := do
  let ((r, context, s), es) ← eoInitialize B L env none s es
  if r ≠ 1 then eoCalculateError B L context s es
  else do
    let ((r, s), es) ← eoUpdate B L context (oRegion s buffer size) size s es
    if r ≠ 1 then eoCalculateError B L context s es
    else do
      let ((r, h, s), es) ← eoFinalize B L digestSize context (oRegion s hash hashSize) hashSize s es
      let s := oSetRegion s hash h
      if r ≠ 1 then eoCalculateError B L context s es
      else do
        let ((r, context, s), es) ← eoFree B L context s es
        if r ≠ 1 then eoCalculateError B L context s es else pure ((1, s), es)

/-- Lines 322-411: the digest of a long key is put in `key_data`. `false`: `goto on_error`. -/
def eoLongKey (B : Backend) (L : Library) (digestSize blockSize : Nat) (env : OEnv) (key : Option Nat) (keySize : Nat) (l : Loc) (s : OSt L.State) (es : List Err) : Res ((Bool × Loc × OSt L.State) × List Err) := do
  let ((r, context, s), es) ← eoInitialize B L env l.context s es
  let l := { l with context := context }
  if r ≠ 1 then pure ((false, l, s), es)
  else do
    let ((r, s), es) ← eoUpdate B L l.context (oRegion s key keySize) keySize s es
    if r ≠ 1 then pure ((false, l, s), es)
    else do
      let ((r, h, s), es) ← eoFinalize B L digestSize l.context (some l.keyHash) digestSize s es
      match h with
      | none => .ub
      | some h =>
        let l := { l with keyHash := h }
        if r ≠ 1 then pure ((false, l, s), es)
        else do
          let ((r, context, s), es) ← eoFree B L l.context s es
          let l := { l with context := context }
          if r ≠ 1 then pure ((false, l, s), es)
          else do
            let d ← oLoad l.keyData s
            let d ← if digestSize < blockSize then memSet d digestSize 0 (szSub blockSize digestSize) else pure d
            let d ← memCopy d 0 l.keyHash 0 digestSize
            let s ← oStore l.keyData d s
            pure ((true, l, s), es)

/-- Lines 277-411: the key (error 282). `false`: `goto on_error`. -/
def eoKey (B : Backend) (L : Library) (digestSize blockSize : Nat) (env : OEnv) (key : Option Nat) (keySize : Nat) (l : Loc) (s : OSt L.State) (es : List Err) : Res ((Bool × Loc × OSt L.State) × List Err) :=
  match oAlloc env blockSize s with
  | (none, s) => .ok ((false, { l with keyData := none }, s), es ++ [.memInsufficient])
  | (some p, s) =>
    if keySize ≤ blockSize then
      match oRegion s key keySize with
      | none => .ub
      | some k => do
        let d ← oLoad (some p) s
        let d ← memCopy d 0 k 0 keySize
        let d ← memSet d keySize 0 (szSub blockSize keySize)
        let s ← oStore (some p) d s
        pure ((true, { l with keyData := some p }, s), es)
    else eoLongKey B L digestSize blockSize env key keySize { l with keyData := some p } s es

/-- Lines 412-474: the paddings (errors 417 and 445). -/
def eoPads {σ} (blockSize : Nat) (env : OEnv) (l : Loc) (s : OSt σ) (es : List Err) : Res ((Bool × Loc × OSt σ) × List Err) :=
  match oAlloc env blockSize s with
  | (none, s) => .ok ((false, { l with inner := none }, s), es ++ [.memInsufficient])
  | (some p, s) => do
    let d ← oLoad (some p) s
    let d ← memSet d 0 0x36 blockSize
    let s ← oStore (some p) d s
    match oAlloc env blockSize s with
    | (none, s) => .ok ((false, { l with inner := some p, outer := none }, s), es ++ [.memInsufficient])
    | (some q, s) => do
      let d ← oLoad (some q) s
      let d ← memSet d 0 0x5c blockSize
      let s ← oStore (some q) d s
      let kd ← oLoad l.keyData s
      let i ← oLoad (some p) s
      let o ← oLoad (some q) s
      let (i, o) ← xorPads blockSize kd i o
      let s ← oStore (some p) i s
      let s ← oStore (some q) o s
      pure ((true, { l with inner := some p, outer := some q }, s), es)

/-- Lines 475-545 and 546-616: a pass. -/
def eoPass (B : Backend) (L : Library) (digestSize blockSize : Nat) (env : OEnv) (padding : Option Nat) (buffer : Option Nat) (size : Nat) (hmac : Option Nat) (hmacSize : Nat)
    (l : Loc) (s : OSt L.State) (es : List Err) : Res ((Bool × Loc × OSt L.State) × List Err) := do
  let ((r, context, s), es) ← eoInitialize B L env l.context s es
  let l := { l with context := context }
  if r ≠ 1 then pure ((false, l, s), es)
  else do
    let d ← oLoad padding s
    let ((r, s), es) ← eoUpdate B L l.context (some d) blockSize s es
    if r ≠ 1 then pure ((false, l, s), es)
    else do
      let ((r, s), es) ← eoUpdate B L l.context (oRegion s buffer size) size s es
      if r ≠ 1 then pure ((false, l, s), es)
      else do
        let ((r, h, s), es) ← eoFinalize B L digestSize l.context (oRegion s hmac hmacSize) hmacSize s es
        let s := oSetRegion s hmac h
        if r ≠ 1 then pure ((false, l, s), es)
        else do
          let ((r, context, s), es) ← eoFree B L l.context s es
          let l := { l with context := context }
          if r ≠ 1 then pure ((false, l, s), es) else pure ((true, l, s), es)

/-- `goto on_error` in `libhmac_*_calculate_hmac` (lines 676-713). -/
def eoHmacError (B : Backend) (L : Library) (blockSize : Nat) (l : Loc) (s : OSt L.State) (es : List Err) : Res ((Int × OSt L.State) × List Err) := do
  let x ← oHmacError B L blockSize l s
  pure (x, es)

/-- `libhmac_*_calculate_hmac` (lines 225-714; errors 247, 258 and 269). -/
def eoCalculateHmac (B : Backend) (L : Library) (digestSize blockSize : Nat) (env : OEnv) (keyHash : List Byte) (key : Option Nat) (keySize : Nat) (buffer : Option Nat) (size : Nat)
    (hmac : Option Nat) (hmacSize : Nat) (s : OSt L.State) (es : List Err) : Res ((Int × OSt L.State) × List Err) :=
  match key with
  | none => .ok ((-1, s), es ++ [.argInvalid])
  | some k =>
    if ssizeMax < keySize then .ok ((-1, s), es ++ [.argExceeds])
    else if hmacSize < digestSize then .ok ((-1, s), es ++ [.argTooSmall])
    else do
      let ((ok, l, s), es) ← eoKey B L digestSize blockSize env (some k) keySize ⟨none, none, none, none, keyHash⟩ s es
      if !ok then eoHmacError B L blockSize l s es
      else do
        let ((ok, l, s), es) ← eoPads blockSize env l s es
        if !ok then eoHmacError B L blockSize l s es
        else do
          let ((ok, l, s), es) ← eoPass B L digestSize blockSize env l.inner buffer size hmac hmacSize l s es
          if !ok then eoHmacError B L blockSize l s es
          else do
            let ((ok, l, s), es) ← eoPass B L digestSize blockSize env l.outer hmac digestSize hmac hmacSize l s es
            if !ok then eoHmacError B L blockSize l s es
            else do
              let x ← oHmacEnd blockSize l s
              pure (x, es)

end Model
