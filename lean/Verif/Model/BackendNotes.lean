import Verif.Model.BackendOneShotErrors
import Verif.Model.Notes
/-! The functions of the builds over a crypto library with their messages, as Model/Notes is for the built-in code: Model/BackendErrors and Model/BackendOneShotErrors with the function's name and the text in addition to domain and
code, and the deprecated set of functions. That the rest of the behaviour and the domains and codes are those of the other files is proved (Proofs/BackendNotes).

The calls of `libcerror_error_set` are the same in the five files, except two texts (`libraryText`). Line numbers are those of libhmac_sha256_context.c and libhmac_sha256.c. Calls with the error argument NULL (after `on_error`) record
nothing; the branches after `memory_copy` or `memory_set` returned NULL are left out, as elsewhere. -/

namespace Model

open Spec (Err ApiCall Reply Note Fn Txt)

/-- `libhmac_sha256_context_initialize` after `on_error` (lines 612-619), where a message was recorded already. -/
def nbInitError {σ} (p : Nat) (s : BSt σ) (ns : List Note) : Res (Int × Option Nat × BSt σ × List Note) := do
  let s ← bErase p s
  pure (-1, none, s, ns)

/-- EVP_DigestInit_ex (lines 552-590; message at the call from line 571). The result of the EVP_MD_CTX_cleanup in line 579 is not tested. -/
def nbDigestInit (L : Library) (p : Nat) (evp : EvpPtr) (s : BSt L.State) (ns : List Note) : Res (Int × Option Nat × BSt L.State × List Note) :=
  match L.init s.calls with
  | some st =>
    match evp with
    | .null => .ub
    | .embedded => .ok (1, some p, { s.tick with live := setKey p (.ctx (some st) .embedded) s.live }, ns)
    | .heap q => .ok (1, some p, { s.tick with live := setKey p (.ctx none (.heap q)) (setKey q (.md (some st)) s.live) }, ns)
  | none =>
    match evp with
    | .null => .ub
    | .embedded => nbInitError p s.tick.tick (ns ++ [⟨.ctxInitialize, .rtInitializeFailed, .initialize⟩])
    | .heap q => do
      let s ← bErase q s.tick
      nbInitError p s (ns ++ [⟨.ctxInitialize, .rtInitializeFailed, .initialize⟩])

/-- `libhmac_sha256_context_initialize` (lines 456-619; messages at the calls from line 480, 494, 524, 545) for a variable that holds `slot`. -/
def nbInitialize (B : Backend) (L : Library) (allocOk : Nat → Bool) (slot : Option Nat) (s : BSt L.State) (ns : List Note) : Res (Int × Option Nat × BSt L.State × List Note) :=
  match slot with
  | some p => .ok (-1, some p, s, ns ++ [⟨.ctxInitialize, .rtAlreadySet, .alreadySet⟩])
  | none =>
    if allocOk s.count then
      let p := 2 * s.count
      let s := { s with count := s.count + 1, live := (p, .ctx none .null) :: s.live }
      match B with
      | .direct _ =>
        match L.init s.calls with
        | some st => .ok (1, some p, { s.tick with live := setKey p (.ctx (some st) .null) s.live }, ns)
        | none => nbInitError p s.tick (ns ++ [⟨.ctxInitialize, .rtInitializeFailed, .initialize⟩])
      | .evpEmbedded => nbDigestInit L p .embedded s ns
      | .evpAllocated =>
        if L.create s.calls then
          let q := 2 * s.calls + 1
          nbDigestInit L p (.heap q) { s.tick with live := setKey p (.ctx none (.heap q)) ((q, .md none) :: s.live) } ns
        else nbInitError p s.tick (ns ++ [⟨.ctxInitialize, .rtInitializeFailed, .createEvp⟩])
    else .ok (-1, none, { s with count := s.count + 1 }, ns ++ [⟨.ctxInitialize, .memInsufficient, .createContext⟩])

/-- `libhmac_sha256_context_free` (lines 624-683; message at the call from line 656, after which the function goes on) for a variable that holds `slot`. -/
def nbFree (B : Backend) (L : Library) (slot : Option Nat) (s : BSt L.State) (ns : List Note) : Res (Int × Option Nat × BSt L.State × List Note) :=
  match slot with
  | none => .ok (1, none, s, ns)
  | some p =>
    match B, getKey p s.live with
    | .direct _, some (.ctx _ _) => do
      let s ← bErase p s
      pure (1, none, s, ns)
    | .evpEmbedded, some (.ctx _ _) => do
      let ns := if L.cleanup s.calls then ns else ns ++ [⟨.ctxFree, .rtFinalizeFailed, .cleanUp⟩]
      let s ← bErase p s.tick
      pure (1, none, s, ns)
    | .evpAllocated, some (.ctx _ (.heap q)) => do
      let s ← bErase q s.tick
      let s ← bErase p s
      pure (1, none, s, ns)
    | .evpAllocated, some (.ctx _ .null) => do
      let s ← bErase p s.tick
      pure (1, none, s, ns)
    | _, _ => .ub

/-- `libhmac_sha256_context_update` (lines 690-760 direct, messages 702, 715, 730 and 750; 767-830 EVP, messages 778, 791, 802 and 820). -/
def nbUpdate (B : Backend) (L : Library) (slot : Option Nat) (buf : Option (List Byte)) (size : Nat) (s : BSt L.State) (ns : List Note) : Res (Int × BSt L.State × List Note) :=
  match slot, buf with
  | none, _ => .ok (-1, s, ns ++ [⟨.ctxUpdate, .argInvalid, .invalidContext⟩])
  | some _, none => .ok (-1, s, ns ++ [⟨.ctxUpdate, .argInvalid, .invalidBuffer⟩])
  | some p, some b =>
    if B.maxUpdate < size then .ok (-1, s, ns ++ [⟨.ctxUpdate, .argExceeds, .sizeExceeds⟩])
    else if size = 0 then .ok (1, s, ns)
    else do
      let st ← bState B p s
      let data ← bTake b size
      let s' ← bSetState p (L.update s.calls st data).2 s.tick
      pure (if (L.update s.calls st data).1 then 1 else -1, s', if (L.update s.calls st data).1 then ns else ns ++ [⟨.ctxUpdate, .rtSetFailed, .update⟩])

/-- `libhmac_sha256_context_finalize` (lines 1013-1082 direct, messages 1024, 1037, 1048, 1059 and 1072; 1089-1152 EVP, messages 1101, 1114, 1126 and 1142; the EVP branch has one test for both bounds). -/
def nbFinalize (B : Backend) (L : Library) (hashSize : Nat) (slot : Option Nat) (out : Option (List Byte)) (size : Nat) (s : BSt L.State) (ns : List Note) :
    Res (Int × Option (List Byte) × BSt L.State × List Note) :=
  match slot, out with
  | none, o => .ok (-1, o, s, ns ++ [⟨.ctxFinalize, .argInvalid, .invalidContext⟩])
  | some _, none => .ok (-1, none, s, ns ++ [⟨.ctxFinalize, .argInvalid, .invalidHash⟩])
  | some p, some o =>
    if B.maxOutput < size then .ok (-1, some o, s, ns ++ [match B with | .direct _ => ⟨.ctxFinalize, .argExceeds, .hashExceeds⟩ | _ => ⟨.ctxFinalize, .argOutOfBounds, .hashOut⟩])
    else if size < hashSize then .ok (-1, some o, s, ns ++ [match B with | .direct _ => ⟨.ctxFinalize, .argTooSmall, .hashTooSmall⟩ | _ => ⟨.ctxFinalize, .argOutOfBounds, .hashOut⟩])
    else do
      let st ← bState B p s
      let (ok, st', o') := L.final s.calls st o
      let s' ← bSetState p st' s.tick
      pure (if ok then 1 else -1, some o', s', if ok then ns else ns ++ [⟨.ctxFinalize, .rtFinalizeFailed, .finalize⟩])

/-- One call of a client that keeps its context in a variable. A NULL in place of the variable: lines 469 and 633. (The functions of include/libhmac.h.in:468-503; the client is not code of /repo.) -/
def nbStep (B : Backend) (L : Library) (hashSize : Nat) (allocOk : Nat → Bool) (call : ApiCall) (slot : Option Nat) (s : BSt L.State) (ns : List Note) :
    Res (Reply × Option Nat × BSt L.State × List Note) :=
  match call with
  | .init => do
    let (r, slot, s, ns) ← nbInitialize B L allocOk slot s ns
    pure (⟨r, none⟩, slot, s, ns)
  | .initNull => .ok (⟨-1, none⟩, slot, s, ns ++ [⟨.ctxInitialize, .argInvalid, .invalidContext⟩])
  | .free => do
    let (r, slot, s, ns) ← nbFree B L slot s ns
    pure (⟨r, none⟩, slot, s, ns)
  | .freeNull => .ok (⟨-1, none⟩, slot, s, ns ++ [⟨.ctxFree, .argInvalid, .invalidContext⟩])
  | .update buf size => do
    let (r, s, ns) ← nbUpdate B L slot buf size s ns
    pure (⟨r, none⟩, slot, s, ns)
  | .finalize out size => do
    let (r, out, s, ns) ← nbFinalize B L hashSize slot out size s ns
    pure (⟨r, out⟩, slot, s, ns)

/-- What the functions of the deprecated set do with the result of their counterpart (libhmac_sha256.c:35-138, messages at the calls from line 45, 70, 99, 128): -1 and a further message if it is not 1. -/
def nbDeprecated (call : ApiCall) (r : Reply) (ns : List Note) : Reply × List Note :=
  if r.code ≠ 1 then (⟨-1, r.out⟩, ns ++ [match call with
    | .init => ⟨.initialize, .rtInitializeFailed, .initialize⟩
    | .initNull => ⟨.initialize, .rtInitializeFailed, .initialize⟩
    | .free => ⟨.free, .rtFinalizeFailed, .free⟩
    | .freeNull => ⟨.free, .rtFinalizeFailed, .free⟩
    | .update _ _ => ⟨.update, .rtSetFailed, .update⟩
    | .finalize _ _ => ⟨.finalize, .rtFinalizeFailed, .finalize⟩])
  else (⟨1, r.out⟩, ns)

/-- One call through the deprecated set of functions: the functions of libhmac_sha256.c:35-138 call their counterparts with the same arguments. -/
def nbDepStep (B : Backend) (L : Library) (hashSize : Nat) (allocOk : Nat → Bool) (call : ApiCall) (slot : Option Nat) (s : BSt L.State) (ns : List Note) :
    Res (Reply × Option Nat × BSt L.State × List Note) := do
  let (r, slot, s, ns) ← nbStep B L hashSize allocOk call slot s ns
  let (r, ns) := nbDeprecated call r ns
  pure (r, slot, s, ns)

/-- A client program that passes an empty error to each call, and says for each call which set of functions it uses (`true`: the deprecated one): the replies with the messages of each call. (A client of include/libhmac.h.in:468-560;
not code of /repo.) -/
def nbRun (B : Backend) (L : Library) (hashSize : Nat) (allocOk : Nat → Bool) : List (Bool × ApiCall) → Option Nat → BSt L.State → Res (List (Reply × List Note) × Option Nat × BSt L.State)
  | [], slot, s => .ok ([], slot, s)
  | (dep, c) :: cs, slot, s => do
    let (r, slot, s, ns) ← (if dep then nbDepStep B L hashSize allocOk c slot s [] else nbStep B L hashSize allocOk c slot s [])
    let (rs, slot, s) ← nbRun B L hashSize allocOk cs slot s
    pure ((r, ns) :: rs, slot, s)

/-- `libhmac_*_context_initialize( &context, error )` with the message of the caller (`fn`) (lines 153-165, 324-336, 475-487, 546-558). -/
def noInitialize (fn : Fn) (B : Backend) (L : Library) (env : OEnv) (slot : Option Nat) (s : OSt L.State) (ns : List Note) : Res ((Int × Option Nat × OSt L.State) × List Note) := do
  let (r, slot, c, ns) ← nbInitialize B L env.allocOk slot s.ctxs ns
  pure ((r, slot, { s with ctxs := c }), noteFailed r ⟨fn, .rtInitializeFailed, .initialize⟩ ns)

/-- `libhmac_*_context_update( context, buffer, size, error )` with the message of the caller (`fn`) (lines 166-180, 337-351, 488-517, 559-588). -/
def noUpdate (fn : Fn) (B : Backend) (L : Library) (slot : Option Nat) (buf : Option (List Byte)) (size : Nat) (s : OSt L.State) (ns : List Note) : Res ((Int × OSt L.State) × List Note) := do
  let (r, c, ns) ← nbUpdate B L slot buf size s.ctxs ns
  pure ((r, { s with ctxs := c }), noteFailed r ⟨fn, .rtSetFailed, .update⟩ ns)

/-- `libhmac_*_context_finalize( context, hash, size, error )` with the message of the caller (`fn`) (lines 181-195, 352-366, 518-532, 589-603). -/
def noFinalize (fn : Fn) (B : Backend) (L : Library) (digestSize : Nat) (slot : Option Nat) (out : Option (List Byte)) (size : Nat) (s : OSt L.State) (ns : List Note) :
    Res ((Int × Option (List Byte) × OSt L.State) × List Note) := do
  let (r, o, c, ns) ← nbFinalize B L digestSize slot out size s.ctxs ns
  pure ((r, o, { s with ctxs := c }), noteFailed r ⟨fn, .rtFinalizeFailed, .finalize⟩ ns)

/-- `libhmac_*_context_free( &context, error )` with the message of the caller (`fn`) (lines 196-208, 367-379, 533-545, 604-616). -/
def noFree (fn : Fn) (B : Backend) (L : Library) (slot : Option Nat) (s : OSt L.State) (ns : List Note) : Res ((Int × Option Nat × OSt L.State) × List Note) := do
  let (r, slot, c, ns) ← nbFree B L slot s.ctxs ns
  pure ((r, slot, { s with ctxs := c }), noteFailed r ⟨fn, .rtFinalizeFailed, .free⟩ ns)

/-- `goto on_error` in `libhmac_*_calculate` (lines 211-218). -/
def noCalculateError (B : Backend) (L : Library) (context : Option Nat) (s : OSt L.State) (ns : List Note) : Res ((Int × OSt L.State) × List Note) := do
  let x ← oCalculateError B L context s
  pure (x, ns)

/-- `libhmac_*_calculate` (lines 143-219). -/
def noCalculate (B : Backend) (L : Library) (digestSize : Nat) (env : OEnv) (buffer : Option Nat) (size : Nat) (hash : Option Nat) (hashSize : Nat) (s : OSt L.State) (ns : List Note) :
    Res ((Int × OSt L.State) × List Note) := do
  let ((r, context, s), ns) ← noInitialize .calculate B L env none s ns
  if r ≠ 1 then noCalculateError B L context s ns
  else do
    let ((r, s), ns) ← noUpdate .calculate B L context (oRegion s buffer size) size s ns
    if r ≠ 1 then noCalculateError B L context s ns
    else do
      let ((r, h, s), ns) ← noFinalize .calculate B L digestSize context (oRegion s hash hashSize) hashSize s ns
      let s := oSetRegion s hash h
      if r ≠ 1 then noCalculateError B L context s ns
      else do
        let ((r, context, s), ns) ← noFree .calculate B L context s ns
        if r ≠ 1 then noCalculateError B L context s ns else pure ((1, s), ns)

/-- Lines 322-411: the digest of a long key is put in `key_data`. `false`: `goto on_error`. -/
def noLongKey (B : Backend) (L : Library) (digestSize blockSize : Nat) (env : OEnv) (key : Option Nat) (keySize : Nat) (l : Loc) (s : OSt L.State) (ns : List Note) : Res ((Bool × Loc × OSt L.State) × List Note) := do
  let ((r, context, s), ns) ← noInitialize .calculateHmac B L env l.context s ns
  let l := { l with context := context }
  if r ≠ 1 then pure ((false, l, s), ns)
  else do
    let ((r, s), ns) ← noUpdate .calculateHmac B L l.context (oRegion s key keySize) keySize s ns
    if r ≠ 1 then pure ((false, l, s), ns)
    else do
      let ((r, h, s), ns) ← noFinalize .calculateHmac B L digestSize l.context (some l.keyHash) digestSize s ns
      match h with
      | none => .ub
      | some h =>
        let l := { l with keyHash := h }
        if r ≠ 1 then pure ((false, l, s), ns)
        else do
          let ((r, context, s), ns) ← noFree .calculateHmac B L l.context s ns
          let l := { l with context := context }
          if r ≠ 1 then pure ((false, l, s), ns)
          else do
            let d ← oLoad l.keyData s
            let d ← if digestSize < blockSize then memSet d digestSize 0 (szSub blockSize digestSize) else pure d
            let d ← memCopy d 0 l.keyHash 0 digestSize
            let s ← oStore l.keyData d s
            pure ((true, l, s), ns)

/-- Lines 277-411: the key (message at the call from line 282). `false`: `goto on_error`. -/
def noKey (B : Backend) (L : Library) (digestSize blockSize : Nat) (env : OEnv) (key : Option Nat) (keySize : Nat) (l : Loc) (s : OSt L.State) (ns : List Note) : Res ((Bool × Loc × OSt L.State) × List Note) :=
  match oAlloc env blockSize s with
  | (none, s) => .ok ((false, { l with keyData := none }, s), ns ++ [⟨.calculateHmac, .memInsufficient, .createKey⟩])
  | (some p, s) =>
    if keySize ≤ blockSize then
      match oRegion s key keySize with
      | none => .ub
      | some k => do
        let d ← oLoad (some p) s
        let d ← memCopy d 0 k 0 keySize
        let d ← memSet d keySize 0 (szSub blockSize keySize)
        let s ← oStore (some p) d s
        pure ((true, { l with keyData := some p }, s), ns)
    else noLongKey B L digestSize blockSize env key keySize { l with keyData := some p } s ns

/-- Lines 412-474: the paddings (messages at the calls from line 417, 445). -/
def noPads {σ} (blockSize : Nat) (env : OEnv) (l : Loc) (s : OSt σ) (ns : List Note) : Res ((Bool × Loc × OSt σ) × List Note) :=
  match oAlloc env blockSize s with
  | (none, s) => .ok ((false, { l with inner := none }, s), ns ++ [⟨.calculateHmac, .memInsufficient, .createInner⟩])
  | (some p, s) => do
    let d ← oLoad (some p) s
    let d ← memSet d 0 0x36 blockSize
    let s ← oStore (some p) d s
    match oAlloc env blockSize s with
    | (none, s) => .ok ((false, { l with inner := some p, outer := none }, s), ns ++ [⟨.calculateHmac, .memInsufficient, .createOuter⟩])
    | (some q, s) => do
      let d ← oLoad (some q) s
      let d ← memSet d 0 0x5c blockSize
      let s ← oStore (some q) d s
      let kd ← oLoad l.keyData s
      let i ← oLoad (some p) s
      let o ← oLoad (some q) s
      let (i, o) ← xorPads blockSize kd i o
      let s ← oStore (some p) i s
      let s ← oStore (some q) o s
      pure ((true, { l with inner := some p, outer := some q }, s), ns)

/-- Lines 475-545 and 546-616: a pass. -/
def noPass (B : Backend) (L : Library) (digestSize blockSize : Nat) (env : OEnv) (padding : Option Nat) (buffer : Option Nat) (size : Nat) (hmac : Option Nat) (hmacSize : Nat)
    (l : Loc) (s : OSt L.State) (ns : List Note) : Res ((Bool × Loc × OSt L.State) × List Note) := do
  let ((r, context, s), ns) ← noInitialize .calculateHmac B L env l.context s ns
  let l := { l with context := context }
  if r ≠ 1 then pure ((false, l, s), ns)
  else do
    let d ← oLoad padding s
    let ((r, s), ns) ← noUpdate .calculateHmac B L l.context (some d) blockSize s ns
    if r ≠ 1 then pure ((false, l, s), ns)
    else do
      let ((r, s), ns) ← noUpdate .calculateHmac B L l.context (oRegion s buffer size) size s ns
      if r ≠ 1 then pure ((false, l, s), ns)
      else do
        let ((r, h, s), ns) ← noFinalize .calculateHmac B L digestSize l.context (oRegion s hmac hmacSize) hmacSize s ns
        let s := oSetRegion s hmac h
        if r ≠ 1 then pure ((false, l, s), ns)
        else do
          let ((r, context, s), ns) ← noFree .calculateHmac B L l.context s ns
          let l := { l with context := context }
          if r ≠ 1 then pure ((false, l, s), ns) else pure ((true, l, s), ns)

/-- `goto on_error` in `libhmac_*_calculate_hmac` (lines 676-713). -/
def noHmacError (B : Backend) (L : Library) (blockSize : Nat) (l : Loc) (s : OSt L.State) (ns : List Note) : Res ((Int × OSt L.State) × List Note) := do
  let x ← oHmacError B L blockSize l s
  pure (x, ns)

/-- `libhmac_*_calculate_hmac` (lines 225-714; messages at the calls from line 247, 258, 269). -/
def noCalculateHmac (B : Backend) (L : Library) (digestSize blockSize : Nat) (env : OEnv) (keyHash : List Byte) (key : Option Nat) (keySize : Nat) (buffer : Option Nat) (size : Nat)
    (hmac : Option Nat) (hmacSize : Nat) (s : OSt L.State) (ns : List Note) : Res ((Int × OSt L.State) × List Note) :=
  match key with
  | none => .ok ((-1, s), ns ++ [⟨.calculateHmac, .argInvalid, .invalidKey⟩])
  | some k =>
    if ssizeMax < keySize then .ok ((-1, s), ns ++ [⟨.calculateHmac, .argExceeds, .keyExceeds⟩])
    else if hmacSize < digestSize then .ok ((-1, s), ns ++ [⟨.calculateHmac, .argTooSmall, .hmacTooSmall⟩])
    else do
      let ((ok, l, s), ns) ← noKey B L digestSize blockSize env (some k) keySize ⟨none, none, none, none, keyHash⟩ s ns
      if !ok then noHmacError B L blockSize l s ns
      else do
        let ((ok, l, s), ns) ← noPads blockSize env l s ns
        if !ok then noHmacError B L blockSize l s ns
        else do
          let ((ok, l, s), ns) ← noPass B L digestSize blockSize env l.inner buffer size hmac hmacSize l s ns
          if !ok then noHmacError B L blockSize l s ns
          else do
            let ((ok, l, s), ns) ← noPass B L digestSize blockSize env l.outer hmac digestSize hmac hmacSize l s ns
            if !ok then noHmacError B L blockSize l s ns
            else do
              let x ← oHmacEnd blockSize l s
              pure (x, ns)

/-- The texts of the builds over a crypto library, in function `fn`. They are those of the built-in code (`txtText`, with the lines 706, 719, 734, 754, 782, 795, 806, 824, 1028, 1041, 1052, 1076, 1105, 1118, 1130, 1146 of
libhmac_sha256_context.c), except: the text for a hash size that is too small (libhmac_sha256_context.c:1063, libhmac_md5_context.c:1031); and that of `libhmac_md5_context_initialize` where EVP_DigestInit_ex fails
(libhmac_md5_context.c:543; libhmac_sha256_context.c:528, 575 and libhmac_md5_context.c:496 have the usual one). -/
def libraryText (B : Backend) (k : Spec.Kind) (fn : Fn) (t : Txt) : String :=
  match B, k, fn, t with
  | .evpEmbedded, .md5, .ctxInitialize, .initialize => "unable to initialize EVP message digest context."
  | .evpAllocated, .md5, .ctxInitialize, .initialize => "unable to initialize EVP message digest context."
  | _, _, _, .hashTooSmall => "invalid hash size value too small."
  | _, k, _, t => txtText k t

/-- A message as it is recorded in those builds (as `noteText`, for example libhmac_sha256_context.c:702-707). -/
def libraryNoteText (B : Backend) (k : Spec.Kind) (n : Note) : String := functionName k n.fn ++ ": " ++ libraryText B k n.fn n.txt

end Model
