import Verif.Model.Calculate
import Verif.Model.Deprecated
import Verif.Spec.Errors
/-! The same functions with their error output: what is handed to `libcerror_error_set` with the caller's `error`, in order.

The other model files leave the error output out. Here the functions are modelled again with the list of errors recorded so far (`es`) as additional state; that the rest of the behaviour is the one of
the other files is proved (Proofs/Errors). What libcerror does with a recorded error (it keeps domain and code of the first one and adds a message for each) is outside /repo and not modelled, nor are the texts of the messages.
Calls with the error argument NULL (the `libhmac_*_context_free( &context, NULL )` after `on_error`) record nothing.

The calls are the same in the five files (checked with a normalising `diff`), except that finalize of SHA-1, SHA-224, SHA-256 and SHA-512 tests the lower bound of the size twice. Line numbers are those of libhmac_sha256_context.c and
libhmac_sha256.c. The branches after `memory_copy` or `memory_set` returned NULL are left out, as elsewhere. -/

namespace Model

open Spec (Err ApiCall Reply)

/-- `libhmac_sha256_context_transform` (lines 227-448; errors 250, 261, 272). -/
def eTransform {w} (A : Alg w) (unrolled : Bool) (scr : Scr w) (ctx : Option (Ctx w)) (buf : Option (List Byte)) (size : Nat) (es : List Err) :
    Res (Int × Option (Ctx w) × Scr w × List Err) :=
  match ctx, buf with
  | none, _ => .ok (-1, none, scr, es ++ [.argInvalid])
  | some c, none => .ok (-1, some c, scr, es ++ [.argInvalid])
  | some c, some b =>
    if ssizeMax < size then .ok (-1, some c, scr, es ++ [.argExceeds])
    else do
      let (hv, off, scr) ← transformLoop A unrolled b (size + 1) size 0 c.hashValues scr
      let shv ← memSet scr.hv 0 0 A.wipeHv
      let svals ← memSet scr.vals 0 0 A.wipeVals
      pure ((off : Int), some { c with hashValues := hv }, ⟨shv, svals⟩, es)

/-- First part of `libhmac_sha256_context_update` (lines 888-949; errors 892, 938). -/
def eUpdateFill {w} (A : Alg w) (unrolled : Bool) (scr : Scr w) (c : Ctx w) (b : List Byte) (size : Nat) (es : List Err) :
    Res (Int × Ctx w × Option (Nat × Nat) × List Err) :=
  if 0 < c.blockOffset then
    if A.blockSize ≤ c.blockOffset then .ok (-1, c, none, es ++ [.rtOutOfBounds])
    else do
      let rem := szSub A.blockSize c.blockOffset
      let rem := if size < rem then size else rem
      let blk ← memCopy c.block c.blockOffset b 0 rem
      let c := { c with block := blk, blockOffset := c.blockOffset + rem }
      if c.blockOffset < A.blockSize then .ok (1, c, none, es)
      else do
        let (n, c', _, es) ← eTransform A unrolled scr (some c) (some c.block) A.blockSize es
        match c' with
        | none => .ub
        | some c' =>
          if n = -1 then .ok (-1, c', none, es ++ [.rtSetFailed])
          else .ok (1, { c' with hashCount := c'.hashCount + BitVec.ofInt 64 n, blockOffset := 0 }, some (rem, szSub size rem), es)
  else .ok (1, c, some (0, size), es)

/-- Second part of `libhmac_sha256_context_update` (lines 950-973; error 960). -/
def eUpdateBulk {w} (A : Alg w) (unrolled : Bool) (scr : Scr w) (c : Ctx w) (b : List Byte) (bufferOffset size : Nat) (es : List Err) :
    Res (Int × Ctx w × Nat × Nat × List Err) :=
  if 0 < size then do
    let p ← ptrAt b bufferOffset
    let (n, c', _, es) ← eTransform A unrolled scr (some c) (some p) size es
    match c' with
    | none => .ub
    | some c' =>
      if n = -1 then .ok (-1, c', bufferOffset, size, es ++ [.rtSetFailed])
      else .ok (1, { c' with hashCount := c'.hashCount + BitVec.ofInt 64 n }, bufferOffset + n.toNat, szSub size n.toNat, es)
  else .ok (1, c, bufferOffset, size, es)

/-- Last part of `libhmac_sha256_context_update` (lines 974-1003; error 978). -/
def eUpdateTail {w} (A : Alg w) (c : Ctx w) (b : List Byte) (bufferOffset size : Nat) (es : List Err) : Res (Int × Ctx w × List Err) :=
  if 0 < size then
    if A.blockSize ≤ size then .ok (-1, c, es ++ [.rtOutOfBounds])
    else do
      let blk ← memCopy c.block 0 b bufferOffset size
      pure (1, { c with block := blk, blockOffset := size }, es)
  else .ok (1, c, es)

/-- `libhmac_sha256_context_update` (lines 837-1004; errors 851, 864, 875). -/
def eCtxUpdate {w} (A : Alg w) (unrolled : Bool) (scr : Scr w) (ctx : Option (Ctx w)) (buf : Option (List Byte)) (size : Nat) (es : List Err) :
    Res (Int × Option (Ctx w) × List Err) :=
  match ctx, buf with
  | none, _ => .ok (-1, none, es ++ [.argInvalid])
  | some c, none => .ok (-1, some c, es ++ [.argInvalid])
  | some c, some b =>
    if ssizeMax < size then .ok (-1, some c, es ++ [.argExceeds])
    else if size = 0 then .ok (1, some c, es)
    else do
      let (r, c, next, es) ← eUpdateFill A unrolled scr c b size es
      match next with
      | none => pure (r, some c, es)
      | some (bufferOffset, size) => do
        let (r, c, bufferOffset, size, es) ← eUpdateBulk A unrolled scr c b bufferOffset size es
        if r = -1 then pure (-1, some c, es)
        else do
          let (r, c, es) ← eUpdateTail A c b bufferOffset size es
          pure (r, some c, es)

/-- `libhmac_sha256_context_finalize` (lines 1159-1348; errors 1179, 1192, 1203, 1214, 1276). -/
def eCtxFinalize {w} (A : Alg w) (unrolled : Bool) (scr : Scr w) (ctx : Option (Ctx w)) (hash : Option (List Byte)) (hashSize : Nat) (es : List Err) :
    Res (Int × Option (Ctx w) × Option (List Byte) × List Err) :=
  match ctx, hash with
  | none, h => .ok (-1, none, h, es ++ [.argInvalid])
  | some c, none => .ok (-1, some c, none, es ++ [.argInvalid])
  | some c, some h =>
    if hashSize < A.hashSize then .ok (-1, some c, some h, es ++ [.argTooSmall])
    else if ssizeMax < hashSize then .ok (-1, some c, some h, es ++ [.argExceeds])
    else do
      let numberOfBlocks := if A.padLimit < c.blockOffset then 1 + 1 else 1
      let blockSize := numberOfBlocks * A.blockSize
      let blk ← memSet c.block c.blockOffset 0 (szSub blockSize c.blockOffset)
      let blk ← wr blk c.blockOffset 0x80
      let bitSize := (c.hashCount + BitVec.ofNat 64 c.blockOffset) * 8
      let blk ← runStore A.lenProg blk (blockSize - 8) bitSize
      let c := { c with block := blk }
      let (n, c', _, es) ← eTransform A unrolled scr (some c) (some c.block) blockSize es
      match c' with
      | none => .ub
      | some c' =>
        if n = -1 then .ok (-1, some c', some h, es ++ [.rtSetFailed])
        else do
          let h ← storeHash A unrolled c'.hashValues h
          pure (1, some (zeroCtx A), some h, es)

/-- `libhmac_sha256_context_initialize` (lines 456-619; errors 469, 480, 494). `context`: NULL, or the address of a variable. -/
def eInitialize {w} (A : Alg w) (env : Env w) (context : Option (Option Nat)) (s : St w) (es : List Err) : Res (Int × Option (Option Nat) × St w × List Err) :=
  match context with
  | none => .ok (-1, none, s, es ++ [.argInvalid])
  | some (some p) => .ok (-1, some (some p), s, es ++ [.rtAlreadySet])
  | some none =>
    if env.allocOk s.count then do
      let hv ← memCopy (zeroCtx A).hashValues 0 A.iv 0 A.nHash
      pure (1, some (some s.count), { s with count := s.count + 1, live := (s.count, .ctx { zeroCtx A with hashValues := hv }) :: s.live }, es)
    else .ok (-1, some none, { s with count := s.count + 1 }, es ++ [.memInsufficient])

/-- `libhmac_sha256_context_free` (lines 624-683, error 633). -/
def eFree {w} (context : Option (Option Nat)) (s : St w) (es : List Err) : Res (Int × Option (Option Nat) × St w × List Err) :=
  match context with
  | none => .ok (-1, none, s, es ++ [.argInvalid])
  | some none => .ok (1, some none, s, es)
  | some (some p) => do
    let s ← memFree p s
    pure (1, some none, s, es)

/-- `libhmac_*_context_update` on a context pointer. (libhmac/libhmac_sha256_context.c:837-1004.) -/
def eUpdate {w} (A : Alg w) (u : Bool) (env : Env w) (slot : Option Nat) (buf : Option (List Byte)) (size : Nat) (s : St w) (es : List Err) : Res (Int × St w × List Err) :=
  match slot with
  | none => do
    let (r, _, es) ← eCtxUpdate A u env.scr none buf size es
    pure (r, s, es)
  | some p => match getKey p s.live with
    | some (.ctx c) => do
      let (r, c', es) ← eCtxUpdate A u env.scr (some c) buf size es
      match c' with
      | some c' => pure (r, { s with live := setKey p (.ctx c') s.live }, es)
      | none => .ub
    | _ => .ub

/-- `libhmac_*_context_finalize` on a context pointer: also returns the new contents of the output. (libhmac/libhmac_sha256_context.c:1159-1348.) -/
def eFinalize {w} (A : Alg w) (u : Bool) (env : Env w) (slot : Option Nat) (hash : Option (List Byte)) (hashSize : Nat) (s : St w) (es : List Err) :
    Res (Int × Option (List Byte) × St w × List Err) :=
  match slot with
  | none => do
    let (r, _, h, es) ← eCtxFinalize A u env.scr none hash hashSize es
    pure (r, h, s, es)
  | some p => match getKey p s.live with
    | some (.ctx c) => do
      let (r, c', h, es) ← eCtxFinalize A u env.scr (some c) hash hashSize es
      match c' with
      | some c' => pure (r, h, { s with live := setKey p (.ctx c') s.live }, es)
      | none => .ub
    | _ => .ub

/-- A call that failed: the caller's error is recorded after those of the call (for example lines 154-165 of libhmac_sha256.c). -/
def failed (r : Int) (e : Err) (es : List Err) : List Err := if r ≠ 1 then es ++ [e] else es

/-- `libhmac_*_context_initialize( &context, error )` of a local variable, with the error of the caller. (libhmac/libhmac_sha256_context.c:456-619, called at libhmac/libhmac_sha256.c:153, 324, 475, 546.) -/
def eLocalInit {w} (A : Alg w) (env : Env w) (slot : Option Nat) (s : St w) (es : List Err) : Res (Int × Option Nat × St w × List Err) := do
  let (r, c, s, es) ← eInitialize A env (some slot) s es
  match c with
  | some slot => pure (r, slot, s, failed r .rtInitializeFailed es)
  | none => .ub

/-- `libhmac_*_context_free( &context, error )` of a local variable, with the error of the caller. (libhmac/libhmac_sha256_context.c:624-683, called at libhmac/libhmac_sha256.c:196, 214, 367, 533, 604, 679.) -/
def eLocalFree {w} (slot : Option Nat) (s : St w) (es : List Err) : Res (Int × Option Nat × St w × List Err) := do
  let (r, c, s, es) ← eFree (some slot) s es
  match c with
  | some slot => pure (r, slot, s, failed r .rtFinalizeFailed es)
  | none => .ub

/-- `libhmac_*_calculate` (libhmac_sha256.c:143-219). -/
def eCalculate {w} (A : Alg w) (u : Bool) (env : Env w) (buffer : Option Nat) (size : Nat) (hash : Option Nat) (hashSize : Nat) (s : St w) (es : List Err) :
    Res (Int × St w × List Err) := do
  let (r, context, s, es) ← eLocalInit A env none s es
  if r ≠ 1 then do
    let (r, s) ← calculateError context s
    pure (r, s, es)
  else do
    let (r, s, es) ← eUpdate A u env context (region s buffer size) size s es
    let es := failed r .rtSetFailed es
    if r ≠ 1 then do
      let (r, s) ← calculateError context s
      pure (r, s, es)
    else do
      let (r, h, s, es) ← eFinalize A u env context (region s hash hashSize) hashSize s es
      let es := failed r .rtFinalizeFailed es
      let s := setRegion s hash h
      if r ≠ 1 then do
        let (r, s) ← calculateError context s
        pure (r, s, es)
      else do
        let (r, context, s, es) ← eLocalFree context s es
        if r ≠ 1 then do
          let (r, s) ← calculateError context s
          pure (r, s, es)
        else pure (1, s, es)

/-- Lines 277-411 of `libhmac_*_calculate_hmac`: the key. `false`: `goto on_error`. -/
def eHmacKey {w} (A : Alg w) (u : Bool) (env : Env w) (key : Option Nat) (keySize : Nat) (l : Loc) (s : St w) (es : List Err) : Res (Bool × Loc × St w × List Err) := do
  let (p, s) := allocBytes env A.hmacBlockSize s
  let l := { l with keyData := p }
  match p with
  | none => pure (false, l, s, es ++ [.memInsufficient])
  | some _ =>
    if keySize ≤ A.hmacBlockSize then
      match region s key keySize with
      | none => .ub
      | some k => do
        let d ← loadBytes l.keyData s
        let d ← memCopy d 0 k 0 keySize
        let d ← memSet d keySize 0 (szSub A.hmacBlockSize keySize)
        let s ← storeBytes l.keyData d s
        pure (true, l, s, es)
    else do
      let (r, context, s, es) ← eLocalInit A env l.context s es
      let l := { l with context := context }
      if r ≠ 1 then pure (false, l, s, es)
      else do
        let (r, s, es) ← eUpdate A u env l.context (region s key keySize) keySize s es
        let es := failed r .rtSetFailed es
        if r ≠ 1 then pure (false, l, s, es)
        else do
          let (r, h, s, es) ← eFinalize A u env l.context (some l.keyHash) A.hashSize s es
          let es := failed r .rtFinalizeFailed es
          match h with
          | none => .ub
          | some h =>
            let l := { l with keyHash := h }
            if r ≠ 1 then pure (false, l, s, es)
            else do
              let (r, context, s, es) ← eLocalFree l.context s es
              let l := { l with context := context }
              if r ≠ 1 then pure (false, l, s, es)
              else do
                let d ← loadBytes l.keyData s
                let d ← if A.hashSize < A.hmacBlockSize then memSet d A.hashSize 0 (szSub A.hmacBlockSize A.hashSize) else pure d
                let d ← memCopy d 0 l.keyHash 0 A.hashSize
                let s ← storeBytes l.keyData d s
                pure (true, l, s, es)

/-- Lines 412-474: the paddings. -/
def eHmacPads {w} (A : Alg w) (env : Env w) (l : Loc) (s : St w) (es : List Err) : Res (Bool × Loc × St w × List Err) := do
  let (p, s) := allocBytes env A.hmacBlockSize s
  let l := { l with inner := p }
  match p with
  | none => pure (false, l, s, es ++ [.memInsufficient])
  | some _ => do
    let d ← loadBytes l.inner s
    let d ← memSet d 0 0x36 A.hmacBlockSize
    let s ← storeBytes l.inner d s
    let (p, s) := allocBytes env A.hmacBlockSize s
    let l := { l with outer := p }
    match p with
    | none => pure (false, l, s, es ++ [.memInsufficient])
    | some _ => do
      let d ← loadBytes l.outer s
      let d ← memSet d 0 0x5c A.hmacBlockSize
      let s ← storeBytes l.outer d s
      let kd ← loadBytes l.keyData s
      let i ← loadBytes l.inner s
      let o ← loadBytes l.outer s
      let (i, o) ← xorPads A.hmacBlockSize kd i o
      let s ← storeBytes l.inner i s
      let s ← storeBytes l.outer o s
      pure (true, l, s, es)

/-- Lines 475-545 and 546-616: a pass. -/
def eHmacPass {w} (A : Alg w) (u : Bool) (env : Env w) (padding : Option Nat) (buffer : Option Nat) (size : Nat) (hmac : Option Nat) (hmacSize : Nat)
    (l : Loc) (s : St w) (es : List Err) : Res (Bool × Loc × St w × List Err) := do
  let (r, context, s, es) ← eLocalInit A env l.context s es
  let l := { l with context := context }
  if r ≠ 1 then pure (false, l, s, es)
  else do
    let d ← loadBytes padding s
    let (r, s, es) ← eUpdate A u env l.context (some d) A.hmacBlockSize s es
    let es := failed r .rtSetFailed es
    if r ≠ 1 then pure (false, l, s, es)
    else do
      let (r, s, es) ← eUpdate A u env l.context (region s buffer size) size s es
      let es := failed r .rtSetFailed es
      if r ≠ 1 then pure (false, l, s, es)
      else do
        let (r, h, s, es) ← eFinalize A u env l.context (region s hmac hmacSize) hmacSize s es
        let es := failed r .rtFinalizeFailed es
        let s := setRegion s hmac h
        if r ≠ 1 then pure (false, l, s, es)
        else do
          let (r, context, s, es) ← eLocalFree l.context s es
          let l := { l with context := context }
          if r ≠ 1 then pure (false, l, s, es) else pure (true, l, s, es)

/-- `libhmac_*_calculate_hmac` (libhmac_sha256.c:225-714; errors 247, 258, 269). -/
def eCalculateHmac {w} (A : Alg w) (u : Bool) (env : Env w) (keyHash : List Byte) (key : Option Nat) (keySize : Nat) (buffer : Option Nat) (size : Nat)
    (hmac : Option Nat) (hmacSize : Nat) (s : St w) (es : List Err) : Res (Int × Loc × St w × List Err) :=
  let l : Loc := ⟨none, none, none, none, keyHash⟩
  match key with
  | none => .ok (-1, l, s, es ++ [.argInvalid])
  | some k =>
    if ssizeMax < keySize then .ok (-1, l, s, es ++ [.argExceeds])
    else if hmacSize < A.hashSize then .ok (-1, l, s, es ++ [.argTooSmall])
    else do
      let (ok, l, s, es) ← eHmacKey A u env (some k) keySize l s es
      if !ok then do
        let (r, l, s) ← hmacError A l s
        pure (r, l, s, es)
      else do
        let (ok, l, s, es) ← eHmacPads A env l s es
        if !ok then do
          let (r, l, s) ← hmacError A l s
          pure (r, l, s, es)
        else do
          let (ok, l, s, es) ← eHmacPass A u env l.inner buffer size hmac hmacSize l s es
          if !ok then do
            let (r, l, s) ← hmacError A l s
            pure (r, l, s, es)
          else do
            let (ok, l, s, es) ← eHmacPass A u env l.outer hmac A.hashSize hmac hmacSize l s es
            if !ok then do
              let (r, l, s) ← hmacError A l s
              pure (r, l, s, es)
            else do
              let s ← wipeFree A l.outer s
              let l := { l with outer := none }
              let s ← wipeFree A l.inner s
              let l := { l with inner := none }
              let s ← wipeFree A l.keyData s
              let l := { l with keyData := none }
              pure (1, l, s, es)

/-- One call of a client that keeps its context in a variable (`slot`). (The functions of include/libhmac.h.in:468-503; the client is not code of /repo.) -/
def eStep {w} (A : Alg w) (u : Bool) (env : Env w) (call : ApiCall) (scr : Scr w) (slot : Option Nat) (s : St w) (es : List Err) : Res (Reply × Option Nat × St w × List Err) :=
  match call with
  | .init => do
    let (r, c, s, es) ← eInitialize A env (some slot) s es
    match c with
    | some slot => pure (⟨r, none⟩, slot, s, es)
    | none => .ub
  | .initNull => do
    let (r, _, s, es) ← eInitialize A env none s es
    pure (⟨r, none⟩, slot, s, es)
  | .free => do
    let (r, c, s, es) ← eFree (some slot) s es
    match c with
    | some slot => pure (⟨r, none⟩, slot, s, es)
    | none => .ub
  | .freeNull => do
    let (r, _, s, es) ← eFree none s es
    pure (⟨r, none⟩, slot, s, es)
  | .update buf size => do
    let (r, s, es) ← eUpdate A u { env with scr := scr } slot buf size s es
    pure (⟨r, none⟩, slot, s, es)
  | .finalize out size => do
    let (r, out, s, es) ← eFinalize A u { env with scr := scr } slot out size s es
    pure (⟨r, out⟩, slot, s, es)

/-- `libhmac_*_initialize` (libhmac_sha256.c:35-55, error 45). -/
def eDepInitialize {w} (A : Alg w) (env : Env w) (context : Option (Option Nat)) (s : St w) (es : List Err) : Res (Int × Option (Option Nat) × St w × List Err) := do
  let (r, context, s, es) ← eInitialize A env context s es
  if r ≠ 1 then pure (-1, context, s, es ++ [.rtInitializeFailed]) else pure (1, context, s, es)

/-- `libhmac_*_free` (libhmac_sha256.c:60-80, error 70). -/
def eDepFree {w} (context : Option (Option Nat)) (s : St w) (es : List Err) : Res (Int × Option (Option Nat) × St w × List Err) := do
  let (r, context, s, es) ← eFree context s es
  if r ≠ 1 then pure (-1, context, s, es ++ [.rtFinalizeFailed]) else pure (1, context, s, es)

/-- `libhmac_*_update` (libhmac_sha256.c:85-109, error 99). -/
def eDepUpdate {w} (A : Alg w) (u : Bool) (env : Env w) (slot : Option Nat) (buf : Option (List Byte)) (size : Nat) (s : St w) (es : List Err) : Res (Int × St w × List Err) := do
  let (r, s, es) ← eUpdate A u env slot buf size s es
  if r ≠ 1 then pure (-1, s, es ++ [.rtSetFailed]) else pure (1, s, es)

/-- `libhmac_*_finalize` (libhmac_sha256.c:114-138, error 128). -/
def eDepFinalize {w} (A : Alg w) (u : Bool) (env : Env w) (slot : Option Nat) (hash : Option (List Byte)) (hashSize : Nat) (s : St w) (es : List Err) :
    Res (Int × Option (List Byte) × St w × List Err) := do
  let (r, h, s, es) ← eFinalize A u env slot hash hashSize s es
  if r ≠ 1 then pure (-1, h, s, es ++ [.rtFinalizeFailed]) else pure (1, h, s, es)

/-- One call through the deprecated set of functions. (libhmac/libhmac_sha256.c:35-138; the client is not code of /repo.) -/
def eDepStep {w} (A : Alg w) (u : Bool) (env : Env w) (call : ApiCall) (scr : Scr w) (slot : Option Nat) (s : St w) (es : List Err) : Res (Reply × Option Nat × St w × List Err) :=
  match call with
  | .init => do
    let (r, c, s, es) ← eDepInitialize A env (some slot) s es
    match c with
    | some slot => pure (⟨r, none⟩, slot, s, es)
    | none => .ub
  | .initNull => do
    let (r, _, s, es) ← eDepInitialize A env none s es
    pure (⟨r, none⟩, slot, s, es)
  | .free => do
    let (r, c, s, es) ← eDepFree (some slot) s es
    match c with
    | some slot => pure (⟨r, none⟩, slot, s, es)
    | none => .ub
  | .freeNull => do
    let (r, _, s, es) ← eDepFree none s es
    pure (⟨r, none⟩, slot, s, es)
  | .update buf size => do
    let (r, s, es) ← eDepUpdate A u { env with scr := scr } slot buf size s es
    pure (⟨r, none⟩, slot, s, es)
  | .finalize out size => do
    let (r, out, s, es) ← eDepFinalize A u { env with scr := scr } slot out size s es
    pure (⟨r, out⟩, slot, s, es)

/-- A client program that passes an empty error to each call, and says for each call which set of functions it uses (`true`: the deprecated one): the replies with the errors of each call. (A client of include/libhmac.h.in:468-560; not code of /repo.) -/
def eRun {w} (A : Alg w) (u : Bool) (env : Env w) : List (Bool × ApiCall × Scr w) → Option Nat → St w → Res (List (Reply × List Err) × Option Nat × St w)
  | [], slot, s => .ok ([], slot, s)
  | (dep, c, scr) :: cs, slot, s => do
    let (r, slot, s, es) ← (if dep then eDepStep A u env c scr slot s [] else eStep A u env c scr slot s [])
    let (rs, slot, s) ← eRun A u env cs slot s
    pure ((r, es) :: rs, slot, s)

end Model
