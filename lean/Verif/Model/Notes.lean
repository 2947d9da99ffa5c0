import Verif.Model.Errors
import Verif.Spec.Notes
/-! The same functions with their messages: all that is handed to `libcerror_error_set` with the caller's `error` (the function's name, the error domain and code, the text), in order.

As Model/Errors, with the list of messages recorded so far (`ns`) as additional state in place of the errors; that the rest of the behaviour is the one of the other files, and that domains and codes are those of
Model/Errors, is proved (Proofs/Notes, Props/Notes). Every text begins with "%s: " and the name of the function (`static char *function`, checked to be the name in all files); the texts are in `noteText`.

The calls are the same in the five files (checked with a normalising `diff`), except the text for a hash size that is too small. Line numbers are those of libhmac_sha256_context.c and libhmac_sha256.c, of the call of
`libcerror_error_set`; the text stands four lines below. The branches after `memory_copy` or `memory_set` returned NULL are left out, as elsewhere. -/

namespace Model

open Spec (Err ApiCall Reply Note Fn Txt)

/-- `libhmac_sha256_context_transform` (lines 227-448; messages at the calls from line 250, 261, 272). -/
def nTransform {w} (A : Alg w) (unrolled : Bool) (scr : Scr w) (ctx : Option (Ctx w)) (buf : Option (List Byte)) (size : Nat) (ns : List Note) :
    Res (Int × Option (Ctx w) × Scr w × List Note) :=
  match ctx, buf with
  | none, _ => .ok (-1, none, scr, ns ++ [⟨.transform, .argInvalid, .invalidInternal⟩])
  | some c, none => .ok (-1, some c, scr, ns ++ [⟨.transform, .argInvalid, .invalidBuffer⟩])
  | some c, some b =>
    if ssizeMax < size then .ok (-1, some c, scr, ns ++ [⟨.transform, .argExceeds, .sizeExceeds⟩])
    else do
      let (hv, off, scr) ← transformLoop A unrolled b (size + 1) size 0 c.hashValues scr
      let shv ← memSet scr.hv 0 0 A.wipeHv
      let svals ← memSet scr.vals 0 0 A.wipeVals
      pure ((off : Int), some { c with hashValues := hv }, ⟨shv, svals⟩, ns)

/-- First part of `libhmac_sha256_context_update` (lines 888-949; messages at the calls from line 892, 938). -/
def nUpdateFill {w} (A : Alg w) (unrolled : Bool) (scr : Scr w) (c : Ctx w) (b : List Byte) (size : Nat) (ns : List Note) :
    Res (Int × Ctx w × Option (Nat × Nat) × List Note) :=
  if 0 < c.blockOffset then
    if A.blockSize ≤ c.blockOffset then .ok (-1, c, none, ns ++ [⟨.ctxUpdate, .rtOutOfBounds, .offsetOut⟩])
    else do
      let rem := szSub A.blockSize c.blockOffset
      let rem := if size < rem then size else rem
      let blk ← memCopy c.block c.blockOffset b 0 rem
      let c := { c with block := blk, blockOffset := c.blockOffset + rem }
      if c.blockOffset < A.blockSize then .ok (1, c, none, ns)
      else do
        let (n, c', _, ns) ← nTransform A unrolled scr (some c) (some c.block) A.blockSize ns
        match c' with
        | none => .ub
        | some c' =>
          if n = -1 then .ok (-1, c', none, ns ++ [⟨.ctxUpdate, .rtSetFailed, .transformBlock⟩])
          else .ok (1, { c' with hashCount := c'.hashCount + BitVec.ofInt 64 n, blockOffset := 0 }, some (rem, szSub size rem), ns)
  else .ok (1, c, some (0, size), ns)

/-- Second part of `libhmac_sha256_context_update` (lines 950-973; messages at the calls from line 960). -/
def nUpdateBulk {w} (A : Alg w) (unrolled : Bool) (scr : Scr w) (c : Ctx w) (b : List Byte) (bufferOffset size : Nat) (ns : List Note) :
    Res (Int × Ctx w × Nat × Nat × List Note) :=
  if 0 < size then do
    let p ← ptrAt b bufferOffset
    let (n, c', _, ns) ← nTransform A unrolled scr (some c) (some p) size ns
    match c' with
    | none => .ub
    | some c' =>
      if n = -1 then .ok (-1, c', bufferOffset, size, ns ++ [⟨.ctxUpdate, .rtSetFailed, .transformBuffer⟩])
      else .ok (1, { c' with hashCount := c'.hashCount + BitVec.ofInt 64 n }, bufferOffset + n.toNat, szSub size n.toNat, ns)
  else .ok (1, c, bufferOffset, size, ns)

/-- Last part of `libhmac_sha256_context_update` (lines 974-1003; messages at the calls from line 978). -/
def nUpdateTail {w} (A : Alg w) (c : Ctx w) (b : List Byte) (bufferOffset size : Nat) (ns : List Note) : Res (Int × Ctx w × List Note) :=
  if 0 < size then
    if A.blockSize ≤ size then .ok (-1, c, ns ++ [⟨.ctxUpdate, .rtOutOfBounds, .sizeOut⟩])
    else do
      let blk ← memCopy c.block 0 b bufferOffset size
      pure (1, { c with block := blk, blockOffset := size }, ns)
  else .ok (1, c, ns)

/-- `libhmac_sha256_context_update` (lines 837-1004; messages at the calls from line 851, 864, 875). -/
def nCtxUpdate {w} (A : Alg w) (unrolled : Bool) (scr : Scr w) (ctx : Option (Ctx w)) (buf : Option (List Byte)) (size : Nat) (ns : List Note) :
    Res (Int × Option (Ctx w) × List Note) :=
  match ctx, buf with
  | none, _ => .ok (-1, none, ns ++ [⟨.ctxUpdate, .argInvalid, .invalidContext⟩])
  | some c, none => .ok (-1, some c, ns ++ [⟨.ctxUpdate, .argInvalid, .invalidBuffer⟩])
  | some c, some b =>
    if ssizeMax < size then .ok (-1, some c, ns ++ [⟨.ctxUpdate, .argExceeds, .sizeExceeds⟩])
    else if size = 0 then .ok (1, some c, ns)
    else do
      let (r, c, next, ns) ← nUpdateFill A unrolled scr c b size ns
      match next with
      | none => pure (r, some c, ns)
      | some (bufferOffset, size) => do
        let (r, c, bufferOffset, size, ns) ← nUpdateBulk A unrolled scr c b bufferOffset size ns
        if r = -1 then pure (-1, some c, ns)
        else do
          let (r, c, ns) ← nUpdateTail A c b bufferOffset size ns
          pure (r, some c, ns)

/-- `libhmac_sha256_context_finalize` (lines 1159-1348; messages at the calls from line 1179, 1192, 1203, 1214, 1276). -/
def nCtxFinalize {w} (A : Alg w) (unrolled : Bool) (scr : Scr w) (ctx : Option (Ctx w)) (hash : Option (List Byte)) (hashSize : Nat) (ns : List Note) :
    Res (Int × Option (Ctx w) × Option (List Byte) × List Note) :=
  match ctx, hash with
  | none, h => .ok (-1, none, h, ns ++ [⟨.ctxFinalize, .argInvalid, .invalidContext⟩])
  | some c, none => .ok (-1, some c, none, ns ++ [⟨.ctxFinalize, .argInvalid, .invalidHash⟩])
  | some c, some h =>
    if hashSize < A.hashSize then .ok (-1, some c, some h, ns ++ [⟨.ctxFinalize, .argTooSmall, .hashTooSmall⟩])
    else if ssizeMax < hashSize then .ok (-1, some c, some h, ns ++ [⟨.ctxFinalize, .argExceeds, .hashExceeds⟩])
    else do
      let numberOfBlocks := if A.padLimit < c.blockOffset then 1 + 1 else 1
      let blockSize := numberOfBlocks * A.blockSize
      let blk ← memSet c.block c.blockOffset 0 (szSub blockSize c.blockOffset)
      let blk ← wr blk c.blockOffset 0x80
      let bitSize := (c.hashCount + BitVec.ofNat 64 c.blockOffset) * 8
      let blk ← runStore A.lenProg blk (blockSize - 8) bitSize
      let c := { c with block := blk }
      let (n, c', _, ns) ← nTransform A unrolled scr (some c) (some c.block) blockSize ns
      match c' with
      | none => .ub
      | some c' =>
        if n = -1 then .ok (-1, some c', some h, ns ++ [⟨.ctxFinalize, .rtSetFailed, .transformBlock⟩])
        else do
          let h ← storeHash A unrolled c'.hashValues h
          pure (1, some (zeroCtx A), some h, ns)

/-- `libhmac_sha256_context_initialize` (lines 456-619; messages at the calls from line 469, 480, 494). `context`: NULL, or the address of a variable. -/
def nInitialize {w} (A : Alg w) (env : Env w) (context : Option (Option Nat)) (s : St w) (ns : List Note) : Res (Int × Option (Option Nat) × St w × List Note) :=
  match context with
  | none => .ok (-1, none, s, ns ++ [⟨.ctxInitialize, .argInvalid, .invalidContext⟩])
  | some (some p) => .ok (-1, some (some p), s, ns ++ [⟨.ctxInitialize, .rtAlreadySet, .alreadySet⟩])
  | some none =>
    if env.allocOk s.count then do
      let hv ← memCopy (zeroCtx A).hashValues 0 A.iv 0 A.nHash
      pure (1, some (some s.count), { s with count := s.count + 1, live := (s.count, .ctx { zeroCtx A with hashValues := hv }) :: s.live }, ns)
    else .ok (-1, some none, { s with count := s.count + 1 }, ns ++ [⟨.ctxInitialize, .memInsufficient, .createContext⟩])

/-- `libhmac_sha256_context_free` (lines 624-683, messages at the calls from line 633). -/
def nFree {w} (context : Option (Option Nat)) (s : St w) (ns : List Note) : Res (Int × Option (Option Nat) × St w × List Note) :=
  match context with
  | none => .ok (-1, none, s, ns ++ [⟨.ctxFree, .argInvalid, .invalidContext⟩])
  | some none => .ok (1, some none, s, ns)
  | some (some p) => do
    let s ← memFree p s
    pure (1, some none, s, ns)

/-- `libhmac_*_context_update` on a context pointer. (libhmac/libhmac_sha256_context.c:837-1004.) -/
def nUpdate {w} (A : Alg w) (u : Bool) (env : Env w) (slot : Option Nat) (buf : Option (List Byte)) (size : Nat) (s : St w) (ns : List Note) : Res (Int × St w × List Note) :=
  match slot with
  | none => do
    let (r, _, ns) ← nCtxUpdate A u env.scr none buf size ns
    pure (r, s, ns)
  | some p => match getKey p s.live with
    | some (.ctx c) => do
      let (r, c', ns) ← nCtxUpdate A u env.scr (some c) buf size ns
      match c' with
      | some c' => pure (r, { s with live := setKey p (.ctx c') s.live }, ns)
      | none => .ub
    | _ => .ub

/-- `libhmac_*_context_finalize` on a context pointer: also returns the new contents of the output. (libhmac/libhmac_sha256_context.c:1159-1348.) -/
def nFinalize {w} (A : Alg w) (u : Bool) (env : Env w) (slot : Option Nat) (hash : Option (List Byte)) (hashSize : Nat) (s : St w) (ns : List Note) :
    Res (Int × Option (List Byte) × St w × List Note) :=
  match slot with
  | none => do
    let (r, _, h, ns) ← nCtxFinalize A u env.scr none hash hashSize ns
    pure (r, h, s, ns)
  | some p => match getKey p s.live with
    | some (.ctx c) => do
      let (r, c', h, ns) ← nCtxFinalize A u env.scr (some c) hash hashSize ns
      match c' with
      | some c' => pure (r, h, { s with live := setKey p (.ctx c') s.live }, ns)
      | none => .ub
    | _ => .ub

/-- A call that noteFailed: the caller's message is recorded after those of the call (for example lines 154-165 of libhmac_sha256.c). -/
def noteFailed (r : Int) (e : Note) (ns : List Note) : List Note := if r ≠ 1 then ns ++ [e] else ns

/-- `libhmac_*_context_initialize( &context, error )` of a local variable, with the message of the caller (`fn`). (libhmac/libhmac_sha256_context.c:456-619, called at libhmac/libhmac_sha256.c:153, 324, 475, 546.) -/
def nLocalInit {w} (fn : Fn) (A : Alg w) (env : Env w) (slot : Option Nat) (s : St w) (ns : List Note) : Res (Int × Option Nat × St w × List Note) := do
  let (r, c, s, ns) ← nInitialize A env (some slot) s ns
  match c with
  | some slot => pure (r, slot, s, noteFailed r ⟨fn, .rtInitializeFailed, .initialize⟩ ns)
  | none => .ub

/-- `libhmac_*_context_free( &context, error )` of a local variable, with the message of the caller (`fn`). (libhmac/libhmac_sha256_context.c:624-683, called at libhmac/libhmac_sha256.c:196, 214, 367, 533, 604, 679.) -/
def nLocalFree {w} (fn : Fn) (slot : Option Nat) (s : St w) (ns : List Note) : Res (Int × Option Nat × St w × List Note) := do
  let (r, c, s, ns) ← nFree (some slot) s ns
  match c with
  | some slot => pure (r, slot, s, noteFailed r ⟨fn, .rtFinalizeFailed, .free⟩ ns)
  | none => .ub

/-- `libhmac_*_calculate` (libhmac_sha256.c:143-219). -/
def nCalculate {w} (A : Alg w) (u : Bool) (env : Env w) (buffer : Option Nat) (size : Nat) (hash : Option Nat) (hashSize : Nat) (s : St w) (ns : List Note) :
    Res (Int × St w × List Note) := do
  let (r, context, s, ns) ← nLocalInit .calculate A env none s ns
  if r ≠ 1 then do
    let (r, s) ← calculateError context s
    pure (r, s, ns)
  else do
    let (r, s, ns) ← nUpdate A u env context (region s buffer size) size s ns
    let ns := noteFailed r ⟨.calculate, .rtSetFailed, .update⟩ ns
    if r ≠ 1 then do
      let (r, s) ← calculateError context s
      pure (r, s, ns)
    else do
      let (r, h, s, ns) ← nFinalize A u env context (region s hash hashSize) hashSize s ns
      let ns := noteFailed r ⟨.calculate, .rtFinalizeFailed, .finalize⟩ ns
      let s := setRegion s hash h
      if r ≠ 1 then do
        let (r, s) ← calculateError context s
        pure (r, s, ns)
      else do
        let (r, context, s, ns) ← nLocalFree .calculate context s ns
        if r ≠ 1 then do
          let (r, s) ← calculateError context s
          pure (r, s, ns)
        else pure (1, s, ns)

/-- Lines 277-411 of `libhmac_*_calculate_hmac`: the key. `false`: `goto on_error`. -/
def nHmacKey {w} (A : Alg w) (u : Bool) (env : Env w) (key : Option Nat) (keySize : Nat) (l : Loc) (s : St w) (ns : List Note) : Res (Bool × Loc × St w × List Note) := do
  let (p, s) := allocBytes env A.hmacBlockSize s
  let l := { l with keyData := p }
  match p with
  | none => pure (false, l, s, ns ++ [⟨.calculateHmac, .memInsufficient, .createKey⟩])
  | some _ =>
    if keySize ≤ A.hmacBlockSize then
      match region s key keySize with
      | none => .ub
      | some k => do
        let d ← loadBytes l.keyData s
        let d ← memCopy d 0 k 0 keySize
        let d ← memSet d keySize 0 (szSub A.hmacBlockSize keySize)
        let s ← storeBytes l.keyData d s
        pure (true, l, s, ns)
    else do
      let (r, context, s, ns) ← nLocalInit .calculateHmac A env l.context s ns
      let l := { l with context := context }
      if r ≠ 1 then pure (false, l, s, ns)
      else do
        let (r, s, ns) ← nUpdate A u env l.context (region s key keySize) keySize s ns
        let ns := noteFailed r ⟨.calculateHmac, .rtSetFailed, .update⟩ ns
        if r ≠ 1 then pure (false, l, s, ns)
        else do
          let (r, h, s, ns) ← nFinalize A u env l.context (some l.keyHash) A.hashSize s ns
          let ns := noteFailed r ⟨.calculateHmac, .rtFinalizeFailed, .finalize⟩ ns
          match h with
          | none => .ub
          | some h =>
            let l := { l with keyHash := h }
            if r ≠ 1 then pure (false, l, s, ns)
            else do
              let (r, context, s, ns) ← nLocalFree .calculateHmac l.context s ns
              let l := { l with context := context }
              if r ≠ 1 then pure (false, l, s, ns)
              else do
                let d ← loadBytes l.keyData s
                let d ← if A.hashSize < A.hmacBlockSize then memSet d A.hashSize 0 (szSub A.hmacBlockSize A.hashSize) else pure d
                let d ← memCopy d 0 l.keyHash 0 A.hashSize
                let s ← storeBytes l.keyData d s
                pure (true, l, s, ns)

/-- Lines 412-474: the paddings. -/
def nHmacPads {w} (A : Alg w) (env : Env w) (l : Loc) (s : St w) (ns : List Note) : Res (Bool × Loc × St w × List Note) := do
  let (p, s) := allocBytes env A.hmacBlockSize s
  let l := { l with inner := p }
  match p with
  | none => pure (false, l, s, ns ++ [⟨.calculateHmac, .memInsufficient, .createInner⟩])
  | some _ => do
    let d ← loadBytes l.inner s
    let d ← memSet d 0 0x36 A.hmacBlockSize
    let s ← storeBytes l.inner d s
    let (p, s) := allocBytes env A.hmacBlockSize s
    let l := { l with outer := p }
    match p with
    | none => pure (false, l, s, ns ++ [⟨.calculateHmac, .memInsufficient, .createOuter⟩])
    | some _ => do
      let d ← loadBytes l.outer s
      let d ← memSet d 0 0x5c A.hmacBlockSize
      let s ← storeBytes l.outer d s
      let kd ← loadBytes l.keyData s
      let i ← loadBytes l.inner s
      let o ← loadBytes l.outer s
      let (i, o) ← xorPads A.hmacBlockSize kd i o
      let s ← storeBytes l.inner i s
      let s ← storeBytes l.outer o s
      pure (true, l, s, ns)

/-- Lines 475-545 and 546-616: a pass. -/
def nHmacPass {w} (A : Alg w) (u : Bool) (env : Env w) (padding : Option Nat) (buffer : Option Nat) (size : Nat) (hmac : Option Nat) (hmacSize : Nat)
    (l : Loc) (s : St w) (ns : List Note) : Res (Bool × Loc × St w × List Note) := do
  let (r, context, s, ns) ← nLocalInit .calculateHmac A env l.context s ns
  let l := { l with context := context }
  if r ≠ 1 then pure (false, l, s, ns)
  else do
    let d ← loadBytes padding s
    let (r, s, ns) ← nUpdate A u env l.context (some d) A.hmacBlockSize s ns
    let ns := noteFailed r ⟨.calculateHmac, .rtSetFailed, .update⟩ ns
    if r ≠ 1 then pure (false, l, s, ns)
    else do
      let (r, s, ns) ← nUpdate A u env l.context (region s buffer size) size s ns
      let ns := noteFailed r ⟨.calculateHmac, .rtSetFailed, .update⟩ ns
      if r ≠ 1 then pure (false, l, s, ns)
      else do
        let (r, h, s, ns) ← nFinalize A u env l.context (region s hmac hmacSize) hmacSize s ns
        let ns := noteFailed r ⟨.calculateHmac, .rtFinalizeFailed, .finalize⟩ ns
        let s := setRegion s hmac h
        if r ≠ 1 then pure (false, l, s, ns)
        else do
          let (r, context, s, ns) ← nLocalFree .calculateHmac l.context s ns
          let l := { l with context := context }
          if r ≠ 1 then pure (false, l, s, ns) else pure (true, l, s, ns)

/-- `libhmac_*_calculate_hmac` (libhmac_sha256.c:225-714; messages at the calls from line 247, 258, 269). -/
def nCalculateHmac {w} (A : Alg w) (u : Bool) (env : Env w) (keyHash : List Byte) (key : Option Nat) (keySize : Nat) (buffer : Option Nat) (size : Nat)
    (hmac : Option Nat) (hmacSize : Nat) (s : St w) (ns : List Note) : Res (Int × Loc × St w × List Note) :=
  let l : Loc := ⟨none, none, none, none, keyHash⟩
  match key with
  | none => .ok (-1, l, s, ns ++ [⟨.calculateHmac, .argInvalid, .invalidKey⟩])
  | some k =>
    if ssizeMax < keySize then .ok (-1, l, s, ns ++ [⟨.calculateHmac, .argExceeds, .keyExceeds⟩])
    else if hmacSize < A.hashSize then .ok (-1, l, s, ns ++ [⟨.calculateHmac, .argTooSmall, .hmacTooSmall⟩])
    else do
      let (ok, l, s, ns) ← nHmacKey A u env (some k) keySize l s ns
      if !ok then do
        let (r, l, s) ← hmacError A l s
        pure (r, l, s, ns)
      else do
        let (ok, l, s, ns) ← nHmacPads A env l s ns
        if !ok then do
          let (r, l, s) ← hmacError A l s
          pure (r, l, s, ns)
        else do
          let (ok, l, s, ns) ← nHmacPass A u env l.inner buffer size hmac hmacSize l s ns
          if !ok then do
            let (r, l, s) ← hmacError A l s
            pure (r, l, s, ns)
          else do
            let (ok, l, s, ns) ← nHmacPass A u env l.outer hmac A.hashSize hmac hmacSize l s ns
            if !ok then do
              let (r, l, s) ← hmacError A l s
              pure (r, l, s, ns)
            else do
              let s ← wipeFree A l.outer s
              let l := { l with outer := none }
              let s ← wipeFree A l.inner s
              let l := { l with inner := none }
              let s ← wipeFree A l.keyData s
              let l := { l with keyData := none }
              pure (1, l, s, ns)

/-- One call of a client that keeps its context in a variable (`slot`). (The functions of include/libhmac.h.in:468-503; the client is not code of /repo.) -/
def nStep {w} (A : Alg w) (u : Bool) (env : Env w) (call : ApiCall) (scr : Scr w) (slot : Option Nat) (s : St w) (ns : List Note) : Res (Reply × Option Nat × St w × List Note) :=
  match call with
  | .init => do
    let (r, c, s, ns) ← nInitialize A env (some slot) s ns
    match c with
    | some slot => pure (⟨r, none⟩, slot, s, ns)
    | none => .ub
  | .initNull => do
    let (r, _, s, ns) ← nInitialize A env none s ns
    pure (⟨r, none⟩, slot, s, ns)
  | .free => do
    let (r, c, s, ns) ← nFree (some slot) s ns
    match c with
    | some slot => pure (⟨r, none⟩, slot, s, ns)
    | none => .ub
  | .freeNull => do
    let (r, _, s, ns) ← nFree none s ns
    pure (⟨r, none⟩, slot, s, ns)
  | .update buf size => do
    let (r, s, ns) ← nUpdate A u { env with scr := scr } slot buf size s ns
    pure (⟨r, none⟩, slot, s, ns)
  | .finalize out size => do
    let (r, out, s, ns) ← nFinalize A u { env with scr := scr } slot out size s ns
    pure (⟨r, out⟩, slot, s, ns)

/-- `libhmac_*_initialize` (libhmac_sha256.c:35-55, messages at the calls from line 45). -/
def nDepInitialize {w} (A : Alg w) (env : Env w) (context : Option (Option Nat)) (s : St w) (ns : List Note) : Res (Int × Option (Option Nat) × St w × List Note) := do
  let (r, context, s, ns) ← nInitialize A env context s ns
  if r ≠ 1 then pure (-1, context, s, ns ++ [⟨.initialize, .rtInitializeFailed, .initialize⟩]) else pure (1, context, s, ns)

/-- `libhmac_*_free` (libhmac_sha256.c:60-80, messages at the calls from line 70). -/
def nDepFree {w} (context : Option (Option Nat)) (s : St w) (ns : List Note) : Res (Int × Option (Option Nat) × St w × List Note) := do
  let (r, context, s, ns) ← nFree context s ns
  if r ≠ 1 then pure (-1, context, s, ns ++ [⟨.free, .rtFinalizeFailed, .free⟩]) else pure (1, context, s, ns)

/-- `libhmac_*_update` (libhmac_sha256.c:85-109, messages at the calls from line 99). -/
def nDepUpdate {w} (A : Alg w) (u : Bool) (env : Env w) (slot : Option Nat) (buf : Option (List Byte)) (size : Nat) (s : St w) (ns : List Note) : Res (Int × St w × List Note) := do
  let (r, s, ns) ← nUpdate A u env slot buf size s ns
  if r ≠ 1 then pure (-1, s, ns ++ [⟨.update, .rtSetFailed, .update⟩]) else pure (1, s, ns)

/-- `libhmac_*_finalize` (libhmac_sha256.c:114-138, messages at the calls from line 128). -/
def nDepFinalize {w} (A : Alg w) (u : Bool) (env : Env w) (slot : Option Nat) (hash : Option (List Byte)) (hashSize : Nat) (s : St w) (ns : List Note) :
    Res (Int × Option (List Byte) × St w × List Note) := do
  let (r, h, s, ns) ← nFinalize A u env slot hash hashSize s ns
  if r ≠ 1 then pure (-1, h, s, ns ++ [⟨.finalize, .rtFinalizeFailed, .finalize⟩]) else pure (1, h, s, ns)

/-- One call through the deprecated set of functions. (libhmac/libhmac_sha256.c:35-138; the client is not code of /repo.) -/
def nDepStep {w} (A : Alg w) (u : Bool) (env : Env w) (call : ApiCall) (scr : Scr w) (slot : Option Nat) (s : St w) (ns : List Note) : Res (Reply × Option Nat × St w × List Note) :=
  match call with
  | .init => do
    let (r, c, s, ns) ← nDepInitialize A env (some slot) s ns
    match c with
    | some slot => pure (⟨r, none⟩, slot, s, ns)
    | none => .ub
  | .initNull => do
    let (r, _, s, ns) ← nDepInitialize A env none s ns
    pure (⟨r, none⟩, slot, s, ns)
  | .free => do
    let (r, c, s, ns) ← nDepFree (some slot) s ns
    match c with
    | some slot => pure (⟨r, none⟩, slot, s, ns)
    | none => .ub
  | .freeNull => do
    let (r, _, s, ns) ← nDepFree none s ns
    pure (⟨r, none⟩, slot, s, ns)
  | .update buf size => do
    let (r, s, ns) ← nDepUpdate A u { env with scr := scr } slot buf size s ns
    pure (⟨r, none⟩, slot, s, ns)
  | .finalize out size => do
    let (r, out, s, ns) ← nDepFinalize A u { env with scr := scr } slot out size s ns
    pure (⟨r, out⟩, slot, s, ns)

/-- A client program that passes an empty error to each call, and says for each call which set of functions it uses (`true`: the deprecated one): the replies with the messages of each call. (A client of include/libhmac.h.in:468-560; not code of /repo.) -/
def nRun {w} (A : Alg w) (u : Bool) (env : Env w) : List (Bool × ApiCall × Scr w) → Option Nat → St w → Res (List (Reply × List Note) × Option Nat × St w)
  | [], slot, s => .ok ([], slot, s)
  | (dep, c, scr) :: cs, slot, s => do
    let (r, slot, s, ns) ← (if dep then nDepStep A u env c scr slot s [] else nStep A u env c scr slot s [])
    let (rs, slot, s) ← nRun A u env cs slot s
    pure ((r, ns) :: rs, slot, s)

/-- The names of the functions, by algorithm: `static char *function` of each (for example libhmac_sha256_context.c:236, 461, 629, 844, 1166; libhmac_sha256.c:39, 64, 91, 120, 151, 240). `algorithm`: the part of the names that tells it. -/
def algorithmName : Spec.Kind → String
  | .md5 => "md5"
  | .sha1 => "sha1"
  | .sha224 => "sha224"
  | .sha256 => "sha256"
  | .sha512 => "sha512"

/-- The part of a function's name after that of the algorithm. (libhmac_sha256_context.c:227, 456, 624, 837, 1159; libhmac_sha256.c:35, 60, 85, 114, 143, 225.) -/
def fnName : Fn → String
  | .transform => "context_transform"
  | .ctxInitialize => "context_initialize"
  | .ctxFree => "context_free"
  | .ctxUpdate => "context_update"
  | .ctxFinalize => "context_finalize"
  | .initialize => "initialize"
  | .free => "free"
  | .update => "update"
  | .finalize => "finalize"
  | .calculate => "calculate"
  | .calculateHmac => "calculate_hmac"

/-- The name of a function, as in its variable `function`. (For example libhmac_sha256_context.c:236.) -/
def functionName (k : Spec.Kind) (fn : Fn) : String := "libhmac_" ++ algorithmName k ++ "_" ++ fnName fn

/-- The texts (libhmac_sha256_context.c:254, 473, 484, 498, 265, 276, 982, 896, 942, 964, 1196, 1207, 1218; libhmac_sha256.c:250, 261, 272, 286, 421, 449, 49, 74, 103, 132). For a hash size that is too small the text of MD5 is
another (libhmac_md5_context.c:1186). The last three (libhmac_sha256_context.c:549, 660, 1130) do not occur in the built-in code. -/
def txtText (k : Spec.Kind) : Txt → String
  | .invalidInternal => "invalid internal context."
  | .invalidContext => "invalid context."
  | .alreadySet => "invalid context value already set."
  | .createContext => "unable to create context."
  | .invalidBuffer => "invalid buffer."
  | .sizeExceeds => "invalid size value exceeds maximum."
  | .sizeOut => "invalid size value out of bounds."
  | .offsetOut => "invalid context - block offset value out of bounds."
  | .transformBlock => "unable to transform context block."
  | .transformBuffer => "unable to transform buffer."
  | .invalidHash => "invalid hash."
  | .hashTooSmall => match k with
    | .md5 => "invalid hash size value too small."
    | _ => "invalid hash value too small."
  | .hashExceeds => "invalid hash size value exceeds maximum."
  | .invalidKey => "invalid key."
  | .keyExceeds => "invalid key size value exceeds maximum."
  | .hmacTooSmall => "invalid HMAC size value too small."
  | .createKey => "unable to create key data."
  | .createInner => "unable to create inner padding."
  | .createOuter => "unable to create outer padding."
  | .initialize => "unable to initialize context."
  | .free => "unable to free context."
  | .update => "unable to update context."
  | .finalize => "unable to finalize context."
  | .createEvp => "unable to create EVP message digest context."
  | .cleanUp => "unable to clean up EVP message digest context."
  | .hashOut => "invalid hash size value out of bounds."

/-- A message as it is recorded: the format "%s: " with the name of the function, and the text. (For example libhmac_sha256_context.c:702-707.) -/
def noteText (k : Spec.Kind) (n : Note) : String := functionName k n.fn ++ ": " ++ txtText k n.txt

end Model
