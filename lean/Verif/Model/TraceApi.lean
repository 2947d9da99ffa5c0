import Verif.Model.Trace
import Verif.Model.Kinds
/-! The context functions, the sequences of API calls and the one-shot functions with their observations (Model/Trace). Line numbers are those of
libhmac_sha256_context.c and libhmac_sha256.c, as in Model/Context and Model/Calculate. -/

namespace Model

open Spec (ApiCall Reply Kind)

/-- An implementation and its block function with observations; the first argument of the latter names the array that is transformed. (See `Alg`: libhmac/libhmac_{md5,sha1,sha224,sha256,sha512}_context.c.) For SHA-256 lines 227-448. -/
structure TAlg (w : Nat) where
  alg : Alg w
  blockFn : Arr → Bool → List (BitVec w) → List Byte → Nat → Scr w → Tr (List (BitVec w) × Nat × Scr w)

/-- `Model.algOf` with the block functions of Model/Trace (libhmac/libhmac_{md5,sha1,sha224,sha256,sha512}_context.c). -/
def talgOf : (k : Kind) → TAlg k.width
  | .md5 => ⟨md5, tMd5Block⟩
  | .sha1 => ⟨sha1, tSha1Block⟩
  | .sha224 => ⟨sha224, tSha2Block sha224P⟩
  | .sha256 => ⟨sha256, tSha2Block sha256P⟩
  | .sha512 => ⟨sha512, tSha2Block sha512P⟩

/-- A NULL test. (For example libhmac/libhmac_sha256_context.c:248 and 259.) -/
def tNull {α} (p : Option α) : Tr Unit := ⟨[.branch p.isNone], .ok ()⟩

/-- `Model.zeroCtx` (lines 503-506, 1333-1336); of the context only the arrays are observed. -/
def tZeroCtx {w} (A : Alg w) : Tr (Ctx w) := ⟨[.set .state 0 A.nHash, .set .block 0 (2 * A.blockSize)], .ok (zeroCtx A)⟩

/-- `Model.ctxInitialize` (lines 456-619). -/
def tCtxInitialize {w} (A : Alg w) (alloc : Option (Ctx w)) (context : Option (Option (Ctx w))) : Tr (Int × Option (Option (Ctx w))) := do
  tNull context
  match context with
  | none => pure (-1, none)
  | some none => do
    tNull (none : Option (Ctx w))
    tNull alloc
    match alloc with
    | none => pure (-1, some none)
    | some _ => do
      let c ← tZeroCtx A
      let hv ← tCopy .state c.hashValues 0 .table A.iv 0 A.nHash
      pure (1, some (some { c with hashValues := hv }))
  | some (some c) => do
    tNull (some c)
    pure (-1, some (some c))

/-- `Model.transformLoop` (lines 281-403). -/
def tTransformLoop {w} (T : TAlg w) (n : Arr) (unrolled : Bool) (buf : List Byte) : Nat → Nat → Nat → List (BitVec w) → Scr w → Tr (List (BitVec w) × Nat × Scr w)
  | fuel, size, off, hv, scr => do
    if ← tBranch (T.alg.blockSize ≤ size) then
      match fuel with
      | 0 => .diverge
      | fuel + 1 => do
        let (hv, off, scr) ← T.blockFn n unrolled hv buf off scr
        tTransformLoop T n unrolled buf fuel (szSub size T.alg.blockSize) off hv scr
    else pure (hv, off, scr)

/-- `Model.transform` (lines 227-448). -/
def tTransform {w} (T : TAlg w) (n : Arr) (unrolled : Bool) (scr : Scr w) (ctx : Option (Ctx w)) (buf : Option (List Byte)) (size : Nat) :
    Tr (Int × Option (Ctx w) × Scr w) := do
  tNull ctx
  match ctx with
  | none => pure (-1, none, scr)
  | some c => do
    tNull buf
    match buf with
    | none => pure (-1, some c, scr)
    | some b =>
      if ← tBranch (ssizeMax < size) then pure (-1, some c, scr)
      else do
        let (hv, off, scr) ← tTransformLoop T n unrolled b (size + 1) size 0 c.hashValues scr
        let shv ← tSet .work scr.hv 0 0 T.alg.wipeHv
        let svals ← tSet .sched scr.vals 0 0 T.alg.wipeVals
        pure ((off : Int), some { c with hashValues := hv }, ⟨shv, svals⟩)

/-- `Model.updateFill` (lines 888-949). -/
def tUpdateFill {w} (T : TAlg w) (unrolled : Bool) (scr : Scr w) (c : Ctx w) (b : List Byte) (size : Nat) : Tr (Int × Ctx w × Option (Nat × Nat)) := do
  if ← tBranch (0 < c.blockOffset) then
    if ← tBranch (T.alg.blockSize ≤ c.blockOffset) then pure (-1, c, none)
    else do
      let less ← tBranch (size < szSub T.alg.blockSize c.blockOffset)
      let rem := if less then size else szSub T.alg.blockSize c.blockOffset
      let blk ← tCopy .block c.block c.blockOffset .input b 0 rem
      let c := { c with block := blk, blockOffset := c.blockOffset + rem }
      if ← tBranch (c.blockOffset < T.alg.blockSize) then pure (1, c, none)
      else do
        let (n, c', _) ← tTransform T .block unrolled scr (some c) (some c.block) T.alg.blockSize
        match c' with
        | none => .ub
        | some c' =>
          if ← tBranch (n = -1) then pure (-1, c', none)
          else pure (1, { c' with hashCount := c'.hashCount + BitVec.ofInt 64 n, blockOffset := 0 }, some (rem, szSub size rem))
  else pure (1, c, some (0, size))

/-- `Model.updateBulk` (lines 950-973). -/
def tUpdateBulk {w} (T : TAlg w) (unrolled : Bool) (scr : Scr w) (c : Ctx w) (b : List Byte) (bufferOffset size : Nat) : Tr (Int × Ctx w × Nat × Nat) := do
  if ← tBranch (0 < size) then
    let p ← tPtrAt b bufferOffset
    let (n, c', _) ← tTransform T .input unrolled scr (some c) (some p) size
    match c' with
    | none => .ub
    | some c' =>
      if ← tBranch (n = -1) then pure (-1, c', bufferOffset, size)
      else pure (1, { c' with hashCount := c'.hashCount + BitVec.ofInt 64 n }, bufferOffset + n.toNat, szSub size n.toNat)
  else pure (1, c, bufferOffset, size)

/-- `Model.updateTail` (lines 974-1003). -/
def tUpdateTail {w} (T : TAlg w) (c : Ctx w) (b : List Byte) (bufferOffset size : Nat) : Tr (Int × Ctx w) := do
  if ← tBranch (0 < size) then
    if ← tBranch (T.alg.blockSize ≤ size) then pure (-1, c)
    else do
      let blk ← tCopy .block c.block 0 .input b bufferOffset size
      pure (1, { c with block := blk, blockOffset := size })
  else pure (1, c)

/-- `Model.ctxUpdate` (lines 837-1004). -/
def tCtxUpdate {w} (T : TAlg w) (unrolled : Bool) (scr : Scr w) (ctx : Option (Ctx w)) (buf : Option (List Byte)) (size : Nat) : Tr (Int × Option (Ctx w)) := do
  tNull ctx
  match ctx with
  | none => pure (-1, none)
  | some c => do
    tNull buf
    match buf with
    | none => pure (-1, some c)
    | some b =>
      if ← tBranch (ssizeMax < size) then pure (-1, some c)
      else if ← tBranch (size = 0) then pure (1, some c)
      else do
        let (r, c, next) ← tUpdateFill T unrolled scr c b size
        match next with
        | none => pure (r, some c)
        | some (bufferOffset, size) => do
          let (r, c, bufferOffset, size) ← tUpdateBulk T unrolled scr c b bufferOffset size
          if ← tBranch (r = -1) then pure (-1, some c)
          else do
            let (r, c) ← tUpdateTail T c b bufferOffset size
            pure (r, some c)

/-- `Model.storeHash` (lines 1285-1329). -/
def tStoreHash {w} (A : Alg w) (unrolled : Bool) (hv : List (BitVec w)) (hash : List Byte) : Tr (List Byte) :=
  if unrolled then
    tRunTable (fun r h => tRd .state hv r.2 >>= fun v => tRunStore .output A.wordProg h r.1 v) A.storeRows hash
  else do
    let (h, _) ← tForLoop 0 A.outWords (fun i (s : List Byte × Nat) => do
      let v ← tRd .state hv i
      let h ← tRunStore .output A.wordProg s.1 s.2 v
      pure (h, s.2 + A.wordSize)) (hash, 0)
    pure h

/-- `Model.ctxFinalize` (lines 1159-1348). -/
def tCtxFinalize {w} (T : TAlg w) (unrolled : Bool) (scr : Scr w) (ctx : Option (Ctx w)) (hash : Option (List Byte)) (hashSize : Nat) :
    Tr (Int × Option (Ctx w) × Option (List Byte)) := do
  tNull ctx
  match ctx with
  | none => pure (-1, none, hash)
  | some c => do
    tNull hash
    match hash with
    | none => pure (-1, some c, none)
    | some h =>
      if ← tBranch (hashSize < T.alg.hashSize) then pure (-1, some c, some h)
      else if ← tBranch (ssizeMax < hashSize) then pure (-1, some c, some h)
      else do
        let two ← tBranch (T.alg.padLimit < c.blockOffset)
        let numberOfBlocks := if two then 1 + 1 else 1
        let blockSize := numberOfBlocks * T.alg.blockSize
        let blk ← tSet .block c.block c.blockOffset 0 (szSub blockSize c.blockOffset)
        let blk ← tWr .block blk c.blockOffset 0x80
        let bitSize := (c.hashCount + BitVec.ofNat 64 c.blockOffset) * 8
        let blk ← tRunStore .block T.alg.lenProg blk (blockSize - 8) bitSize
        let c := { c with block := blk }
        let (n, c', _) ← tTransform T .block unrolled scr (some c) (some c.block) blockSize
        match c' with
        | none => .ub
        | some c' =>
          if ← tBranch (n = -1) then pure (-1, some c', some h)
          else do
            let h ← tStoreHash T.alg unrolled c'.hashValues h
            let z ← tZeroCtx T.alg
            pure (1, some z, some h)

/-- `Model.allocBytes` (common/memory.h:50-57): the size and the outcome are observed. -/
def tAllocBytes {w} (env : Env w) (n : Nat) (s : St w) : Tr (Option Nat × St w) := ⟨[.alloc n, .branch (env.allocOk s.count)], .ok (allocBytes env n s)⟩

/-- `Model.memFree` (common/memory.h:90-101). -/
def tMemFree {w} (p : Nat) (s : St w) : Tr (St w) := ⟨[.free p], memFree p s⟩

/-- `Model.loadBytes`: the pointer is observed. (libhmac/libhmac_sha256.c:277, 412, 440.) -/
def tLoadBytes {w} (p : Option Nat) (s : St w) : Tr (List Byte) := ⟨[.deref p], loadBytes p s⟩

/-- `Model.storeBytes` (libhmac/libhmac_sha256.c:277, 412, 440.) -/
def tStoreBytes {w} (p : Option Nat) (b : List Byte) (s : St w) : Tr (St w) := ⟨[.deref p], storeBytes p b s⟩

/-- `Model.hInitialize` (lines 456-619). -/
def tHInitialize {w} (A : Alg w) (env : Env w) (slot : Option Nat) (s : St w) : Tr (Int × Option Nat × St w) :=
  match slot with
  | some p => do
    let (r, _) ← tCtxInitialize A none (some (some (zeroCtx A)))
    pure (r, some p, s)
  | none => do
    if ← tBranch (env.allocOk s.count = true) then
      let (r, c) ← tCtxInitialize A (some (env.junkCtx s.count)) (some none)
      match c with
      | some (some c) => pure (r, some s.count, { s with count := s.count + 1, live := (s.count, .ctx c) :: s.live })
      | _ => .ub
    else
      let (r, _) ← tCtxInitialize A none (some none)
      pure (r, none, { s with count := s.count + 1 })

/-- `Model.hFree` (lines 624-683). -/
def tHFree {w} (slot : Option Nat) (s : St w) : Tr (Int × Option Nat × St w) := do
  tNull slot
  match slot with
  | none => pure (1, none, s)
  | some p => do
    let s ← tMemFree p s
    pure (1, none, s)

/-- `Model.hUpdate` (lines 837-1004). -/
def tHUpdate {w} (T : TAlg w) (u : Bool) (env : Env w) (slot : Option Nat) (buf : Option (List Byte)) (size : Nat) (s : St w) : Tr (Int × St w) :=
  match slot with
  | none => do
    let (r, _) ← tCtxUpdate T u env.scr none buf size
    pure (r, s)
  | some p => ⟨[.deref (some p)], .ok ()⟩ >>= fun _ => match getKey p s.live with
    | some (.ctx c) => do
      let (r, c') ← tCtxUpdate T u env.scr (some c) buf size
      match c' with
      | some c' => pure (r, { s with live := setKey p (.ctx c') s.live })
      | none => .ub
    | _ => .ub

/-- `Model.hFinalize` (lines 1159-1348). -/
def tHFinalize {w} (T : TAlg w) (u : Bool) (env : Env w) (slot : Option Nat) (hash : Option (List Byte)) (hashSize : Nat) (s : St w) : Tr (Int × Option (List Byte) × St w) :=
  match slot with
  | none => do
    let (r, _, h) ← tCtxFinalize T u env.scr none hash hashSize
    pure (r, h, s)
  | some p => ⟨[.deref (some p)], .ok ()⟩ >>= fun _ => match getKey p s.live with
    | some (.ctx c) => do
      let (r, c', h) ← tCtxFinalize T u env.scr (some c) hash hashSize
      match c' with
      | some c' => pure (r, h, { s with live := setKey p (.ctx c') s.live })
      | none => .ub
    | _ => .ub

/-- `Model.region`: the address and the size of the area are observed. (libhmac/libhmac_sha256.c:143-148 and 225-232.) -/
def tRegion {w} (s : St w) (p : Option Nat) (size : Nat) : Tr (Option (List Byte)) := ⟨[.area p size], .ok (region s p size)⟩

/-! ## Sequences of calls -/

/-- `Model.apiInitialize` (lines 456-619). -/
def tApiInitialize {w} (A : Alg w) (env : Env w) (context : Option (Option Nat)) (s : St w) : Tr (Int × Option (Option Nat) × St w) :=
  match context with
  | none => do
    let (r, _) ← tCtxInitialize A none none
    pure (r, none, s)
  | some slot => do
    let (r, slot, s) ← tHInitialize A env slot s
    pure (r, some slot, s)

/-- `Model.apiFree` (lines 624-683). -/
def tApiFree {w} (context : Option (Option Nat)) (s : St w) : Tr (Int × Option (Option Nat) × St w) := do
  tNull context
  match context with
  | none => pure (-1, none, s)
  | some slot => do
    let (r, slot, s) ← tHFree slot s
    pure (r, some slot, s)

/-- `Model.step` (lines 456-619, 624-683, 837-1004, 1159-1348). -/
def tStep {w} (T : TAlg w) (u : Bool) (env : Env w) (call : ApiCall) (scr : Scr w) (slot : Option Nat) (s : St w) : Tr (Reply × Option Nat × St w) :=
  match call with
  | .init => do
    let (r, c, s) ← tApiInitialize T.alg env (some slot) s
    match c with
    | some slot => pure (⟨r, none⟩, slot, s)
    | none => .ub
  | .initNull => do
    let (r, _, s) ← tApiInitialize T.alg env none s
    pure (⟨r, none⟩, slot, s)
  | .free => do
    let (r, c, s) ← tApiFree (some slot) s
    match c with
    | some slot => pure (⟨r, none⟩, slot, s)
    | none => .ub
  | .freeNull => do
    let (r, _, s) ← tApiFree none s
    pure (⟨r, none⟩, slot, s)
  | .update buf size => do
    let (r, s) ← tHUpdate T u { env with scr := scr } slot buf size s
    pure (⟨r, none⟩, slot, s)
  | .finalize out size => do
    let (r, out, s) ← tHFinalize T u { env with scr := scr } slot out size s
    pure (⟨r, out⟩, slot, s)

/-- `Model.run`: a client program. (A client of include/libhmac.h.in:468-503; not code of /repo.) -/
def tRun {w} (T : TAlg w) (u : Bool) (env : Env w) : List (ApiCall × Scr w) → Option Nat → St w → Tr (List Reply × Option Nat × St w)
  | [], slot, s => pure ([], slot, s)
  | (c, scr) :: cs, slot, s => do
    let (r, slot, s) ← tStep T u env c scr slot s
    let (rs, slot, s) ← tRun T u env cs slot s
    pure (r :: rs, slot, s)

/-! ## One-shot functions -/

/-- `Model.calculateError` (libhmac/libhmac_sha256.c:211-218). -/
def tCalculateError {w} (context : Option Nat) (s : St w) : Tr (Int × St w) := do
  tNull context
  match context with
  | none => pure (-1, s)
  | some p => do
    let (_, _, s) ← tHFree (some p) s
    pure (-1, s)

/-- `Model.calculate` (libhmac/libhmac_sha256.c:143-219). -/
def tCalculate {w} (T : TAlg w) (u : Bool) (env : Env w) (buffer : Option Nat) (size : Nat) (hash : Option Nat) (hashSize : Nat) (s : St w) : Tr (Int × St w) := do
  let (r, context, s) ← tHInitialize T.alg env none s
  if ← tBranch (r ≠ 1) then tCalculateError context s
  else do
    let b ← tRegion s buffer size
    let (r, s) ← tHUpdate T u env context b size s
    if ← tBranch (r ≠ 1) then tCalculateError context s
    else do
      let o ← tRegion s hash hashSize
      let (r, h, s) ← tHFinalize T u env context o hashSize s
      let s := setRegion s hash h
      if ← tBranch (r ≠ 1) then tCalculateError context s
      else do
        let (r, context, s) ← tHFree context s
        if ← tBranch (r ≠ 1) then tCalculateError context s else pure (1, s)

/-- `Model.hmacKey` (libhmac/libhmac_sha256.c:277-411). -/
def tHmacKey {w} (T : TAlg w) (u : Bool) (env : Env w) (key : Option Nat) (keySize : Nat) (l : Loc) (s : St w) : Tr (Bool × Loc × St w) := do
  let (p, s) ← tAllocBytes env T.alg.hmacBlockSize s
  let l := { l with keyData := p }
  match p with
  | none => pure (false, l, s)
  | some _ =>
    if ← tBranch (keySize ≤ T.alg.hmacBlockSize) then
      let k ← tRegion s key keySize
      match k with
      | none => .ub
      | some k => do
        let d ← tLoadBytes l.keyData s
        let d ← tCopy .keyData d 0 .input k 0 keySize
        let d ← tSet .keyData d keySize 0 (szSub T.alg.hmacBlockSize keySize)
        let s ← tStoreBytes l.keyData d s
        pure (true, l, s)
    else do
      let (r, context, s) ← tHInitialize T.alg env l.context s
      let l := { l with context := context }
      if ← tBranch (r ≠ 1) then pure (false, l, s)
      else do
        let k ← tRegion s key keySize
        let (r, s) ← tHUpdate T u env l.context k keySize s
        if ← tBranch (r ≠ 1) then pure (false, l, s)
        else do
          let (r, h, s) ← tHFinalize T u env l.context (some l.keyHash) T.alg.hashSize s
          match h with
          | none => .ub
          | some h =>
            let l := { l with keyHash := h }
            if ← tBranch (r ≠ 1) then pure (false, l, s)
            else do
              let (r, context, s) ← tHFree l.context s
              let l := { l with context := context }
              if ← tBranch (r ≠ 1) then pure (false, l, s)
              else do
                let d ← tLoadBytes l.keyData s
                let less ← tBranch (T.alg.hashSize < T.alg.hmacBlockSize)
                let d ← if less then tSet .keyData d T.alg.hashSize 0 (szSub T.alg.hmacBlockSize T.alg.hashSize) else pure d
                let d ← tCopy .keyData d 0 .keyHash l.keyHash 0 T.alg.hashSize
                let s ← tStoreBytes l.keyData d s
                pure (true, l, s)

/-- `Model.xorPads` (libhmac/libhmac_sha256.c:468-474). -/
def tXorPads (n : Nat) (kd inner outer : List Byte) : Tr (List Byte × List Byte) :=
  tForLoop 0 n (fun i (p : List Byte × List Byte) => do
    let k ← tRd .keyData kd i
    let x ← tRd .inner p.1 i
    let inner ← tWr .inner p.1 i (x ^^^ k)
    let y ← tRd .outer p.2 i
    let outer ← tWr .outer p.2 i (y ^^^ k)
    pure (inner, outer)) (inner, outer)

/-- `Model.hmacPads` (libhmac/libhmac_sha256.c:412-474). -/
def tHmacPads {w} (A : Alg w) (env : Env w) (l : Loc) (s : St w) : Tr (Bool × Loc × St w) := do
  let (p, s) ← tAllocBytes env A.hmacBlockSize s
  let l := { l with inner := p }
  match p with
  | none => pure (false, l, s)
  | some _ => do
    let d ← tLoadBytes l.inner s
    let d ← tSet .inner d 0 0x36 A.hmacBlockSize
    let s ← tStoreBytes l.inner d s
    let (p, s) ← tAllocBytes env A.hmacBlockSize s
    let l := { l with outer := p }
    match p with
    | none => pure (false, l, s)
    | some _ => do
      let d ← tLoadBytes l.outer s
      let d ← tSet .outer d 0 0x5c A.hmacBlockSize
      let s ← tStoreBytes l.outer d s
      let kd ← tLoadBytes l.keyData s
      let i ← tLoadBytes l.inner s
      let o ← tLoadBytes l.outer s
      let (i, o) ← tXorPads A.hmacBlockSize kd i o
      let s ← tStoreBytes l.inner i s
      let s ← tStoreBytes l.outer o s
      pure (true, l, s)

/-- `Model.hmacPass` (libhmac/libhmac_sha256.c:475-545, 546-616). -/
def tHmacPass {w} (T : TAlg w) (u : Bool) (env : Env w) (padding : Option Nat) (buffer : Option Nat) (size : Nat) (hmac : Option Nat) (hmacSize : Nat)
    (l : Loc) (s : St w) : Tr (Bool × Loc × St w) := do
  let (r, context, s) ← tHInitialize T.alg env l.context s
  let l := { l with context := context }
  if ← tBranch (r ≠ 1) then pure (false, l, s)
  else do
    let d ← tLoadBytes padding s
    let (r, s) ← tHUpdate T u env l.context (some d) T.alg.hmacBlockSize s
    if ← tBranch (r ≠ 1) then pure (false, l, s)
    else do
      let b ← tRegion s buffer size
      let (r, s) ← tHUpdate T u env l.context b size s
      if ← tBranch (r ≠ 1) then pure (false, l, s)
      else do
        let o ← tRegion s hmac hmacSize
        let (r, h, s) ← tHFinalize T u env l.context o hmacSize s
        let s := setRegion s hmac h
        if ← tBranch (r ≠ 1) then pure (false, l, s)
        else do
          let (r, context, s) ← tHFree l.context s
          let l := { l with context := context }
          if ← tBranch (r ≠ 1) then pure (false, l, s) else pure (true, l, s)

/-- `Model.wipeFree` (libhmac/libhmac_sha256.c:617-631, 636-650, 655-669; 685-691, 695-701, 705-711). `n` names the buffer. -/
def tWipeFree {w} (A : Alg w) (n : Arr) (p : Option Nat) (s : St w) : Tr (St w) := do
  let d ← tLoadBytes p s
  let d ← tSet n d 0 0 A.hmacBlockSize
  let s ← tStoreBytes p d s
  match p with
  | none => .ub
  | some p => tMemFree p s

/-- `Model.wipeFreeOpt` (libhmac/libhmac_sha256.c:685-691, 695-701, 705-711). -/
def tWipeFreeOpt {w} (A : Alg w) (n : Arr) (p : Option Nat) (s : St w) : Tr (St w) := do
  tNull p
  match p with
  | none => pure s
  | some p => tWipeFree A n (some p) s

/-- `Model.freeOpt` (libhmac/libhmac_sha256.c:678-683). -/
def tFreeOpt {w} (p : Option Nat) (s : St w) : Tr (St w) := do
  tNull p
  match p with
  | none => pure s
  | some p => do
    let (_, _, s) ← tHFree (some p) s
    pure s

/-- `Model.hmacError` (libhmac/libhmac_sha256.c:676-713). -/
def tHmacError {w} (A : Alg w) (l : Loc) (s : St w) : Tr (Int × Loc × St w) := do
  let s ← tFreeOpt l.context s
  let s ← tWipeFreeOpt A .outer l.outer s
  let s ← tWipeFreeOpt A .inner l.inner s
  let s ← tWipeFreeOpt A .keyData l.keyData s
  pure (-1, l, s)

/-- `Model.hmacRest` (libhmac/libhmac_sha256.c:412-675). -/
def tHmacRest {w} (T : TAlg w) (u : Bool) (env : Env w) (buffer : Option Nat) (size : Nat) (hmac : Option Nat) (hmacSize : Nat) (l : Loc) (s : St w) :
    Tr (Int × Loc × St w) := do
  let (ok, l, s) ← tHmacPads T.alg env l s
  if ← tBranch (ok = false) then tHmacError T.alg l s
  else do
    let (ok, l, s) ← tHmacPass T u env l.inner buffer size hmac hmacSize l s
    if ← tBranch (ok = false) then tHmacError T.alg l s
    else do
      let (ok, l, s) ← tHmacPass T u env l.outer hmac T.alg.hashSize hmac hmacSize l s
      if ← tBranch (ok = false) then tHmacError T.alg l s
      else do
        let s ← tWipeFree T.alg .outer l.outer s
        let l := { l with outer := none }
        let s ← tWipeFree T.alg .inner l.inner s
        let l := { l with inner := none }
        let s ← tWipeFree T.alg .keyData l.keyData s
        let l := { l with keyData := none }
        pure (1, l, s)

/-- `Model.calculateHmac` (libhmac/libhmac_sha256.c:225-714). -/
def tCalculateHmac {w} (T : TAlg w) (u : Bool) (env : Env w) (keyHash : List Byte) (key : Option Nat) (keySize : Nat) (buffer : Option Nat) (size : Nat)
    (hmac : Option Nat) (hmacSize : Nat) (s : St w) : Tr (Int × Loc × St w) := do
  let l : Loc := ⟨none, none, none, none, keyHash⟩
  tNull key
  match key with
  | none => pure (-1, l, s)
  | some k =>
    if ← tBranch (ssizeMax < keySize) then pure (-1, l, s)
    else if ← tBranch (hmacSize < T.alg.hashSize) then pure (-1, l, s)
    else do
      let (ok, l, s) ← tHmacKey T u env (some k) keySize l s
      if ← tBranch (ok = false) then tHmacError T.alg l s
      else tHmacRest T u env buffer size hmac hmacSize l s

end Model
