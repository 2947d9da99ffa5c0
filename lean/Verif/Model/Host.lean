import Verif.Model.Api
import Verif.Model.Calculate
/-! The built-in context functions and the one-shot functions on a host whose `size_t` has `hb` bits (on the hosts of the other models it has 64).

Where the code computes with `size_t` or `ssize_t`, the functions below compute modulo 2^hb; everything else is the text of Model/Context, Model/Heap, Model/Api and Model/Calculate. `hash_count` and `bit_size` are
`uint64_t` on every host (libhmac_sha256_context.h:74, libhmac_sha256_context.c:1172). The functions without such computations (`updateTail`, `storeHash`, `hInitialize`, `hFree`, `hmacPads`, `hmacError`, `wipeFree`) are taken from
those models. Simplified: `buffer_offset` inside the transform and loop indices below the block size are not reduced; they are at most `size`. Line numbers are those of libhmac_sha256_context.c and libhmac_sha256.c. -/

namespace Model

open Spec (ApiCall Reply)

/-- `(size_t) SSIZE_MAX`. (From the C library's limits.h; used in libhmac_sha256_context.c:270 and in every check of a size.) -/
def hostMax (hb : Nat) : Nat := 2 ^ (hb - 1) - 1

/-- Subtraction of `size_t` values. (C; for example libhmac_sha256_context.c:901.) -/
def hostSub (hb a b : Nat) : Nat := (a + (2 ^ hb - b % 2 ^ hb)) % 2 ^ hb

/-- Addition of `size_t` values. (C; for example libhmac_sha256_context.c:921.) -/
def hostAdd (hb a b : Nat) : Nat := (a + b) % 2 ^ hb

/-- Conversion of a `size_t` to `ssize_t` (libhmac_sha256_context.c:434). -/
def hostInt (hb a : Nat) : Int := (BitVec.ofNat hb a).toInt

/-- The `while` loop of the transform (lines 281-403). -/
def hostLoop {w} (hb : Nat) (A : Alg w) (unrolled : Bool) (buf : List Byte) :
    Nat → Nat → Nat → List (BitVec w) → Scr w → Res (List (BitVec w) × Nat × Scr w)
  | fuel, size, off, hv, scr =>
    if A.blockSize ≤ size then
      match fuel with
      | 0 => .diverge
      | fuel + 1 => do
        let (hv, off, scr) ← A.blockFn unrolled hv buf off scr
        hostLoop hb A unrolled buf fuel (hostSub hb size A.blockSize) off hv scr
    else .ok (hv, off, scr)

/-- `libhmac_sha256_context_transform` (lines 227-448): returns the result, the context and the final contents of the local arrays. -/
def hostTransform {w} (hb : Nat) (A : Alg w) (unrolled : Bool) (scr : Scr w) (ctx : Option (Ctx w)) (buf : Option (List Byte)) (size : Nat) :
    Res (Int × Option (Ctx w) × Scr w) :=
  match ctx, buf with
  | none, _ => .ok (-1, none, scr)
  | some c, none => .ok (-1, some c, scr)
  | some c, some b =>
    if hostMax hb < size then .ok (-1, some c, scr)
    else do
      let (hv, off, scr) ← hostLoop hb A unrolled b (size + 1) size 0 c.hashValues scr
      let shv ← memSet scr.hv 0 0 A.wipeHv
      let svals ← memSet scr.vals 0 0 A.wipeVals
      pure (hostInt hb off, some { c with hashValues := hv }, ⟨shv, svals⟩)

/-- First part of `libhmac_sha256_context_update` (lines 888-949): fill up a partially filled context block. Returns the result, the context, and
either `none` (the function returns) or the new buffer offset and remaining size. -/
def hostFill {w} (hb : Nat) (A : Alg w) (unrolled : Bool) (scr : Scr w) (c : Ctx w) (b : List Byte) (size : Nat) :
    Res (Int × Ctx w × Option (Nat × Nat)) :=
  if 0 < c.blockOffset then
    if A.blockSize ≤ c.blockOffset then .ok (-1, c, none)
    else do
      let rem := hostSub hb A.blockSize c.blockOffset
      let rem := if size < rem then size else rem
      let blk ← memCopy c.block c.blockOffset b 0 rem
      let c := { c with block := blk, blockOffset := hostAdd hb c.blockOffset rem }
      if c.blockOffset < A.blockSize then .ok (1, c, none)
      else do
        let (n, c', _) ← hostTransform hb A unrolled scr (some c) (some c.block) A.blockSize
        match c' with
        | none => .ub
        | some c' =>
          if n = -1 then .ok (-1, c', none)
          else .ok (1, { c' with hashCount := c'.hashCount + BitVec.ofInt 64 n, blockOffset := 0 }, some (rem, hostSub hb size rem))
  else .ok (1, c, some (0, size))

/-- Second part of `libhmac_sha256_context_update` (lines 950-973): transform the whole blocks of the rest of the buffer. Returns the result, the context,
the new buffer offset and remaining size. -/
def hostBulk {w} (hb : Nat) (A : Alg w) (unrolled : Bool) (scr : Scr w) (c : Ctx w) (b : List Byte) (bufferOffset size : Nat) :
    Res (Int × Ctx w × Nat × Nat) :=
  if 0 < size then do
    let p ← ptrAt b bufferOffset
    let (n, c', _) ← hostTransform hb A unrolled scr (some c) (some p) size
    match c' with
    | none => .ub
    | some c' =>
      if n = -1 then .ok (-1, c', bufferOffset, size)
      else .ok (1, { c' with hashCount := c'.hashCount + BitVec.ofInt 64 n }, hostAdd hb bufferOffset n.toNat, hostSub hb size n.toNat)
  else .ok (1, c, bufferOffset, size)

/-- `libhmac_sha256_context_update` (lines 837-1004, the variant without a crypto library). `buf` is the caller's buffer (`none` is NULL) and `size`
the size argument; the model has undefined behaviour if the code reads past the end of the buffer. `scr` are the initial contents
of the transform's local arrays. Aliasing of the buffer with the context is not modelled. -/
def hostUpdate {w} (hb : Nat) (A : Alg w) (unrolled : Bool) (scr : Scr w) (ctx : Option (Ctx w)) (buf : Option (List Byte)) (size : Nat) :
    Res (Int × Option (Ctx w)) :=
  match ctx, buf with
  | none, _ => .ok (-1, none)
  | some c, none => .ok (-1, some c)
  | some c, some b =>
    if hostMax hb < size then .ok (-1, some c)
    else if size = 0 then .ok (1, some c)
    else do
      let (r, c, next) ← hostFill hb A unrolled scr c b size
      match next with
      | none => pure (r, some c)
      | some (bufferOffset, size) => do
        let (r, c, bufferOffset, size) ← hostBulk hb A unrolled scr c b bufferOffset size
        if r = -1 then pure (-1, some c)
        else do
          let (r, c) ← updateTail A c b bufferOffset size
          pure (r, some c)

/-- `libhmac_sha256_context_finalize` (lines 1159-1348, the variant without a crypto library). `hash` is the caller's output buffer (its length is the
number of bytes that may be written), `hashSize` the size argument. Returns the result, the context and the output buffer. -/
def hostFinalize {w} (hb : Nat) (A : Alg w) (unrolled : Bool) (scr : Scr w) (ctx : Option (Ctx w)) (hash : Option (List Byte)) (hashSize : Nat) :
    Res (Int × Option (Ctx w) × Option (List Byte)) :=
  match ctx, hash with
  | none, h => .ok (-1, none, h)
  | some c, none => .ok (-1, some c, none)
  | some c, some h =>
    if hashSize < A.hashSize then .ok (-1, some c, some h)
    else if hostMax hb < hashSize then .ok (-1, some c, some h)
    else do
      let numberOfBlocks := if A.padLimit < c.blockOffset then 1 + 1 else 1
      let blockSize := numberOfBlocks * A.blockSize % 2 ^ hb
      let blk ← memSet c.block c.blockOffset 0 (hostSub hb blockSize c.blockOffset)
      let blk ← wr blk c.blockOffset 0x80
      let bitSize := (c.hashCount + BitVec.ofNat 64 c.blockOffset) * 8
      let blk ← runStore A.lenProg blk (hostSub hb blockSize 8) bitSize
      let c := { c with block := blk }
      let (n, c', _) ← hostTransform hb A unrolled scr (some c) (some c.block) blockSize
      match c' with
      | none => .ub
      | some c' =>
        if n = -1 then .ok (-1, some c', some h)
        else do
          let h ← storeHash A unrolled c'.hashValues h
          pure (1, some (zeroCtx A), some h)

/-- `libhmac_*_context_update` on a context pointer (libhmac/libhmac_sha256_context.c:837-1004). -/
def hostHUpdate {w} (hb : Nat) (A : Alg w) (u : Bool) (env : Env w) (slot : Option Nat) (buf : Option (List Byte)) (size : Nat) (s : St w) : Res (Int × St w) :=
  match slot with
  | none => do
    let (r, _) ← hostUpdate hb A u env.scr none buf size
    pure (r, s)
  | some p => match getKey p s.live with
    | some (.ctx c) => do
      let (r, c') ← hostUpdate hb A u env.scr (some c) buf size
      match c' with
      | some c' => pure (r, { s with live := setKey p (.ctx c') s.live })
      | none => .ub
    | _ => .ub

/-- `libhmac_*_context_finalize` on a context pointer (libhmac/libhmac_sha256_context.c:1159-1348): also returns the new contents of the output. -/
def hostHFinalize {w} (hb : Nat) (A : Alg w) (u : Bool) (env : Env w) (slot : Option Nat) (hash : Option (List Byte)) (hashSize : Nat) (s : St w) :
    Res (Int × Option (List Byte) × St w) :=
  match slot with
  | none => do
    let (r, _, h) ← hostFinalize hb A u env.scr none hash hashSize
    pure (r, h, s)
  | some p => match getKey p s.live with
    | some (.ctx c) => do
      let (r, c', h) ← hostFinalize hb A u env.scr (some c) hash hashSize
      match c' with
      | some c' => pure (r, h, { s with live := setKey p (.ctx c') s.live })
      | none => .ub
    | _ => .ub

/-- One call of a client that keeps its context in a variable (`slot`). (The functions of include/libhmac.h.in:468-503; the client is not code of /repo.) -/
def hostStep {w} (hb : Nat) (A : Alg w) (u : Bool) (env : Env w) (call : ApiCall) (scr : Scr w) (slot : Option Nat) (s : St w) :
    Res (Reply × Option Nat × St w) :=
  match call with
  | .init => do
    let (r, c, s) ← apiInitialize A env (some slot) s
    match c with
    | some slot => pure (⟨r, none⟩, slot, s)
    | none => .ub
  | .initNull => do
    let (r, _, s) ← apiInitialize A env none s
    pure (⟨r, none⟩, slot, s)
  | .free => do
    let (r, c, s) ← apiFree (some slot) s
    match c with
    | some slot => pure (⟨r, none⟩, slot, s)
    | none => .ub
  | .freeNull => do
    let (r, _, s) ← apiFree none s
    pure (⟨r, none⟩, slot, s)
  | .update buf size => do
    let (r, s) ← hostHUpdate hb A u { env with scr := scr } slot buf size s
    pure (⟨r, none⟩, slot, s)
  | .finalize out size => do
    let (r, out, s) ← hostHFinalize hb A u { env with scr := scr } slot out size s
    pure (⟨r, out⟩, slot, s)

/-- A client program: calls in order. (A client of include/libhmac.h.in:468-503; not code of /repo.) -/
def hostRun {w} (hb : Nat) (A : Alg w) (u : Bool) (env : Env w) : List (ApiCall × Scr w) → Option Nat → St w → Res (List Reply × Option Nat × St w)
  | [], slot, s => .ok ([], slot, s)
  | (c, scr) :: cs, slot, s => do
    let (r, slot, s) ← hostStep hb A u env c scr slot s
    let (rs, slot, s) ← hostRun hb A u env cs slot s
    pure (r :: rs, slot, s)

/-- `libhmac_*_calculate` (lines 143-219). -/
def hostCalculate {w} (hb : Nat) (A : Alg w) (u : Bool) (env : Env w) (buffer : Option Nat) (size : Nat) (hash : Option Nat) (hashSize : Nat) (s : St w) :
    Res (Int × St w) := do
  let (r, context, s) ← hInitialize A env none s
  if r ≠ 1 then calculateError context s
  else do
    let (r, s) ← hostHUpdate hb A u env context (region s buffer size) size s
    if r ≠ 1 then calculateError context s
    else do
      let (r, h, s) ← hostHFinalize hb A u env context (region s hash hashSize) hashSize s
      let s := setRegion s hash h
      if r ≠ 1 then calculateError context s
      else do
        let (r, context, s) ← hFree context s
        if r ≠ 1 then calculateError context s else pure (1, s)

/-- Lines 277-411: allocate `key_data` and fill it with the key, or with the hash of the key. `false`: `goto on_error`. -/
def hostHmacKey {w} (hb : Nat) (A : Alg w) (u : Bool) (env : Env w) (key : Option Nat) (keySize : Nat) (l : Loc) (s : St w) : Res (Bool × Loc × St w) := do
  let (p, s) := allocBytes env A.hmacBlockSize s
  let l := { l with keyData := p }
  match p with
  | none => pure (false, l, s)
  | some _ =>
    if keySize ≤ A.hmacBlockSize then
      match region s key keySize with
      | none => .ub
      | some k => do
        let d ← loadBytes l.keyData s
        let d ← memCopy d 0 k 0 keySize
        let d ← memSet d keySize 0 (hostSub hb A.hmacBlockSize keySize)
        let s ← storeBytes l.keyData d s
        pure (true, l, s)
    else do
      let (r, context, s) ← hInitialize A env l.context s
      let l := { l with context := context }
      if r ≠ 1 then pure (false, l, s)
      else do
        let (r, s) ← hostHUpdate hb A u env l.context (region s key keySize) keySize s
        if r ≠ 1 then pure (false, l, s)
        else do
          let (r, h, s) ← hostHFinalize hb A u env l.context (some l.keyHash) A.hashSize s
          match h with
          | none => .ub
          | some h =>
            let l := { l with keyHash := h }
            if r ≠ 1 then pure (false, l, s)
            else do
              let (r, context, s) ← hFree l.context s
              let l := { l with context := context }
              if r ≠ 1 then pure (false, l, s)
              else do
                let d ← loadBytes l.keyData s
                let d ← if A.hashSize < A.hmacBlockSize then memSet d A.hashSize 0 (hostSub hb A.hmacBlockSize A.hashSize) else pure d
                let d ← memCopy d 0 l.keyHash 0 A.hashSize
                let s ← storeBytes l.keyData d s
                pure (true, l, s)

/-- Lines 475-545 and 546-616: hash a padding followed by a caller area, and store the digest in the caller's HMAC area. -/
def hostHmacPass {w} (hb : Nat) (A : Alg w) (u : Bool) (env : Env w) (padding : Option Nat) (buffer : Option Nat) (size : Nat) (hmac : Option Nat) (hmacSize : Nat)
    (l : Loc) (s : St w) : Res (Bool × Loc × St w) := do
  let (r, context, s) ← hInitialize A env l.context s
  let l := { l with context := context }
  if r ≠ 1 then pure (false, l, s)
  else do
    let d ← loadBytes padding s
    let (r, s) ← hostHUpdate hb A u env l.context (some d) A.hmacBlockSize s
    if r ≠ 1 then pure (false, l, s)
    else do
      let (r, s) ← hostHUpdate hb A u env l.context (region s buffer size) size s
      if r ≠ 1 then pure (false, l, s)
      else do
        let (r, h, s) ← hostHFinalize hb A u env l.context (region s hmac hmacSize) hmacSize s
        let s := setRegion s hmac h
        if r ≠ 1 then pure (false, l, s)
        else do
          let (r, context, s) ← hFree l.context s
          let l := { l with context := context }
          if r ≠ 1 then pure (false, l, s) else pure (true, l, s)

/-- Lines 412-675: the part of `libhmac_*_calculate_hmac` after the key was stored. -/
def hostHmacRest {w} (hb : Nat) (A : Alg w) (u : Bool) (env : Env w) (buffer : Option Nat) (size : Nat) (hmac : Option Nat) (hmacSize : Nat) (l : Loc) (s : St w) :
    Res (Int × Loc × St w) := do
  let (ok, l, s) ← hmacPads A env l s
  if !ok then hmacError A l s
  else do
    let (ok, l, s) ← hostHmacPass hb A u env l.inner buffer size hmac hmacSize l s
    if !ok then hmacError A l s
    else do
      let (ok, l, s) ← hostHmacPass hb A u env l.outer hmac A.hashSize hmac hmacSize l s
      if !ok then hmacError A l s
      else do
        let s ← wipeFree A l.outer s
        let l := { l with outer := none }
        let s ← wipeFree A l.inner s
        let l := { l with inner := none }
        let s ← wipeFree A l.keyData s
        let l := { l with keyData := none }
        pure (1, l, s)

/-- `libhmac_*_calculate_hmac` (lines 225-714). `keyHash` are the initial contents of the local array `key_hash[ ]`. Returns the result, the
final locals and the memory. -/
def hostCalculateHmac {w} (hb : Nat) (A : Alg w) (u : Bool) (env : Env w) (keyHash : List Byte) (key : Option Nat) (keySize : Nat) (buffer : Option Nat) (size : Nat)
    (hmac : Option Nat) (hmacSize : Nat) (s : St w) : Res (Int × Loc × St w) :=
  let l : Loc := ⟨none, none, none, none, keyHash⟩
  match key with
  | none => .ok (-1, l, s)
  | some k =>
    if hostMax hb < keySize then .ok (-1, l, s)
    else if hmacSize < A.hashSize then .ok (-1, l, s)
    else do
      let (ok, l, s) ← hostHmacKey hb A u env (some k) keySize l s
      if !ok then hmacError A l s
      else hostHmacRest hb A u env buffer size hmac hmacSize l s

end Model
