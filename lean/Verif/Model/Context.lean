import Verif.Model.Block
/-! The context functions: transform, initialize, update and finalize of the built-in implementations.

The five files libhmac/libhmac_{md5,sha1,sha224,sha256,sha512}_context.c have the same text up to the parameters collected in `Alg`
(checked with a normalising `diff`); the functions below are that text. Line numbers are those of libhmac_sha256_context.c
unless said otherwise.

Simplified: the `libcerror_error_t` output is left out (it is written only, on the paths that return -1; see Model/Errors); `memory_copy` and `memory_set`
(`memcpy`, `memset`) never return NULL, so the corresponding error branches are not modelled. -/

namespace Model

/-- The internal context (libhmac/libhmac_sha256_context.h:55-85, last branch of the `#if`): without the compiler's padding bytes. -/
structure Ctx (w : Nat) where
  hashCount : BitVec 64
  hashValues : List (BitVec w)
  blockOffset : Nat
  block : List Byte
  deriving DecidableEq

/-- What distinguishes the five implementations. (libhmac/libhmac_{md5,sha1,sha224,sha256,sha512}_context.c have the same functions up to these parameters: for SHA-256 the tables of lines 45-71, the compression of lines 281-403, the length and digest encodings of lines 1264-1328, and the constants of libhmac/libhmac_sha256_context.h:51 and libhmac/libhmac_definitions.h.in:45-49.) -/
structure Alg (w : Nat) where
  /-- `LIBHMAC_*_BLOCK_SIZE` -/
  blockSize : Nat
  /-- `LIBHMAC_*_HASH_SIZE` (include/libhmac/definitions.h.in:35-39) -/
  hashSize : Nat
  /-- block offsets above this need a second padding block -/
  padLimit : Nat
  /-- initial hash values -/
  iv : List (BitVec w)
  /-- number of words of `hash_values[ ]`, in the context and in the transform -/
  nHash : Nat
  /-- number of words of the local array `values_*bit[ ]` of the transform -/
  nVals : Nat
  /-- words of `hash_values[ ]` cleared at the end of the transform -/
  wipeHv : Nat
  /-- words of `values_*bit[ ]` cleared at the end of the transform -/
  wipeVals : Nat
  /-- body of the transform loop, for `LIBHMAC_UNFOLLED_LOOPS` defined (`true`) or not -/
  blockFn : Bool → List (BitVec w) → List Byte → Nat → Scr w → Res (List (BitVec w) × Nat × Scr w)
  /-- store macro of the bit length -/
  lenProg : List (Nat × Nat)
  /-- store macro of a hash value -/
  wordProg : List (Nat × Nat)
  /-- size of a hash value in bytes, as added to `hash_index` -/
  wordSize : Nat
  /-- number of hash values stored by the loop variant -/
  outWords : Nat
  /-- stores of the unrolled variant -/
  storeRows : List (Nat × Nat)
  /-- the local `block_size` of `libhmac_*_calculate_hmac` (libhmac/libhmac_{md5,sha1,sha224,sha256,sha512}.c:242) -/
  hmacBlockSize : Nat

/-- MD5 (libhmac/libhmac_md5_context.c:41-418, 424-590, 805-972, 1127-1289; libhmac_md5_context.h). -/
def md5 : Alg 32 where
  blockSize := 64
  hashSize := 16
  padLimit := 55
  iv := md5Iv
  nHash := 4
  nVals := 16
  wipeHv := 4
  wipeVals := 16
  blockFn := md5Block
  lenProg := st64le
  wordProg := st32le
  wordSize := 4
  outWords := 4
  storeRows := md5StoreRows
  hmacBlockSize := 64

/-- SHA-1 (libhmac/libhmac_sha1_context.c:40-491, 497-663, 878-1045, 1200-1377; libhmac_sha1_context.h). The transform has 80 schedule
words but clears 16 of them (lines 461-464). -/
def sha1 : Alg 32 where
  blockSize := 64
  hashSize := 20
  padLimit := 55
  iv := sha1Iv
  nHash := 5
  nVals := 80
  wipeHv := 5
  wipeVals := 16
  blockFn := sha1Block
  lenProg := st64be
  wordProg := st32be
  wordSize := 4
  outWords := 5
  storeRows := sha1StoreRows
  hmacBlockSize := 64

/-- SHA-224 (libhmac/libhmac_sha224_context.c:40-450, 456-622, 837-1004, 1159-1345; libhmac_sha224_context.h). -/
def sha224 : Alg 32 where
  blockSize := 64
  hashSize := 28
  padLimit := 55
  iv := sha224Iv
  nHash := 8
  nVals := 64
  wipeHv := 8
  wipeVals := 64
  blockFn := sha2Block sha224P
  lenProg := st64be
  wordProg := st32be
  wordSize := 4
  outWords := 7
  storeRows := sha224StoreRows
  hmacBlockSize := 64

/-- SHA-256 (libhmac/libhmac_sha256_context.c:40-450, 456-622, 837-1004, 1159-1348; libhmac_sha256_context.h). -/
def sha256 : Alg 32 where
  blockSize := 64
  hashSize := 32
  padLimit := 55
  iv := sha256Iv
  nHash := 8
  nVals := 64
  wipeHv := 8
  wipeVals := 64
  blockFn := sha2Block sha256P
  lenProg := st64be
  wordProg := st32be
  wordSize := 4
  outWords := 8
  storeRows := sha256StoreRows
  hmacBlockSize := 64

/-- SHA-512 (libhmac/libhmac_sha512_context.c:40-486, 492-658, 873-1040, 1195-1384; libhmac_sha512_context.h). -/
def sha512 : Alg 64 where
  blockSize := 128
  hashSize := 64
  padLimit := 111
  iv := sha512Iv
  nHash := 8
  nVals := 80
  wipeHv := 8
  wipeVals := 80
  blockFn := sha2Block sha512P
  lenProg := st64be
  wordProg := st64be
  wordSize := 8
  outWords := 8
  storeRows := sha512StoreRows
  hmacBlockSize := 128

/-- The context after `memory_set( internal_context, 0, sizeof( ... ) )` (lines 503-506, 1333-1336). -/
def zeroCtx {w} (A : Alg w) : Ctx w :=
  ⟨0, List.replicate A.nHash 0, 0, List.replicate (2 * A.blockSize) 0⟩

/-- `libhmac_sha256_context_initialize` (lines 456-619). `alloc` is the result of the allocation: `none` is NULL, otherwise a block with
arbitrary contents. `context` is the `context` argument: `none` is NULL, `some p` points to a variable holding `p`. -/
def ctxInitialize {w} (A : Alg w) (alloc : Option (Ctx w)) (context : Option (Option (Ctx w))) :
    Res (Int × Option (Option (Ctx w))) :=
  match context with
  | none => .ok (-1, none)
  | some (some c) => .ok (-1, some (some c))
  | some none =>
    match alloc with
    | none => .ok (-1, some none)
    | some _ => do
      let c := zeroCtx A
      let hv ← memCopy c.hashValues 0 A.iv 0 A.nHash
      pure (1, some (some { c with hashValues := hv }))

/-- The `while` loop of the transform (lines 281-403). -/
def transformLoop {w} (A : Alg w) (unrolled : Bool) (buf : List Byte) :
    Nat → Nat → Nat → List (BitVec w) → Scr w → Res (List (BitVec w) × Nat × Scr w)
  | fuel, size, off, hv, scr =>
    if A.blockSize ≤ size then
      match fuel with
      | 0 => .diverge
      | fuel + 1 => do
        let (hv, off, scr) ← A.blockFn unrolled hv buf off scr
        transformLoop A unrolled buf fuel (szSub size A.blockSize) off hv scr
    else .ok (hv, off, scr)

/-- `libhmac_sha256_context_transform` (lines 227-448): returns the result, the context and the final contents of the local arrays. -/
def transform {w} (A : Alg w) (unrolled : Bool) (scr : Scr w) (ctx : Option (Ctx w)) (buf : Option (List Byte)) (size : Nat) :
    Res (Int × Option (Ctx w) × Scr w) :=
  match ctx, buf with
  | none, _ => .ok (-1, none, scr)
  | some c, none => .ok (-1, some c, scr)
  | some c, some b =>
    if ssizeMax < size then .ok (-1, some c, scr)
    else do
      let (hv, off, scr) ← transformLoop A unrolled b (size + 1) size 0 c.hashValues scr
      let shv ← memSet scr.hv 0 0 A.wipeHv
      let svals ← memSet scr.vals 0 0 A.wipeVals
      pure ((off : Int), some { c with hashValues := hv }, ⟨shv, svals⟩)

/-- First part of `libhmac_sha256_context_update` (lines 888-949): fill up a partially filled context block. Returns the result, the context, and
either `none` (the function returns) or the new buffer offset and remaining size. -/
def updateFill {w} (A : Alg w) (unrolled : Bool) (scr : Scr w) (c : Ctx w) (b : List Byte) (size : Nat) :
    Res (Int × Ctx w × Option (Nat × Nat)) :=
  if 0 < c.blockOffset then
    if A.blockSize ≤ c.blockOffset then .ok (-1, c, none)
    else do
      let rem := szSub A.blockSize c.blockOffset
      let rem := if size < rem then size else rem
      let blk ← memCopy c.block c.blockOffset b 0 rem
      let c := { c with block := blk, blockOffset := c.blockOffset + rem }
      if c.blockOffset < A.blockSize then .ok (1, c, none)
      else do
        let (n, c', _) ← transform A unrolled scr (some c) (some c.block) A.blockSize
        match c' with
        | none => .ub
        | some c' =>
          if n = -1 then .ok (-1, c', none)
          else .ok (1, { c' with hashCount := c'.hashCount + BitVec.ofInt 64 n, blockOffset := 0 }, some (rem, szSub size rem))
  else .ok (1, c, some (0, size))

/-- Second part of `libhmac_sha256_context_update` (lines 950-973): transform the whole blocks of the rest of the buffer. Returns the result, the context,
the new buffer offset and remaining size. -/
def updateBulk {w} (A : Alg w) (unrolled : Bool) (scr : Scr w) (c : Ctx w) (b : List Byte) (bufferOffset size : Nat) :
    Res (Int × Ctx w × Nat × Nat) :=
  if 0 < size then do
    let p ← ptrAt b bufferOffset
    let (n, c', _) ← transform A unrolled scr (some c) (some p) size
    match c' with
    | none => .ub
    | some c' =>
      if n = -1 then .ok (-1, c', bufferOffset, size)
      else .ok (1, { c' with hashCount := c'.hashCount + BitVec.ofInt 64 n }, bufferOffset + n.toNat, szSub size n.toNat)
  else .ok (1, c, bufferOffset, size)

/-- Last part of `libhmac_sha256_context_update` (lines 974-1003): keep the remaining bytes in the context block. -/
def updateTail {w} (A : Alg w) (c : Ctx w) (b : List Byte) (bufferOffset size : Nat) : Res (Int × Ctx w) :=
  if 0 < size then
    if A.blockSize ≤ size then .ok (-1, c)
    else do
      let blk ← memCopy c.block 0 b bufferOffset size
      pure (1, { c with block := blk, blockOffset := size })
  else .ok (1, c)

/-- `libhmac_sha256_context_update` (lines 837-1004, the variant without a crypto library). `buf` is the caller's buffer (`none` is NULL) and `size`
the size argument; the model has undefined behaviour if the code reads past the end of the buffer. `scr` are the initial contents
of the transform's local arrays. Aliasing of the buffer with the context is not modelled. -/
def ctxUpdate {w} (A : Alg w) (unrolled : Bool) (scr : Scr w) (ctx : Option (Ctx w)) (buf : Option (List Byte)) (size : Nat) :
    Res (Int × Option (Ctx w)) :=
  match ctx, buf with
  | none, _ => .ok (-1, none)
  | some c, none => .ok (-1, some c)
  | some c, some b =>
    if ssizeMax < size then .ok (-1, some c)
    else if size = 0 then .ok (1, some c)
    else do
      let (r, c, next) ← updateFill A unrolled scr c b size
      match next with
      | none => pure (r, some c)
      | some (bufferOffset, size) => do
        let (r, c, bufferOffset, size) ← updateBulk A unrolled scr c b bufferOffset size
        if r = -1 then pure (-1, some c)
        else do
          let (r, c) ← updateTail A c b bufferOffset size
          pure (r, some c)

/-- Store of the hash values to the output (lines 1285-1329): loop variant and unrolled variant. -/
def storeHash {w} (A : Alg w) (unrolled : Bool) (hv : List (BitVec w)) (hash : List Byte) : Res (List Byte) :=
  if unrolled then
    runTable (fun r h => rd hv r.2 >>= fun v => runStore A.wordProg h r.1 v) A.storeRows hash
  else do
    let (h, _) ← forLoop 0 A.outWords (fun i (s : List Byte × Nat) => do
      let v ← rd hv i
      let h ← runStore A.wordProg s.1 s.2 v
      pure (h, s.2 + A.wordSize)) (hash, 0)
    pure h

/-- `libhmac_sha256_context_finalize` (lines 1159-1348, the variant without a crypto library). `hash` is the caller's output buffer (its length is the
number of bytes that may be written), `hashSize` the size argument. Returns the result, the context and the output buffer. -/
def ctxFinalize {w} (A : Alg w) (unrolled : Bool) (scr : Scr w) (ctx : Option (Ctx w)) (hash : Option (List Byte)) (hashSize : Nat) :
    Res (Int × Option (Ctx w) × Option (List Byte)) :=
  match ctx, hash with
  | none, h => .ok (-1, none, h)
  | some c, none => .ok (-1, some c, none)
  | some c, some h =>
    if hashSize < A.hashSize then .ok (-1, some c, some h)
    else if ssizeMax < hashSize then .ok (-1, some c, some h)
    else do
      let numberOfBlocks := if A.padLimit < c.blockOffset then 1 + 1 else 1
      let blockSize := numberOfBlocks * A.blockSize
      let blk ← memSet c.block c.blockOffset 0 (szSub blockSize c.blockOffset)
      let blk ← wr blk c.blockOffset 0x80
      let bitSize := (c.hashCount + BitVec.ofNat 64 c.blockOffset) * 8
      let blk ← runStore A.lenProg blk (blockSize - 8) bitSize
      let c := { c with block := blk }
      let (n, c', _) ← transform A unrolled scr (some c) (some c.block) blockSize
      match c' with
      | none => .ub
      | some c' =>
        if n = -1 then .ok (-1, some c', some h)
        else do
          let h ← storeHash A unrolled c'.hashValues h
          pure (1, some (zeroCtx A), some h)

end Model
