import Verif.Model.ByteStream
/-! Processing of one block in the built-in ("fallback") transforms, in both compile-time variants. -/

namespace Model

/-- The local arrays of a transform function, `hash_values[ ]` and `values_32bit[ ]` / `values_64bit[ ]`
(libhmac/libhmac_sha256_context.c:233-234). They are not initialised by the code, so they start with arbitrary contents. -/
structure Scr (w : Nat) where
  hv : List (BitVec w)
  vals : List (BitVec w)
  deriving DecidableEq

/-- Loop variant: break the block into 16 words (libhmac/libhmac_sha256_context.c:337-346; the same in
libhmac_sha224_context.c:337-346, libhmac_sha512_context.c:373-382, libhmac_sha1_context.c:366-375, libhmac_md5_context.c:309-318). -/
def loadLoop {w} (prog : List LoadStep) (wordSize : Nat) (buf : List Byte) (off : Nat) (vals : List (BitVec w)) :
    Res (Nat × List (BitVec w)) :=
  forLoop 0 16 (fun i s => do
    let v0 ← rd s.2 i
    let v ← runLoad prog buf s.1 v0
    let vals ← wr s.2 i v
    pure (s.1 + wordSize, vals)) (off, vals)

/-- Unrolled variant: the `libhmac_byte_stream_copy_to_16x_*` macros (libhmac/libhmac_byte_stream.h:50-66, 68-84, 120-136). Simplified:
the intermediate values of `values[ i ]` while it is assembled from bytes are not stored in the array. -/
def loadUnrolled {w} (prog : List LoadStep) (sh : Nat) (rows : List Nat) (buf : List Byte) (off : Nat) (vals : List (BitVec w)) :
    Res (List (BitVec w)) :=
  runTable (fun i vals => do
    let v0 ← rd vals i
    let v ← runLoad prog buf (off + (i <<< sh)) v0
    wr vals i v) rows vals

/-- Loop variant: `internal_context->hash_values[ i ] += hash_values[ i ]` (libhmac/libhmac_sha256_context.c:394-399,
libhmac_sha224_context.c:394-399, libhmac_sha512_context.c:430-435, libhmac_sha1_context.c:435-440, libhmac_md5_context.c:362-367). -/
def addLoop {w} (n : Nat) (ctxHv hv : List (BitVec w)) : Res (List (BitVec w)) :=
  forLoop 0 n (fun i c => do
    let a ← rd c i
    let b ← rd hv i
    wr c i (a + b)) ctxHv

/-- Unrolled variant of `addLoop` (libhmac/libhmac_sha256_context.c:325-332 and the corresponding lines cited at the tables). -/
def addUnrolled {w} (rows : List (Nat × Nat)) (ctxHv hv : List (BitVec w)) : Res (List (BitVec w)) :=
  runTable (fun r c => do
    let a ← rd c r.1
    let b ← rd hv r.2
    wr c r.1 (a + b)) rows ctxHv

/-! ### SHA-224, SHA-256, SHA-512 -/

/-- The parameters in which the SHA-224, SHA-256 and SHA-512 transforms differ textually. -/
structure Sha2P (w : Nat) where
  blockSize : Nat
  wordSize : Nat
  rounds : Nat
  k : List (BitVec w)
  /-- rotation, rotation, shift amounts of the message schedule macro -/
  ext0 : Nat × Nat × Nat
  ext1 : Nat × Nat × Nat
  /-- rotation amounts in the unrolled round macro -/
  macroS0 : Nat × Nat × Nat
  macroS1 : Nat × Nat × Nat
  /-- rotation amounts in the loop variant -/
  loopS0 : Nat × Nat × Nat
  loopS1 : Nat × Nat × Nat
  ldLoop : List LoadStep
  ldUnrolled : List LoadStep
  ldShift : Nat
  ldRows : List Nat
  extRows : List Nat
  roundRows : List (Nat × Nat × Nat × Nat × Nat × Nat × Nat × Nat × Nat)
  addRows : List (Nat × Nat)

/-- libhmac/libhmac_sha256_context.c:54-448 and libhmac_sha256_context.h:50. -/
def sha256P : Sha2P 32 where
  blockSize := 64
  wordSize := 4
  rounds := 64
  k := sha256K
  ext0 := (7, 18, 3)
  ext1 := (17, 19, 10)
  macroS0 := (2, 13, 22)
  macroS1 := (6, 11, 25)
  loopS0 := (2, 13, 22)
  loopS1 := (6, 11, 25)
  ldLoop := ld32be
  ldUnrolled := ld1x32be
  ldShift := 2
  ldRows := load16x32beRows
  extRows := sha256ExtendRows
  roundRows := sha256RoundRows
  addRows := sha256AddRows

/-- libhmac/libhmac_sha224_context.c:54-448 and libhmac_sha224_context.h:50. -/
def sha224P : Sha2P 32 where
  blockSize := 64
  wordSize := 4
  rounds := 64
  k := sha224K
  ext0 := (7, 18, 3)
  ext1 := (17, 19, 10)
  macroS0 := (2, 13, 22)
  macroS1 := (6, 11, 25)
  loopS0 := (2, 13, 22)
  loopS1 := (6, 11, 25)
  ldLoop := ld32be
  ldUnrolled := ld1x32be
  ldShift := 2
  ldRows := load16x32beRows
  extRows := sha224ExtendRows
  roundRows := sha224RoundRows
  addRows := sha224AddRows

/-- libhmac/libhmac_sha512_context.c:54-484 and libhmac_sha512_context.h:50. -/
def sha512P : Sha2P 64 where
  blockSize := 128
  wordSize := 8
  rounds := 80
  k := sha512K
  ext0 := (1, 8, 7)
  ext1 := (19, 61, 6)
  macroS0 := (28, 34, 39)
  macroS1 := (14, 18, 41)
  loopS0 := (28, 34, 39)
  loopS1 := (14, 18, 41)
  ldLoop := ld64be
  ldUnrolled := ld1x64be
  ldShift := 3
  ldRows := load16x64beRows
  extRows := sha512ExtendRows
  roundRows := sha512RoundRows
  addRows := sha512AddRows

/-- `rotate_right( x, a ) ^ rotate_right( x, b ) ^ ( x >> c )` (libhmac/libhmac_sha256_context.c:74-79, libhmac_sha512_context.c:78-83). -/
def sha2Ext {w} (x : BitVec w) (r : Nat × Nat × Nat) : Res (BitVec w) := do
  let a ← cRotr x r.1
  let b ← cRotr x r.2.1
  let c ← cShr x r.2.2
  pure (a ^^^ b ^^^ c)

/-- `rotate_right( x, a ) ^ rotate_right( x, b ) ^ rotate_right( x, c )` (libhmac/libhmac_sha256_context.c:137-142, 363-368,
libhmac_sha512_context.c:157-162, 399-404). -/
def sha2Sig {w} (x : BitVec w) (r : Nat × Nat × Nat) : Res (BitVec w) := do
  let a ← cRotr x r.1
  let b ← cRotr x r.2.1
  let c ← cRotr x r.2.2
  pure (a ^^^ b ^^^ c)

/-- The message schedule macro (libhmac/libhmac_sha256_context.c:73-84, libhmac_sha224_context.c:73-84, libhmac_sha512_context.c:77-88). -/
def sha2Extend {w} (P : Sha2P w) (i : Nat) (vals : List (BitVec w)) : Res (List (BitVec w)) := do
  let x15 ← rdSub vals i 15
  let s0 ← sha2Ext x15 P.ext0
  let x2 ← rdSub vals i 2
  let s1 ← sha2Ext x2 P.ext1
  let x16 ← rdSub vals i 16
  let x7 ← rdSub vals i 7
  wr vals i (x16 + s0 + x7 + s1)

/-- The unrolled round macro (libhmac/libhmac_sha256_context.c:136-156, libhmac_sha224_context.c:136-156,
libhmac_sha512_context.c:156-176). -/
def sha2MacroRound {w} (P : Sha2P w) (vals : List (BitVec w)) :
    Nat × Nat × Nat × Nat × Nat × Nat × Nat × Nat × Nat → List (BitVec w) → Res (List (BitVec w))
  | (t, i0, i1, i2, i3, i4, i5, i6, i7), hv => do
    let h0 ← rd hv i0
    let s0 ← sha2Sig h0 P.macroS0
    let h4 ← rd hv i4
    let s1 ← sha2Sig h4 P.macroS1
    let h7 ← rd hv i7
    let h5 ← rd hv i5
    let h6 ← rd hv i6
    let k ← rd P.k t
    let v ← rd vals t
    let t1 := h7 + s1 + ((h4 &&& h5) ^^^ (~~~h4 &&& h6)) + k + v
    let h1 ← rd hv i1
    let h2 ← rd hv i2
    let t2 := s0 + ((h0 &&& h1) ^^^ (h0 &&& h2) ^^^ (h1 &&& h2))
    let h3 ← rd hv i3
    let hv ← wr hv i3 (h3 + t1)
    wr hv i7 (t1 + t2)

/-- One iteration of the round loop (libhmac/libhmac_sha256_context.c:359-390, libhmac_sha224_context.c:359-390,
libhmac_sha512_context.c:395-426). -/
def sha2LoopRound {w} (P : Sha2P w) (vals : List (BitVec w)) (t : Nat) (hv : List (BitVec w)) : Res (List (BitVec w)) := do
  let h0 ← rd hv 0
  let s0 ← sha2Sig h0 P.loopS0
  let h4 ← rd hv 4
  let s1 ← sha2Sig h4 P.loopS1
  let h7 ← rd hv 7
  let h5 ← rd hv 5
  let h6 ← rd hv 6
  let k ← rd P.k t
  let v ← rd vals t
  let t1 := h7 + s1 + ((h4 &&& h5) ^^^ (~~~h4 &&& h6)) + k + v
  let h1 ← rd hv 1
  let h2 ← rd hv 2
  let t2 := s0 + ((h0 &&& h1) ^^^ (h0 &&& h2) ^^^ (h1 &&& h2))
  let hv ← rd hv 6 >>= wr hv 7
  let hv ← rd hv 5 >>= wr hv 6
  let hv ← rd hv 4 >>= wr hv 5
  let hv ← rd hv 3 >>= fun x => wr hv 4 (x + t1)
  let hv ← rd hv 2 >>= wr hv 3
  let hv ← rd hv 1 >>= wr hv 2
  let hv ← rd hv 0 >>= wr hv 1
  wr hv 0 (t1 + t2)

/-- Body of the `while` loop of the SHA-224/256/512 transforms for `&buffer[ buffer_offset ]`, `off = buffer_offset`
(libhmac/libhmac_sha256_context.c:282-403, libhmac_sha224_context.c:282-403, libhmac_sha512_context.c:318-439);
`unrolled` is `LIBHMAC_UNFOLLED_LOOPS`. -/
def sha2Block {w} (P : Sha2P w) (unrolled : Bool) (ctxHv : List (BitVec w)) (buf : List Byte) (off : Nat) (scr : Scr w) :
    Res (List (BitVec w) × Nat × Scr w) := do
  let hv ← memCopy scr.hv 0 ctxHv 0 8
  if unrolled then
    let vals ← loadUnrolled P.ldUnrolled P.ldShift P.ldRows buf off scr.vals
    let off := off + P.blockSize
    let vals ← runTable (sha2Extend P) P.extRows vals
    let hv ← runTable (sha2MacroRound P vals) P.roundRows hv
    let ctxHv ← addUnrolled P.addRows ctxHv hv
    pure (ctxHv, off, ⟨hv, vals⟩)
  else
    let (off, vals) ← loadLoop P.ldLoop P.wordSize buf off scr.vals
    let vals ← forLoop 16 P.rounds (sha2Extend P) vals
    let hv ← forLoop 0 P.rounds (sha2LoopRound P vals) hv
    let ctxHv ← addLoop 8 ctxHv hv
    pure (ctxHv, off, ⟨hv, vals⟩)

/-! ### SHA-1 -/

/-- The message schedule macro (libhmac/libhmac_sha1_context.c:51-58). -/
def sha1Extend (i : Nat) (vals : List (BitVec 32)) : Res (List (BitVec 32)) := do
  let a ← rdSub vals i 3
  let b ← rdSub vals i 8
  let c ← rdSub vals i 14
  let d ← rdSub vals i 16
  let vals ← wr vals i (a ^^^ b ^^^ c ^^^ d)
  let x ← rd vals i
  let y ← cRotl x 1
  wr vals i y

/-- The function and constant of the four unrolled round macros (libhmac/libhmac_sha1_context.c:126-180): first two statements. -/
def sha1MacroF (r : Nat) (b c d : BitVec 32) : BitVec 32 × BitVec 32 :=
  match r with
  | 1 => ((b &&& c) ||| (~~~b &&& d), 0x5a827999)
  | 2 => (b ^^^ c ^^^ d, 0x6ed9eba1)
  | 3 => ((b &&& c) ||| (b &&& d) ||| (c &&& d), 0x8f1bbcdc)
  | _ => (b ^^^ c ^^^ d, 0xca62c1d6)

/-- The unrolled round macros 1 to 4 (libhmac/libhmac_sha1_context.c:126-137, 139-150, 152-163, 165-179). -/
def sha1MacroRound (vals : List (BitVec 32)) :
    Nat × Nat × Nat × Nat × Nat × Nat × Nat → List (BitVec 32) → Res (List (BitVec 32))
  | (r, t, i0, i1, i2, i3, i4), hv => do
    let h4 ← rd hv i4
    let h1 ← rd hv i1
    let h2 ← rd hv i2
    let h3 ← rd hv i3
    let hv ← wr hv i4 (h4 + (sha1MacroF r h1 h2 h3).1)
    let h4 ← rd hv i4
    let hv ← wr hv i4 (h4 + (sha1MacroF r h1 h2 h3).2)
    let h0 ← rd hv i0
    let x ← cRotl h0 5
    let h4 ← rd hv i4
    let hv ← wr hv i4 (h4 + x)
    let v ← rd vals t
    let h4 ← rd hv i4
    let hv ← wr hv i4 (h4 + v)
    let h1 ← rd hv i1
    let y ← cRotl h1 30
    wr hv i1 y

/-- One iteration of the round loop (libhmac/libhmac_sha1_context.c:386-432). -/
def sha1LoopRound (vals : List (BitVec 32)) (t : Nat) (hv : List (BitVec 32)) : Res (List (BitVec 32)) := do
  let h1 ← rd hv 1
  let h2 ← rd hv 2
  let h3 ← rd hv 3
  let h4 ← rd hv 4
  let hv ←
    if t < 20 then do
      let hv ← wr hv 4 (h4 + ((h1 &&& h2) ||| (~~~h1 &&& h3)))
      rd hv 4 >>= fun x => wr hv 4 (x + 0x5a827999)
    else if t < 40 then do
      let hv ← wr hv 4 (h4 + (h1 ^^^ h2 ^^^ h3))
      rd hv 4 >>= fun x => wr hv 4 (x + 0x6ed9eba1)
    else if t < 60 then do
      let hv ← wr hv 4 (h4 + ((h1 &&& h2) ||| (h1 &&& h3) ||| (h2 &&& h3)))
      rd hv 4 >>= fun x => wr hv 4 (x + 0x8f1bbcdc)
    else do
      let hv ← wr hv 4 (h4 + (h1 ^^^ h2 ^^^ h3))
      rd hv 4 >>= fun x => wr hv 4 (x + 0xca62c1d6)
  let h0 ← rd hv 0
  let r5 ← cRotl h0 5
  let hv ← rd hv 4 >>= fun x => wr hv 4 (x + r5)
  let v ← rd vals t
  let hv ← rd hv 4 >>= fun x => wr hv 4 (x + v)
  let hashValue ← rd hv 4
  let hv ← rd hv 3 >>= wr hv 4
  let hv ← rd hv 2 >>= wr hv 3
  let b ← rd hv 1
  let r30 ← cRotl b 30
  let hv ← wr hv 2 r30
  let hv ← rd hv 0 >>= wr hv 1
  wr hv 0 hashValue

/-- Body of the `while` loop of the SHA-1 transform (libhmac/libhmac_sha1_context.c:321-444). -/
def sha1Block (unrolled : Bool) (ctxHv : List (BitVec 32)) (buf : List Byte) (off : Nat) (scr : Scr 32) :
    Res (List (BitVec 32) × Nat × Scr 32) := do
  let hv ← memCopy scr.hv 0 ctxHv 0 5
  if unrolled then
    let vals ← loadUnrolled ld1x32be 2 load16x32beRows buf off scr.vals
    let off := off + 64
    let vals ← runTable sha1Extend sha1ExtendRows vals
    let hv ← runTable (sha1MacroRound vals) sha1RoundRows hv
    let ctxHv ← addUnrolled sha1AddRows ctxHv hv
    pure (ctxHv, off, ⟨hv, vals⟩)
  else
    let (off, vals) ← loadLoop ld32be 4 buf off scr.vals
    let vals ← forLoop 16 80 sha1Extend vals
    let hv ← forLoop 0 80 (sha1LoopRound vals) hv
    let ctxHv ← addLoop 5 ctxHv hv
    pure (ctxHv, off, ⟨hv, vals⟩)

/-! ### MD5 -/

/-- The function of the four unrolled round macros (libhmac/libhmac_md5_context.c:95-143): first statement. -/
def md5MacroF (r : Nat) (b c d : BitVec 32) : BitVec 32 :=
  match r with
  | 1 => (b &&& c) ||| (~~~b &&& d)
  | 2 => (b &&& d) ||| (c &&& ~~~d)
  | 3 => b ^^^ c ^^^ d
  | _ => c ^^^ (b ||| ~~~d)

/-- The unrolled round macros 1 to 4 (libhmac/libhmac_md5_context.c:95-106, 108-119, 121-131, 133-143). -/
def md5MacroRound (vals : List (BitVec 32)) :
    Nat × Nat × Nat × Nat × Nat × Nat × Nat → List (BitVec 32) → Res (List (BitVec 32))
  | (r, k, i0, i1, i2, i3, t), hv => do
    let h0 ← rd hv i0
    let h1 ← rd hv i1
    let h2 ← rd hv i2
    let h3 ← rd hv i3
    let hv ← wr hv i0 (h0 + md5MacroF r h1 h2 h3)
    let x ← rd vals k
    let hv ← rd hv i0 >>= fun y => wr hv i0 (y + x)
    let s ← rd md5Sines t
    let hv ← rd hv i0 >>= fun y => wr hv i0 (y + s)
    let n ← rd md5Shifts t
    let y ← rd hv i0
    let z ← cRotl y n
    let hv ← wr hv i0 z
    let h1 ← rd hv i1
    let h0 ← rd hv i0
    wr hv i0 (h0 + h1)

/-- One iteration of the operation loop (libhmac/libhmac_md5_context.c:321-359). -/
def md5LoopRound (vals : List (BitVec 32)) (t : Nat) (hv : List (BitVec 32)) : Res (List (BitVec 32)) := do
  let h0 ← rd hv 0
  let h1 ← rd hv 1
  let h2 ← rd hv 2
  let h3 ← rd hv 3
  let hv ←
    if t < 16 then wr hv 0 (h0 + ((h1 &&& h2) ||| (~~~h1 &&& h3)))
    else if t < 32 then wr hv 0 (h0 + ((h1 &&& h3) ||| (h2 &&& ~~~h3)))
    else if t < 48 then wr hv 0 (h0 + (h1 ^^^ h2 ^^^ h3))
    else wr hv 0 (h0 + (h2 ^^^ (h1 ||| ~~~h3)))
  let k ← rd md5Index t
  let x ← rd vals k
  let hv ← rd hv 0 >>= fun y => wr hv 0 (y + x)
  let s ← rd md5Sines t
  let hv ← rd hv 0 >>= fun y => wr hv 0 (y + s)
  let n ← rd md5Shifts t
  let y ← rd hv 0
  let z ← cRotl y n
  let hv ← wr hv 0 z
  let hashValue ← rd hv 3
  let hv ← rd hv 2 >>= wr hv 3
  let hv ← rd hv 1 >>= wr hv 2
  let a ← rd hv 0
  let hv ← rd hv 1 >>= fun b => wr hv 1 (b + a)
  wr hv 0 hashValue

/-- Body of the `while` loop of the MD5 transform (libhmac/libhmac_md5_context.c:269-371). -/
def md5Block (unrolled : Bool) (ctxHv : List (BitVec 32)) (buf : List Byte) (off : Nat) (scr : Scr 32) :
    Res (List (BitVec 32) × Nat × Scr 32) := do
  let hv ← memCopy scr.hv 0 ctxHv 0 4
  if unrolled then
    let vals ← loadUnrolled ld1x32le 2 load16x32leRows buf off scr.vals
    let off := off + 64
    let hv ← runTable (md5MacroRound vals) md5RoundRows hv
    let ctxHv ← addUnrolled md5AddRows ctxHv hv
    pure (ctxHv, off, ⟨hv, vals⟩)
  else
    let (off, vals) ← loadLoop ld32le 4 buf off scr.vals
    let hv ← forLoop 0 64 (md5LoopRound vals) hv
    let ctxHv ← addLoop 4 ctxHv hv
    pure (ctxHv, off, ⟨hv, vals⟩)

end Model
