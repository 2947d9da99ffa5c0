import Verif.Model.Block
/-! The built-in code once more with what an observer of its execution may see: which branches are taken, which array elements are accessed, shift counts, and lengths of copies (`Obs`).
The values computed are those of the other model files (proved in Proofs/Trace). This file: the observations, and the transforms of one block. -/

namespace Model

/-- The arrays: the caller's input, the block in the context, the hash values in the context, the local arrays `hash_values[ ]` and `values_32bit[ ]` of the transforms, the constant tables,
the output area, and the buffers of the HMAC computation. -/
inductive Arr where
  | input | block | state | work | sched | table | output | keyData | inner | outer | key | keyHash
  deriving DecidableEq

/-- One observation. `ptr`: an offset added to a pointer; `deref`: an access through a pointer to a heap object; `area`: the address and size of a caller's area handed on. (Not code of /repo: what may be seen of the execution of, for example, libhmac/libhmac_sha256_context.c:227-448.) -/
inductive Obs where
  | read (a : Arr) (i : Nat)
  | write (a : Arr) (i : Nat)
  | copy (dst : Arr) (doff : Nat) (src : Arr) (soff n : Nat)
  | set (dst : Arr) (off n : Nat)
  | branch (b : Bool)
  | shift (n : Nat)
  | ptr (n : Nat)
  | alloc (n : Nat)
  | free (p : Nat)
  | deref (p : Option Nat)
  | area (p : Option Nat) (n : Nat)
  deriving DecidableEq

/-- Code with its observations: those made until it ends (or has undefined behaviour), and its outcome. (Not code of /repo; see `Obs` and libhmac/libhmac_sha256_context.c:227-448.) -/
structure Tr (α : Type) where
  trace : List Obs
  res : Res α

namespace Tr

/-- Sequencing. (Statements one after the other in libhmac/libhmac_sha256_context.c:227-448.) -/
@[inline] def bind {α β} (x : Tr α) (f : α → Tr β) : Tr β :=
  match x.res with
  | .ok a => ⟨x.trace ++ (f a).trace, (f a).res⟩
  | .ub => ⟨x.trace, .ub⟩
  | .diverge => ⟨x.trace, .diverge⟩

/-- Sequencing of traced statements (for example libhmac/libhmac_sha256_context.c:300-332). -/
instance : Monad Tr where
  pure a := ⟨[], .ok a⟩
  bind := bind

/-- Undefined behaviour. (As `Res.ub`; no code of /repo.) -/
def ub {α} : Tr α := ⟨[], .ub⟩

/-- Divergence. (As `Res.diverge`; no code of /repo.) -/
def diverge {α} : Tr α := ⟨[], .diverge⟩

end Tr

/-- `Base.rd` (For example libhmac/libhmac_sha256_context.c:341-371.) -/
def tRd {α} (n : Arr) (a : List α) (i : Nat) : Tr α := ⟨[.read n i], rd a i⟩

/-- `Base.wr` (For example libhmac/libhmac_sha256_context.c:341-360.) -/
def tWr {α} (n : Arr) (a : List α) (i : Nat) (v : α) : Tr (List α) := ⟨[.write n i], wr a i v⟩

/-- `Base.memCopy` (common/memory.h:113-114.) -/
def tCopy {α} (nd : Arr) (dst : List α) (doff : Nat) (ns : Arr) (src : List α) (soff n : Nat) : Tr (List α) := ⟨[.copy nd doff ns soff n], memCopy dst doff src soff n⟩

/-- `Base.memSet` (common/memory.h:120-121.) -/
def tSet {α} (nd : Arr) (dst : List α) (off : Nat) (v : α) (n : Nat) : Tr (List α) := ⟨[.set nd off n], memSet dst off v n⟩

/-- A conditional branch. (For example the tests of libhmac/libhmac_sha256_context.c:248-281.) -/
def tBranch (p : Prop) [Decidable p] : Tr Bool := ⟨[.branch (decide p)], .ok (decide p)⟩

/-- `Base.forCount`, with the branch at the head of the loop. (For example the loops of libhmac/libhmac_sha256_context.c:281-403.) -/
def tForCount {σ} (f : Nat → σ → Tr σ) (i : Nat) : Nat → σ → Tr σ
  | 0, s => ⟨[.branch false], .ok s⟩
  | n + 1, s => ⟨[.branch true], .ok ()⟩ >>= fun _ => f i s >>= fun s' => tForCount f (i + 1) n s'

/-- `Base.forLoop` (For example the loops of libhmac/libhmac_sha256_context.c:281-403.) -/
def tForLoop {σ} (lo hi : Nat) (f : Nat → σ → Tr σ) (s : σ) : Tr σ := tForCount f lo (hi - lo) s

/-- `Base.runTable`: straight-line code. (For example the macro invocations of libhmac/libhmac_sha256_context.c:300-330.) -/
def tRunTable {ρ σ} (f : ρ → σ → Tr σ) : List ρ → σ → Tr σ
  | [], s => pure s
  | r :: rs, s => f r s >>= fun s' => tRunTable f rs s'

/-- `Model.loadStep` (common/byte_stream.h:54-154, libhmac/libhmac_byte_stream.h:32-118). -/
def tLoadStep {w} (n : Arr) (bs : List Byte) (off : Nat) : LoadStep → BitVec w → Tr (BitVec w)
  | .set i, _ => do let b ← tRd n bs (off + i); pure (b.setWidth w)
  | .or i, v => do let b ← tRd n bs (off + i); pure (v ||| b.setWidth w)
  | .shl8, v => ⟨[.shift 8], .ok (v <<< 8)⟩

/-- `Model.runLoad` (For example common/byte_stream.h:78-82.) -/
def tRunLoad {w} (n : Arr) (prog : List LoadStep) (bs : List Byte) (off : Nat) (v0 : BitVec w) : Tr (BitVec w) := tRunTable (tLoadStep n bs off) prog v0

/-- `Model.runStore` (common/byte_stream.h:156-220). -/
def tRunStore {w} (n : Arr) (prog : List (Nat × Nat)) (bs : List Byte) (off : Nat) (v : BitVec w) : Tr (List Byte) :=
  tRunTable (fun r bs => if r.2 < max w 32 then ⟨[.shift r.2], .ok ()⟩ >>= fun _ => tWr n bs (off + r.1) (((v >>> r.2) &&& 0xff#w).setWidth 8) else .ub) prog bs

/-- `Model.cRotl` (common/byte_stream.h:234-235, 240-241). -/
def tRotl {w} (x : BitVec w) (n : Nat) : Tr (BitVec w) := ⟨[.shift n], cRotl x n⟩

/-- `Model.cRotr` (common/byte_stream.h:237-238, 243-244). -/
def tRotr {w} (x : BitVec w) (n : Nat) : Tr (BitVec w) := ⟨[.shift n], cRotr x n⟩

/-- `Model.cShr` (for example libhmac/libhmac_sha256_context.c:76). -/
def tShr {w} (x : BitVec w) (n : Nat) : Tr (BitVec w) := ⟨[.shift n], cShr x n⟩

/-- `Model.rdSub` (for example libhmac/libhmac_sha256_context.c:74-84). -/
def tRdSub {α} (n : Arr) (a : List α) (i k : Nat) : Tr α := ⟨[.read n (i - k)], rdSub a i k⟩

/-- `Model.ptrAt` (for example libhmac/libhmac_sha256_context.c:954). -/
def tPtrAt {α} (buf : List α) (off : Nat) : Tr (List α) := ⟨[.ptr off], ptrAt buf off⟩

/-- `Model.loadLoop` (libhmac/libhmac_sha256_context.c:337-346). `n`: the array that is transformed. -/
def tLoadLoop {w} (n : Arr) (prog : List LoadStep) (wordSize : Nat) (buf : List Byte) (off : Nat) (vals : List (BitVec w)) : Tr (Nat × List (BitVec w)) :=
  tForLoop 0 16 (fun i s => do
    let v0 ← tRd .sched s.2 i
    let v ← tRunLoad n prog buf s.1 v0
    let vals ← tWr .sched s.2 i v
    pure (s.1 + wordSize, vals)) (off, vals)

/-- `Model.loadUnrolled` (libhmac/libhmac_byte_stream.h:50-66, 68-84, 120-136). -/
def tLoadUnrolled {w} (n : Arr) (prog : List LoadStep) (sh : Nat) (rows : List Nat) (buf : List Byte) (off : Nat) (vals : List (BitVec w)) : Tr (List (BitVec w)) :=
  tRunTable (fun i vals => do
    let v0 ← tRd .sched vals i
    let v ← tRunLoad n prog buf (off + (i <<< sh)) v0
    tWr .sched vals i v) rows vals

/-- `Model.addLoop` (libhmac/libhmac_sha256_context.c:394-399). -/
def tAddLoop {w} (n : Nat) (ctxHv hv : List (BitVec w)) : Tr (List (BitVec w)) :=
  tForLoop 0 n (fun i c => do
    let a ← tRd .state c i
    let b ← tRd .work hv i
    tWr .state c i (a + b)) ctxHv

/-- `Model.addUnrolled` (libhmac/libhmac_sha256_context.c:325-332). -/
def tAddUnrolled {w} (rows : List (Nat × Nat)) (ctxHv hv : List (BitVec w)) : Tr (List (BitVec w)) :=
  tRunTable (fun r c => do
    let a ← tRd .state c r.1
    let b ← tRd .work hv r.2
    tWr .state c r.1 (a + b)) rows ctxHv

/-- `Model.sha2Ext` (libhmac/libhmac_sha256_context.c:74-79, libhmac_sha512_context.c:78-83). -/
def tSha2Ext {w} (x : BitVec w) (r : Nat × Nat × Nat) : Tr (BitVec w) := do
  let a ← tRotr x r.1
  let b ← tRotr x r.2.1
  let c ← tShr x r.2.2
  pure (a ^^^ b ^^^ c)

/-- `Model.sha2Sig` (libhmac/libhmac_sha256_context.c:137-142, 363-368, libhmac_sha512_context.c:157-162, 399-404). -/
def tSha2Sig {w} (x : BitVec w) (r : Nat × Nat × Nat) : Tr (BitVec w) := do
  let a ← tRotr x r.1
  let b ← tRotr x r.2.1
  let c ← tRotr x r.2.2
  pure (a ^^^ b ^^^ c)

/-- `Model.sha2Extend` (libhmac/libhmac_sha256_context.c:73-84, libhmac_sha224_context.c:73-84, libhmac_sha512_context.c:77-88). -/
def tSha2Extend {w} (P : Sha2P w) (i : Nat) (vals : List (BitVec w)) : Tr (List (BitVec w)) := do
  let x15 ← tRdSub .sched vals i 15
  let s0 ← tSha2Ext x15 P.ext0
  let x2 ← tRdSub .sched vals i 2
  let s1 ← tSha2Ext x2 P.ext1
  let x16 ← tRdSub .sched vals i 16
  let x7 ← tRdSub .sched vals i 7
  tWr .sched vals i (x16 + s0 + x7 + s1)

/-- `Model.sha2MacroRound` (libhmac/libhmac_sha256_context.c:136-156, libhmac_sha224_context.c:136-156, libhmac_sha512_context.c:156-176). -/
def tSha2MacroRound {w} (P : Sha2P w) (vals : List (BitVec w)) : Nat × Nat × Nat × Nat × Nat × Nat × Nat × Nat × Nat → List (BitVec w) → Tr (List (BitVec w))
  | (t, i0, i1, i2, i3, i4, i5, i6, i7), hv => do
    let h0 ← tRd .work hv i0
    let s0 ← tSha2Sig h0 P.macroS0
    let h4 ← tRd .work hv i4
    let s1 ← tSha2Sig h4 P.macroS1
    let h7 ← tRd .work hv i7
    let h5 ← tRd .work hv i5
    let h6 ← tRd .work hv i6
    let k ← tRd .table P.k t
    let v ← tRd .sched vals t
    let t1 := h7 + s1 + ((h4 &&& h5) ^^^ (~~~h4 &&& h6)) + k + v
    let h1 ← tRd .work hv i1
    let h2 ← tRd .work hv i2
    let t2 := s0 + ((h0 &&& h1) ^^^ (h0 &&& h2) ^^^ (h1 &&& h2))
    let h3 ← tRd .work hv i3
    let hv ← tWr .work hv i3 (h3 + t1)
    tWr .work hv i7 (t1 + t2)

/-- `Model.sha2LoopRound` (libhmac/libhmac_sha256_context.c:359-390, libhmac_sha224_context.c:359-390, libhmac_sha512_context.c:395-426). -/
def tSha2LoopRound {w} (P : Sha2P w) (vals : List (BitVec w)) (t : Nat) (hv : List (BitVec w)) : Tr (List (BitVec w)) := do
  let h0 ← tRd .work hv 0
  let s0 ← tSha2Sig h0 P.loopS0
  let h4 ← tRd .work hv 4
  let s1 ← tSha2Sig h4 P.loopS1
  let h7 ← tRd .work hv 7
  let h5 ← tRd .work hv 5
  let h6 ← tRd .work hv 6
  let k ← tRd .table P.k t
  let v ← tRd .sched vals t
  let t1 := h7 + s1 + ((h4 &&& h5) ^^^ (~~~h4 &&& h6)) + k + v
  let h1 ← tRd .work hv 1
  let h2 ← tRd .work hv 2
  let t2 := s0 + ((h0 &&& h1) ^^^ (h0 &&& h2) ^^^ (h1 &&& h2))
  let hv ← tRd .work hv 6 >>= tWr .work hv 7
  let hv ← tRd .work hv 5 >>= tWr .work hv 6
  let hv ← tRd .work hv 4 >>= tWr .work hv 5
  let hv ← tRd .work hv 3 >>= fun x => tWr .work hv 4 (x + t1)
  let hv ← tRd .work hv 2 >>= tWr .work hv 3
  let hv ← tRd .work hv 1 >>= tWr .work hv 2
  let hv ← tRd .work hv 0 >>= tWr .work hv 1
  tWr .work hv 0 (t1 + t2)

/-- `Model.sha2Block` (libhmac/libhmac_sha256_context.c:282-403, libhmac_sha224_context.c:282-403, libhmac_sha512_context.c:318-439). -/
def tSha2Block {w} (P : Sha2P w) (n : Arr) (unrolled : Bool) (ctxHv : List (BitVec w)) (buf : List Byte) (off : Nat) (scr : Scr w) : Tr (List (BitVec w) × Nat × Scr w) := do
  let hv ← tCopy .work scr.hv 0 .state ctxHv 0 8
  if unrolled then
    let vals ← tLoadUnrolled n P.ldUnrolled P.ldShift P.ldRows buf off scr.vals
    let off := off + P.blockSize
    let vals ← tRunTable (tSha2Extend P) P.extRows vals
    let hv ← tRunTable (tSha2MacroRound P vals) P.roundRows hv
    let ctxHv ← tAddUnrolled P.addRows ctxHv hv
    pure (ctxHv, off, ⟨hv, vals⟩)
  else
    let (off, vals) ← tLoadLoop n P.ldLoop P.wordSize buf off scr.vals
    let vals ← tForLoop 16 P.rounds (tSha2Extend P) vals
    let hv ← tForLoop 0 P.rounds (tSha2LoopRound P vals) hv
    let ctxHv ← tAddLoop 8 ctxHv hv
    pure (ctxHv, off, ⟨hv, vals⟩)

/-- `Model.sha1Extend` (libhmac/libhmac_sha1_context.c:51-58). -/
def tSha1Extend (i : Nat) (vals : List (BitVec 32)) : Tr (List (BitVec 32)) := do
  let a ← tRdSub .sched vals i 3
  let b ← tRdSub .sched vals i 8
  let c ← tRdSub .sched vals i 14
  let d ← tRdSub .sched vals i 16
  let vals ← tWr .sched vals i (a ^^^ b ^^^ c ^^^ d)
  let x ← tRd .sched vals i
  let y ← tRotl x 1
  tWr .sched vals i y

/-- `Model.sha1MacroRound` (libhmac/libhmac_sha1_context.c:126-137, 139-150, 152-163, 165-179). -/
def tSha1MacroRound (vals : List (BitVec 32)) : Nat × Nat × Nat × Nat × Nat × Nat × Nat → List (BitVec 32) → Tr (List (BitVec 32))
  | (r, t, i0, i1, i2, i3, i4), hv => do
    let h4 ← tRd .work hv i4
    let h1 ← tRd .work hv i1
    let h2 ← tRd .work hv i2
    let h3 ← tRd .work hv i3
    let hv ← tWr .work hv i4 (h4 + (sha1MacroF r h1 h2 h3).1)
    let h4 ← tRd .work hv i4
    let hv ← tWr .work hv i4 (h4 + (sha1MacroF r h1 h2 h3).2)
    let h0 ← tRd .work hv i0
    let x ← tRotl h0 5
    let h4 ← tRd .work hv i4
    let hv ← tWr .work hv i4 (h4 + x)
    let v ← tRd .sched vals t
    let h4 ← tRd .work hv i4
    let hv ← tWr .work hv i4 (h4 + v)
    let h1 ← tRd .work hv i1
    let y ← tRotl h1 30
    tWr .work hv i1 y

/-- `Model.sha1LoopRound` (libhmac/libhmac_sha1_context.c:386-432). -/
def tSha1LoopRound (vals : List (BitVec 32)) (t : Nat) (hv : List (BitVec 32)) : Tr (List (BitVec 32)) := do
  let h1 ← tRd .work hv 1
  let h2 ← tRd .work hv 2
  let h3 ← tRd .work hv 3
  let h4 ← tRd .work hv 4
  let hv ← (tBranch (t < 20) >>= fun b =>
    if b then (do
      let hv ← tWr .work hv 4 (h4 + ((h1 &&& h2) ||| (~~~h1 &&& h3)))
      tRd .work hv 4 >>= fun x => tWr .work hv 4 (x + 0x5a827999))
    else tBranch (t < 40) >>= fun b =>
    if b then (do
      let hv ← tWr .work hv 4 (h4 + (h1 ^^^ h2 ^^^ h3))
      tRd .work hv 4 >>= fun x => tWr .work hv 4 (x + 0x6ed9eba1))
    else tBranch (t < 60) >>= fun b =>
    if b then (do
      let hv ← tWr .work hv 4 (h4 + ((h1 &&& h2) ||| (h1 &&& h3) ||| (h2 &&& h3)))
      tRd .work hv 4 >>= fun x => tWr .work hv 4 (x + 0x8f1bbcdc))
    else (do
      let hv ← tWr .work hv 4 (h4 + (h1 ^^^ h2 ^^^ h3))
      tRd .work hv 4 >>= fun x => tWr .work hv 4 (x + 0xca62c1d6)))
  let h0 ← tRd .work hv 0
  let r5 ← tRotl h0 5
  let hv ← tRd .work hv 4 >>= fun x => tWr .work hv 4 (x + r5)
  let v ← tRd .sched vals t
  let hv ← tRd .work hv 4 >>= fun x => tWr .work hv 4 (x + v)
  let hashValue ← tRd .work hv 4
  let hv ← tRd .work hv 3 >>= tWr .work hv 4
  let hv ← tRd .work hv 2 >>= tWr .work hv 3
  let b ← tRd .work hv 1
  let r30 ← tRotl b 30
  let hv ← tWr .work hv 2 r30
  let hv ← tRd .work hv 0 >>= tWr .work hv 1
  tWr .work hv 0 hashValue

/-- `Model.sha1Block` (libhmac/libhmac_sha1_context.c:321-444). -/
def tSha1Block (n : Arr) (unrolled : Bool) (ctxHv : List (BitVec 32)) (buf : List Byte) (off : Nat) (scr : Scr 32) : Tr (List (BitVec 32) × Nat × Scr 32) := do
  let hv ← tCopy .work scr.hv 0 .state ctxHv 0 5
  if unrolled then
    let vals ← tLoadUnrolled n ld1x32be 2 load16x32beRows buf off scr.vals
    let off := off + 64
    let vals ← tRunTable tSha1Extend sha1ExtendRows vals
    let hv ← tRunTable (tSha1MacroRound vals) sha1RoundRows hv
    let ctxHv ← tAddUnrolled sha1AddRows ctxHv hv
    pure (ctxHv, off, ⟨hv, vals⟩)
  else
    let (off, vals) ← tLoadLoop n ld32be 4 buf off scr.vals
    let vals ← tForLoop 16 80 tSha1Extend vals
    let hv ← tForLoop 0 80 (tSha1LoopRound vals) hv
    let ctxHv ← tAddLoop 5 ctxHv hv
    pure (ctxHv, off, ⟨hv, vals⟩)

/-- `Model.md5MacroRound` (libhmac/libhmac_md5_context.c:95-106, 108-119, 121-131, 133-143). -/
def tMd5MacroRound (vals : List (BitVec 32)) : Nat × Nat × Nat × Nat × Nat × Nat × Nat → List (BitVec 32) → Tr (List (BitVec 32))
  | (r, k, i0, i1, i2, i3, t), hv => do
    let h0 ← tRd .work hv i0
    let h1 ← tRd .work hv i1
    let h2 ← tRd .work hv i2
    let h3 ← tRd .work hv i3
    let hv ← tWr .work hv i0 (h0 + md5MacroF r h1 h2 h3)
    let x ← tRd .sched vals k
    let hv ← tRd .work hv i0 >>= fun y => tWr .work hv i0 (y + x)
    let s ← tRd .table md5Sines t
    let hv ← tRd .work hv i0 >>= fun y => tWr .work hv i0 (y + s)
    let n ← tRd .table md5Shifts t
    let y ← tRd .work hv i0
    let z ← tRotl y n
    let hv ← tWr .work hv i0 z
    let h1 ← tRd .work hv i1
    let h0 ← tRd .work hv i0
    tWr .work hv i0 (h0 + h1)

/-- `Model.md5LoopRound` (libhmac/libhmac_md5_context.c:321-359). -/
def tMd5LoopRound (vals : List (BitVec 32)) (t : Nat) (hv : List (BitVec 32)) : Tr (List (BitVec 32)) := do
  let h0 ← tRd .work hv 0
  let h1 ← tRd .work hv 1
  let h2 ← tRd .work hv 2
  let h3 ← tRd .work hv 3
  let hv ← (tBranch (t < 16) >>= fun b =>
    if b then tWr .work hv 0 (h0 + ((h1 &&& h2) ||| (~~~h1 &&& h3)))
    else tBranch (t < 32) >>= fun b =>
    if b then tWr .work hv 0 (h0 + ((h1 &&& h3) ||| (h2 &&& ~~~h3)))
    else tBranch (t < 48) >>= fun b =>
    if b then tWr .work hv 0 (h0 + (h1 ^^^ h2 ^^^ h3))
    else tWr .work hv 0 (h0 + (h2 ^^^ (h1 ||| ~~~h3))))
  let k ← tRd .table md5Index t
  let x ← tRd .sched vals k
  let hv ← tRd .work hv 0 >>= fun y => tWr .work hv 0 (y + x)
  let s ← tRd .table md5Sines t
  let hv ← tRd .work hv 0 >>= fun y => tWr .work hv 0 (y + s)
  let n ← tRd .table md5Shifts t
  let y ← tRd .work hv 0
  let z ← tRotl y n
  let hv ← tWr .work hv 0 z
  let hashValue ← tRd .work hv 3
  let hv ← tRd .work hv 2 >>= tWr .work hv 3
  let hv ← tRd .work hv 1 >>= tWr .work hv 2
  let a ← tRd .work hv 0
  let hv ← tRd .work hv 1 >>= fun b => tWr .work hv 1 (b + a)
  tWr .work hv 0 hashValue

/-- `Model.md5Block` (libhmac/libhmac_md5_context.c:269-371). -/
def tMd5Block (n : Arr) (unrolled : Bool) (ctxHv : List (BitVec 32)) (buf : List Byte) (off : Nat) (scr : Scr 32) : Tr (List (BitVec 32) × Nat × Scr 32) := do
  let hv ← tCopy .work scr.hv 0 .state ctxHv 0 4
  if unrolled then
    let vals ← tLoadUnrolled n ld1x32le 2 load16x32leRows buf off scr.vals
    let off := off + 64
    let hv ← tRunTable (tMd5MacroRound vals) md5RoundRows hv
    let ctxHv ← tAddUnrolled md5AddRows ctxHv hv
    pure (ctxHv, off, ⟨hv, vals⟩)
  else
    let (off, vals) ← tLoadLoop n ld32le 4 buf off scr.vals
    let hv ← tForLoop 0 64 (tMd5LoopRound vals) hv
    let ctxHv ← tAddLoop 4 ctxHv hv
    pure (ctxHv, off, ⟨hv, vals⟩)

end Model
