import Mathlib.Logic.Function.Basic
import Verif.Model.Python
/-! Threads of a Python program that call `update`: pyhmac/pyhmac_*_context.c:313-425 with the library function libhmac_*_context_update at the granularity of its statements.

The interpreter lock is released from Py_BEGIN_ALLOW_THREADS to Py_END_ALLOW_THREADS (pyhmac_sha256_context.c:398-406), that is for the whole library call; nothing else protects the context of the object. Steps of different threads
interleave in any order. Simplified: memory is sequentially consistent; a block transform, a copy and an assignment are one step each (real executions have more interleavings, not fewer); the code before and after the
library call touches no context and runs with the lock held, and is one step each. Line numbers are those of libhmac_sha256_context.c. -/

namespace Model

open Spec (Kind PyArg PyExc PyResult)

/-- Where a thread is in libhmac_sha256_context_update (lines 837-1004), with its local variables: `r` is `remaining_block_size`, `n` is `process_count`, `off` and `size` are `buffer_offset` and `size`. -/
inductive UpdPc where
  | enter
  | checkPending
  | checkBound
  | remaining
  | fillCopy (r : Nat)
  | fillAdvance (r : Nat)
  | fillTest (r : Nat)
  | fillTransform (r : Nat)
  | fillCount (r : Nat) (n : Int)
  | fillReset (r : Nat)
  | bulk (off size : Nat)
  | bulkCount (off size : Nat) (n : Int)
  | tail (off size : Nat)
  | tailOffset (size : Nat)
  | ret (r : Int)
  deriving DecidableEq

/-- One statement of libhmac_sha256_context_update on the context `c` and the buffer `b`, both not NULL. `scr`: the initial contents of the local arrays of the transform. -/
def updStep {w} (A : Alg w) (u : Bool) (scr : Scr w) (b : List Byte) (c : Ctx w) : UpdPc → Res (UpdPc × Ctx w)
  -- lines 872-887
  | .enter => .ok (if ssizeMax < b.length then .ret (-1) else if b.length = 0 then .ret 1 else .checkPending, c)
  -- line 888
  | .checkPending => .ok (if 0 < c.blockOffset then .checkBound else .bulk 0 b.length, c)
  -- lines 890-900
  | .checkBound => .ok (if A.blockSize ≤ c.blockOffset then .ret (-1) else .remaining, c)
  -- lines 901-906
  | .remaining => .ok (.fillCopy (if b.length < szSub A.blockSize c.blockOffset then b.length else szSub A.blockSize c.blockOffset), c)
  -- lines 907-920
  | .fillCopy r => do
    let blk ← memCopy c.block c.blockOffset b 0 r
    pure (.fillAdvance r, { c with block := blk })
  -- line 921
  | .fillAdvance r => .ok (.fillTest r, { c with blockOffset := c.blockOffset + r })
  -- lines 923-926
  | .fillTest r => .ok (if c.blockOffset < A.blockSize then .ret 1 else .fillTransform r, c)
  -- lines 930-945
  | .fillTransform r => do
    let (n, c', _) ← transform A u scr (some c) (some c.block) A.blockSize
    match c' with
    | none => .ub
    | some c' => pure (if n = -1 then .ret (-1) else .fillCount r n, c')
  -- line 947
  | .fillCount r n => .ok (.fillReset r, { c with hashCount := c.hashCount + BitVec.ofInt 64 n })
  -- line 948
  | .fillReset r => .ok (.bulk r (szSub b.length r), { c with blockOffset := 0 })
  -- lines 950-968
  | .bulk off size =>
    if 0 < size then do
      let p ← ptrAt b off
      let (n, c', _) ← transform A u scr (some c) (some p) size
      match c' with
      | none => .ub
      | some c' => pure (if n = -1 then .ret (-1) else .bulkCount off size n, c')
    else .ok (.tail off size, c)
  -- lines 969-972
  | .bulkCount off size n => .ok (.tail (off + n.toNat) (szSub size n.toNat), { c with hashCount := c.hashCount + BitVec.ofInt 64 n })
  -- lines 974-1000
  | .tail off size =>
    if 0 < size then
      if A.blockSize ≤ size then .ok (.ret (-1), c)
      else do
        let blk ← memCopy c.block 0 b off size
        pure (.tailOffset size, { c with block := blk })
    else .ok (.ret 1, c)
  -- line 1001
  | .tailOffset size => .ok (.ret 1, { c with blockOffset := size })
  | .ret r => .ok (.ret r, c)

/-- Where a thread is in `x.update(arg)`: before the arguments are parsed (the interpreter lock is needed), in the library (it is not), or after the method has returned. (pyhmac/pyhmac_sha256_context.c:313-425; the lock is released at line 398 and taken at line 406.) -/
inductive PyPc where
  | call (arg : Option PyArg)
  | lib (b : List Byte) (pc : UpdPc)
  | done (r : PyResult)
  deriving DecidableEq

/-- A thread: the number of the object it works on, and where it is. (A thread in pyhmac/pyhmac_sha256_context.c:313-425; threads are not code of /repo.) -/
structure PyThread where
  obj : Nat
  pc : PyPc

/-- The threads, and the contexts of the objects. (The objects of pyhmac/pyhmac_sha256_context.h:36-46; threads are not code of /repo.) -/
structure PyWorld (w : Nat) where
  threads : Nat → PyThread
  ctxs : Nat → Ctx w

/-- A step of one thread: `pyhmac_sha256_context_update` (pyhmac_sha256_context.c:313-425). -/
def pyThreadStep {w} (A : Alg w) (u : Bool) (scr : Scr w) (c : Ctx w) : PyPc → Res (PyPc × Ctx w)
  -- pyhmac_sha256_context.c:326-397
  | .call arg => .ok (match pyData arg with
    | .inl x => .done (.raised x)
    | .inr b => .lib b .enter, c)
  -- pyhmac_sha256_context.c:407-424
  | .lib _ (.ret r) => .ok (.done (if r ≠ 1 then .raised .io else .none), c)
  -- pyhmac_sha256_context.c:398-406
  | .lib b pc => do
    let (pc, c) ← updStep A u scr b c pc
    pure (.lib b pc, c)
  | .done r => .ok (.done r, c)

/-- A step of thread `t`. (A statement of pyhmac/pyhmac_sha256_context.c:313-425 or libhmac/libhmac_sha256_context.c:837-1004.) -/
def pyWorldStep {w} (A : Alg w) (u : Bool) (scr : Nat → Scr w) (t : Nat) (W : PyWorld w) : Res (PyWorld w) := do
  let (pc, c) ← pyThreadStep A u (scr t) (W.ctxs (W.threads t).obj) (W.threads t).pc
  pure ⟨Function.update W.threads t ⟨(W.threads t).obj, pc⟩, Function.update W.ctxs (W.threads t).obj c⟩

/-- The threads run in the order of the schedule. (Steps of pyhmac/pyhmac_sha256_context.c:313-425; the schedule is not code of /repo.) -/
def pyWorldRun {w} (A : Alg w) (u : Bool) (scr : Nat → Scr w) : List Nat → PyWorld w → Res (PyWorld w)
  | [], W => .ok W
  | t :: ts, W => pyWorldStep A u scr t W >>= pyWorldRun A u scr ts

end Model
