import Verif.Spec.PyJobs
import Verif.Model.PyThreads
import Verif.Model.Kinds
/-! Threads of a Python program that make any number of calls of `update` and `finalize` on objects of any kinds: pyhmac/pyhmac_*_context.c:313-494 with the library functions at the granularity of their statements.
As in `Model/PyThreads.lean` memory is sequentially consistent, and a block transform, a copy and an assignment are one step each; also the stores of all hash values into the local array of `finalize` are one step. All contexts are
those of objects that have one. -/

namespace Model

open Spec (Kind PyArg PyExc PyResult PyCall)

/-- Where a thread is in libhmac_sha256_context_finalize (libhmac_sha256_context.c:1159-1348), with its local variables: `size` is `block_size`, `bits` is `bit_size`, `h` is the contents of the array `hash` of the caller. -/
inductive FinPc where
  | enter
  | blocks
  | clear (size : Nat)
  | mark (size : Nat)
  | bits (size : Nat)
  | length (size : Nat) (bits : BitVec 64)
  | transform (size : Nat)
  | digest
  | wipe (h : List Byte)
  | ret (r : Int) (h : List Byte)
  deriving DecidableEq

/-- One statement of libhmac_sha256_context_finalize on the context `c` and an array with contents `out` for a hash of size `n`, both not NULL. -/
def finStep {w} (A : Alg w) (u : Bool) (scr : Scr w) (out : List Byte) (n : Nat) (c : Ctx w) : FinPc → Res (FinPc × Ctx w)
  -- lines 1201-1233
  | .enter => .ok (if n < A.hashSize then .ret (-1) out else if ssizeMax < n then .ret (-1) out else .blocks, c)
  -- lines 1236-1242
  | .blocks => .ok (.clear ((if A.padLimit < c.blockOffset then 1 + 1 else 1) * A.blockSize), c)
  -- lines 1244-1257
  | .clear size => do
    let blk ← memSet c.block c.blockOffset 0 (szSub size c.blockOffset)
    pure (.mark size, { c with block := blk })
  -- line 1260
  | .mark size => do
    let blk ← wr c.block c.blockOffset 0x80
    pure (.bits size, { c with block := blk })
  -- line 1262
  | .bits size => .ok (.length size ((c.hashCount + BitVec.ofNat 64 c.blockOffset) * 8), c)
  -- lines 1264-1266
  | .length size bits => do
    let blk ← runStore A.lenProg c.block (size - 8) bits
    pure (.transform size, { c with block := blk })
  -- lines 1268-1284
  | .transform size => do
    let (n, c', _) ← Model.transform A u scr (some c) (some c.block) size
    match c' with
    | none => .ub
    | some c' => pure (if n = -1 then .ret (-1) out else .digest, c')
  -- lines 1285-1329
  | .digest => do
    let h ← storeHash A u c.hashValues out
    pure (.wipe h, c)
  -- lines 1333-1347
  | .wipe h => .ok (.ret 1 h, zeroCtx A)
  | .ret r h => .ok (.ret r h, c)

/-- Where a thread is: between two calls, or in `update` or `finalize` of object `o`, with the interpreter lock released. (pyhmac/pyhmac_sha256_context.c:398-406 and 452-460.) -/
inductive JobPc where
  | idle
  | upd (o : Nat) (b : List Byte) (pc : UpdPc)
  | fin (o : Nat) (ok : Bool) (pc : FinPc)
  deriving DecidableEq

/-- The object that the thread works on. (An argument of pyhmac/pyhmac_sha256_context.c:313-494.) -/
def JobPc.obj : JobPc → Option Nat
  | .idle => none
  | .upd o _ _ => some o
  | .fin o _ _ => some o

/-- A thread: the calls it has still to make, the results it got, and where it is. (Calls of pyhmac/pyhmac_sha256_context.c:313-494; threads are not code of /repo.) -/
structure PyJob where
  todo : List PyCall
  results : List PyResult
  pc : JobPc

/-- The threads, the contexts of the objects, for each object the thread that last began a call on it which has not returned (a lock, if the program has them), and the threads that have begun calls, in this order.
(The objects of pyhmac/pyhmac_sha256_context.h:36-46; threads are not code of /repo; the last component is only for the statements of theorems.) -/
structure PyJobs (kinds : Nat → Kind) where
  threads : Nat → PyJob
  ctxs : (o : Nat) → Ctx (kinds o).width
  locks : Nat → Option Nat
  log : List Nat

/-- A step in a method: the result of the method, or where the thread is afterwards. `out`: the initial contents of the local array of `finalize`. (pyhmac_sha256_context.c:398-424 and 452-493.) -/
def libStep {w} (A : Alg w) (u : Bool) (scr : Scr w) (out : List Byte) (c : Ctx w) : JobPc → Res ((PyResult ⊕ JobPc) × Ctx w)
  | .idle => .ok (.inr .idle, c)
  -- pyhmac_sha256_context.c:407-424
  | .upd _ _ (.ret r) => .ok (.inl (if r ≠ 1 then .raised .io else .none), c)
  -- pyhmac_sha256_context.c:400-404
  | .upd o b pc => do
    let (pc, c) ← updStep A u scr b c pc
    pure (.inr (.upd o b pc), c)
  -- pyhmac_sha256_context.c:462-493
  | .fin _ ok (.ret r h) => .ok (.inl (if r ≠ 1 then .raised .io else if ok then .bytes h else .raised .io), c)
  -- pyhmac_sha256_context.c:454-458
  | .fin o ok pc => do
    let (pc, c) ← finStep A u scr out A.hashSize c pc
    pure (.inr (.fin o ok pc), c)

/-- The beginning of a call: an exception for the argument, or where the thread is then. (pyhmac_sha256_context.c:326-397 and 441-451.) -/
def jobCall : PyCall → PyResult ⊕ JobPc
  | .update o arg => match pyData arg with
    | .inl x => .inl (.raised x)
    | .inr b => .inr (.upd o b .enter)
  | .finalize o ok => .inr (.fin o ok .enter)

/-- The thread has returned from a call, or goes on. (The result of pyhmac_sha256_context.c:313-494, for the program.) -/
def jobGo (j : PyJob) : PyResult ⊕ JobPc → PyJob
  | .inl r => ⟨j.todo, j.results ++ [r], .idle⟩
  | .inr pc => ⟨j.todo, j.results, pc⟩

/-- A step of thread `t`. `locking`: the program has a lock for each object, which a thread holds from the beginning of a call on it to the end (with `threading.Lock`, say; this is not code of /repo): a thread that finds it held waits.
`scr`, `out`: the initial contents of local arrays. (A statement of pyhmac/pyhmac_sha256_context.c:313-494, libhmac/libhmac_sha256_context.c:837-1004 or 1159-1348.) -/
def jobStep {kinds : Nat → Kind} (locking u : Bool) (scr : Nat → (k : Kind) → Scr k.width) (out : Nat → Kind → List Byte) (t : Nat) (W : PyJobs kinds) : Res (PyJobs kinds) :=
  let j := W.threads t
  match j.pc.obj with
  | none => match j.todo with
    | [] => .ok W
    | call :: rest =>
      if locking && (W.locks call.obj).isSome then .ok W
      else .ok { W with
        threads := Function.update W.threads t (jobGo ⟨rest, j.results, .idle⟩ (jobCall call))
        locks := Function.update W.locks call.obj (if (jobCall call).isRight then some t else W.locks call.obj)
        log := W.log ++ [t] }
  | some o => do
    let (x, c) ← libStep (algOf (kinds o)) u (scr t (kinds o)) (out t (kinds o)) (W.ctxs o) j.pc
    pure { W with
      threads := Function.update W.threads t (jobGo j x)
      ctxs := Function.update W.ctxs o c
      locks := Function.update W.locks o (if x.isLeft then none else W.locks o) }

/-- The threads run in the order of the schedule. (Steps of pyhmac/pyhmac_sha256_context.c:313-494; the schedule is not code of /repo.) -/
def jobsRun {kinds : Nat → Kind} (locking u : Bool) (scr : Nat → (k : Kind) → Scr k.width) (out : Nat → Kind → List Byte) : List Nat → PyJobs kinds → Res (PyJobs kinds)
  | [], W => .ok W
  | t :: ts, W => jobStep locking u scr out t W >>= jobsRun locking u scr out ts

end Model
