import Verif.Model.Python
import Verif.Model.Builds
import Verif.Model.BackendOneShot
/-! The Python module in every build of the library.

pyhmac/pyhmac_{md5,sha1,sha224,sha256,sha512}_context.c and pyhmac/pyhmac_{md5,sha1,sha224,sha256,sha512}.c reach contexts only through functions of the library, so their functions are repeated here with those functions as a parameter
(`PyLibrary`). With the built-in functions they are the functions of Model/Python (proved: `PyBuilds.program_builtin`). Line numbers and simplifications are those of Model/Python. -/

namespace Model

open Spec (Kind ApiCall Reply PyArg PyExc PyResult PyOp)

/-- The functions of the library that the module uses, over some memory. `call`: a context function on a variable that holds a context or NULL. `calculate` and `calculateHmac`: result and contents of the array `sha256_hash[ ]`
afterwards. (libhmac/libhmac_sha256_context.c:456-1152; libhmac/libhmac_sha256.c:143-219 and 225-714.) -/
structure PyLibrary (M : Type) where
  call : PyEnv → Kind → ApiCall → Option Nat → M → Res (Reply × Option Nat × M)
  calculate : PyEnv → Kind → List Byte → M → Res (Int × List Byte × M)
  calculateHmac : PyEnv → Kind → List Byte → List Byte → M → Res (Int × List Byte × M)

/-- The state of a program, as `PySt`, over any memory. (pyhmac/pyhmac_sha256_context.h:37-46.) -/
structure PyState (M : Type) where
  vars : Nat → Option (Option Nat)
  mem : M
  objects : Int
  noneRefs : Nat

/-- The built-in functions. (libhmac/libhmac_sha256_context.c, branches without HAVE_LIBCRYPTO; libhmac/libhmac_sha256.c:143-219 and 225-714. The data and the array are laid out in the caller memory as in Model/Python.) -/
def PyLibrary.builtin (u : Kind → Bool) (al : Nat → Bool) : PyLibrary Mem where
  call e k c slot m := do
    let (r, slot, s) ← step (algOf k) (u k) { e.env k with allocOk := al } c (e.env k).scr slot (m.view k.width)
    pure (r, slot, m.put k.width s)
  calculate e k b m := do
    let (r, s) ← Model.calculate (algOf k) (u k) { e.env k with allocOk := al } (some 0) b.length (some b.length) (algOf k).hashSize { m.view k.width with caller := b ++ e.hash k }
    pure (r, s.caller.drop b.length, m.put k.width { s with caller := m.caller })
  calculateHmac e k kb b m := do
    let (r, _, s) ← Model.calculateHmac (algOf k) (u k) { e.env k with allocOk := al } (e.keyHash k) (some 0) kb.length (some kb.length) b.length (some (kb.length + b.length)) (algOf k).hashSize
      { m.view k.width with caller := kb ++ (b ++ e.hash k) }
    pure (r, s.caller.drop (kb.length + b.length), m.put k.width { s with caller := m.caller })

/-- A build that makes the choice `ch k` for algorithm `k` and uses the crypto library `L`. Byte arrays that the one-shot functions allocate are released before they return (C66), so none is in memory before. New byte arrays have the contents
that `e` gives. (libhmac/libhmac_sha224_context.h:43-52 and the like; the functions of Model/Backend and Model/BackendOneShot.) -/
def PyLibrary.mixed (ch : Kind → Choice) (L : Kind → Library) (u : Kind → Bool) (al : Nat → Bool) : PyLibrary (MixedMem L) where
  call e k c slot m :=
    match ch k with
    | .builtin => do
      let (r, slot, mem) ← (PyLibrary.builtin u al).call e k c slot m.mem
      pure (r, slot, { m with mem := mem })
    | .crypto B => do
      let (r, slot, s) ← bStep B (L k) k.hashSize al c slot ⟨m.mem.count, m.calls, m.live k⟩
      pure (r, slot, { mem := { m.mem with count := s.count }, calls := s.calls, live := Function.update m.live k s.live })
  calculate e k b m :=
    match ch k with
    | .builtin => do
      let (r, h, mem) ← (PyLibrary.builtin u al).calculate e k b m.mem
      pure (r, h, { m with mem := mem })
    | .crypto B => do
      let (r, s) ← oCalculate B (L k) k.hashSize ⟨al, (e.env k).junkByte⟩ (some 0) b.length (some b.length) k.hashSize ⟨b ++ e.hash k, ⟨m.mem.count, m.calls, m.live k⟩, [], []⟩
      pure (r, s.caller.drop b.length, { mem := { m.mem with count := s.ctxs.count }, calls := s.ctxs.calls, live := Function.update m.live k s.ctxs.live })
  calculateHmac e k kb b m :=
    match ch k with
    | .builtin => do
      let (r, h, mem) ← (PyLibrary.builtin u al).calculateHmac e k kb b m.mem
      pure (r, h, { m with mem := mem })
    | .crypto B => do
      let (r, s) ← oCalculateHmac B (L k) k.hashSize k.blockSize ⟨al, (e.env k).junkByte⟩ (e.keyHash k) (some 0) kb.length (some kb.length) b.length (some (kb.length + b.length)) k.hashSize
        ⟨kb ++ (b ++ e.hash k), ⟨m.mem.count, m.calls, m.live k⟩, [], []⟩
      pure (r, s.caller.drop (kb.length + b.length), { mem := { m.mem with count := s.ctxs.count }, calls := s.ctxs.calls, live := Function.update m.live k s.ctxs.live })

namespace PyBuilds

variable {M : Type}

/-- `libhmac_*_initialize` with the address of a pointer (libhmac/libhmac_sha256.c:35-55). -/
def acquire (P : PyLibrary M) (e : PyEnv) (k : Kind) (slot : Option Nat) (m : M) : Res (Int × Option Nat × M) := do
  let (r, slot, m) ← P.call e k .init slot m
  if r.code ≠ 1 then pure (-1, slot, m) else pure (1, slot, m)

/-- `libhmac_*_free` with the address of a pointer (libhmac/libhmac_sha256.c:60-80). -/
def free (P : PyLibrary M) (e : PyEnv) (k : Kind) (slot : Option Nat) (m : M) : Res (Int × Option Nat × M) := do
  let (r, slot, m) ← P.call e k .free slot m
  if r.code ≠ 1 then pure (-1, slot, m) else pure (1, slot, m)

/-- `libhmac_*_update` (libhmac/libhmac_sha256.c:85-109). -/
def update (P : PyLibrary M) (e : PyEnv) (k : Kind) (slot : Option Nat) (buf : Option (List Byte)) (size : Nat) (m : M) : Res (Int × M) := do
  let (r, _, m) ← P.call e k (.update buf size) slot m
  if r.code ≠ 1 then pure (-1, m) else pure (1, m)

/-- `libhmac_*_finalize` (libhmac/libhmac_sha256.c:114-138). -/
def finalize (P : PyLibrary M) (e : PyEnv) (k : Kind) (slot : Option Nat) (out : Option (List Byte)) (size : Nat) (m : M) : Res (Int × Option (List Byte) × M) := do
  let (r, _, m) ← P.call e k (.finalize out size) slot m
  if r.code ≠ 1 then pure (-1, r.out, m) else pure (1, r.out, m)

/-- `pyhmac_sha256_context_init` (pyhmac_sha256_context.c:203-236), as `pyInit`. -/
def init (P : PyLibrary M) (e : PyEnv) (k : Kind) (m : M) : Res (Int × Option Nat × M) := do
  let (r, slot, m) ← acquire P e k none m
  if r ≠ 1 then pure (-1, slot, m) else pure (0, slot, m)

/-- `pyhmac_sha256_context_free` (pyhmac_sha256_context.c:240-308), as `pyFree`. -/
def dealloc (P : PyLibrary M) (e : PyEnv) (k : Kind) (slot : Option Nat) (m : M) (objects : Int) : Res (PyResult × M × Int) :=
  match slot with
  | none => .ok (.raised .value, m, objects)
  | some p => do
    let (r, _, m) ← free P e k (some p) m
    pure (if r ≠ 1 then .raised .memory else .none, m, objects - 1)

/-- `x = pyhmac.sha256_context()` (pyhmac/pyhmac.c:289; pyhmac_sha256_context.c:203-236), as `pyCreate`. -/
def create (P : PyLibrary M) (e : PyEnv) (k : Kind) (i : Nat) (ok : Bool) (st : PyState M) : Res (PyResult × PyState M) :=
  if ok then do
    let (r, slot, m) ← init P e k st.mem
    if r ≠ 0 then do
      let (res, m, n) ← dealloc P e k slot m (st.objects + 1)
      pure (if res = .none then .raised .memory else res, { st with mem := m, objects := n })
    else pure (.none, { st with vars := Function.update st.vars i (some slot), mem := m, objects := st.objects + 1 })
  else .ok (.raised .memory, st)

/-- `pyhmac_sha256_context_update` (pyhmac_sha256_context.c:313-425), as `pyUpdate`. -/
def feed (P : PyLibrary M) (e : PyEnv) (k : Kind) (slot : Option Nat) (arg : Option PyArg) (m : M) : Res (PyResult × M) :=
  match pyData arg with
  | .inl x => .ok (.raised x, m)
  | .inr b => do
    let (r, m) ← update P e k slot (some b) b.length m
    pure (if r ≠ 1 then .raised .io else .none, m)

/-- `pyhmac_sha256_context_finalize` (pyhmac_sha256_context.c:430-494), as `pyFinalize`. -/
def digest (P : PyLibrary M) (e : PyEnv) (k : Kind) (slot : Option Nat) (ok : Bool) (m : M) : Res (PyResult × M) := do
  let (r, h, m) ← finalize P e k slot (some (e.hash k)) k.hashSize m
  match h with
  | none => .ub
  | some h => if r ≠ 1 then pure (.raised .io, m) else pure (if ok then .bytes h else .raised .io, m)

/-- `pyhmac_sha256_calculate` (pyhmac_sha256.c:38-164), as `pyCalculate`. -/
def calculate (P : PyLibrary M) (e : PyEnv) (k : Kind) (arg : Option PyArg) (ok : Bool) (st : PyState M) : Res (PyResult × PyState M) :=
  match pyData arg with
  | .inl x => .ok (.raised x, st)
  | .inr b => do
    let (r, h, m) ← P.calculate e k b st.mem
    if r ≠ 1 then pure (.raised .io, { st with mem := m })
    else pure (if ok then .bytes h else .raised .io, { st with mem := m, noneRefs := st.noneRefs + 1 })

/-- `pyhmac_sha256_calculate_hmac` (pyhmac_sha256.c:169-324), as `pyCalculateHmac`. -/
def calculateHmac (P : PyLibrary M) (e : PyEnv) (k : Kind) (args : Option (PyArg × PyArg)) (ok : Bool) (st : PyState M) : Res (PyResult × PyState M) :=
  match args with
  | none => .ok (.raised .type, st)
  | some (key, data) => match pyKeyData key with
    | .inl x => .ok (.raised x, st)
    | .inr kb => match pyData (some data) with
      | .inl x => .ok (.raised x, st)
      | .inr b => do
        let (r, h, m) ← P.calculateHmac e k kb b st.mem
        if r ≠ 1 then pure (.raised .io, { st with mem := m })
        else pure (if ok then .bytes h else .raised .io, { st with mem := m, noneRefs := st.noneRefs + 1 })

/-- A statement on a bound variable (the methods of pyhmac/pyhmac_sha256_context.c:203-494), as `pyMethod`. -/
def method (P : PyLibrary M) (e : PyEnv) (k : Kind) (op : PyOp) (i : Nat) (slot : Option Nat) (st : PyState M) : Res (PyResult × PyState M) :=
  match op with
  | .reinit _ => do
    let (r, slot, m) ← init P e k st.mem
    pure (if r ≠ 0 then .raised .memory else .none, { st with vars := Function.update st.vars i (some slot), mem := m })
  | .update _ arg => do
    let (r, m) ← feed P e k slot arg st.mem
    pure (r, { st with mem := m })
  | .finalize _ ok => do
    let (r, m) ← digest P e k slot ok st.mem
    pure (r, { st with mem := m })
  | .release _ => do
    let (r, m, n) ← dealloc P e k slot st.mem st.objects
    pure (r, { st with vars := Function.update st.vars i none, mem := m, objects := n })
  | _ => .ok (.raised .name, st)

/-- A method call on a variable, as `pyOn`. (The methods of pyhmac/pyhmac_sha256_context.c:203-494.) -/
def on (P : PyLibrary M) (kinds : Nat → Kind) (e : PyEnv) (op : PyOp) (i : Nat) (st : PyState M) : Res (PyResult × PyState M) :=
  match st.vars i with
  | none => .ok (.raised .name, st)
  | some slot => method P e (kinds i) op i slot st

/-- A statement that creates an object for an unbound variable, as `pyNew`. (pyhmac/pyhmac_sha256_context.c:160-236.) -/
def new (P : PyLibrary M) (kinds : Nat → Kind) (e : PyEnv) (raw : Bool) (i : Nat) (ok : Bool) (st : PyState M) : Res (PyResult × PyState M) :=
  match st.vars i with
  | some _ => .ok (.raised .name, st)
  | none =>
    if raw then
      if ok then .ok (.none, { st with vars := Function.update st.vars i (some none), objects := st.objects + 1 }) else .ok (.raised .memory, st)
    else create P e (kinds i) i ok st

/-- One statement, as `pyExec`. (The functions of pyhmac/pyhmac_sha256_context.c:160-494 and pyhmac/pyhmac_sha256.c:38-324.) -/
def exec (P : PyLibrary M) (kinds : Nat → Kind) (e : PyEnv) (op : PyOp) (st : PyState M) : Res (PyResult × PyState M) :=
  match op with
  | .create i ok => new P kinds e false i ok st
  | .createRaw i ok => new P kinds e true i ok st
  | .calculate k arg ok => calculate P e k arg ok st
  | .calculateHmac k args ok => calculateHmac P e k args ok st
  | .reinit i => on P kinds e (.reinit i) i st
  | .update i arg => on P kinds e (.update i arg) i st
  | .finalize i ok => on P kinds e (.finalize i ok) i st
  | .release i => on P kinds e (.release i) i st

/-- A Python program, as `pyProgram`. (Not code of /repo; it uses the methods of pyhmac/pyhmac_sha256_context.c:160-494.) -/
def program (P : PyLibrary M) (kinds : Nat → Kind) : List (PyOp × PyEnv) → PyState M → Res (List PyResult × PyState M)
  | [], st => .ok ([], st)
  | (op, e) :: t, st => do
    let (r, st) ← exec P kinds e op st
    let (rs, st) ← program P kinds t st
    pure (r :: rs, st)

end PyBuilds

end Model
