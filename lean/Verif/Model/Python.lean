import Verif.Model.Multi
import Verif.Model.Deprecated
import Verif.Model.Calculate
import Verif.Spec.Python
/-! The Python module: pyhmac/pyhmac_{md5,sha1,sha224,sha256,sha512}_context.c and pyhmac/pyhmac_{md5,sha1,sha224,sha256,sha512}.c, over the library's functions.

The files of the five algorithms have the same text up to names, white space and the order of the includes; line numbers are those of pyhmac_sha256_context.c and pyhmac_sha256.c. What the Python interpreter does is modelled as far as
the code depends on it: `PyArg` says how PyArg_ParseTupleAndKeywords, PyObject_IsInstance, PyBytes_AsString and PyBytes_Size treat an argument. The branches for Python 2 are the same with other names. Not modelled: the text of exceptions,
other Python threads while the interpreter lock is released, and the reference counts of other objects than None.
A variable of the program refers to an object of one type; an object is created for an unbound variable only, and lives until `del`. -/

namespace Model

open Spec (Kind PyArg PyExc PyResult PyOp)

/-- The state of a program: variables (unbound, or bound to an object with its member `sha256_context`), the library's memory, the number of module objects in memory, and the number of references to None that nobody holds. -/
structure PySt where
  vars : Nat → Option (Option Nat)
  mem : Mem
  objects : Int
  noneRefs : Nat

/-- What the code does not control, for one statement: fresh memory and stack, the local arrays `sha256_hash[ ]` (pyhmac_sha256_context.c:434, pyhmac_sha256.c:43, 174), and `key_hash[ ]` of the library. -/
structure PyEnv where
  env : (k : Kind) → Env k.width
  hash : Kind → List Byte
  keyHash : Kind → List Byte

/-- Parsing and checking of the argument `data` (pyhmac_sha256_context.c:335-397, pyhmac_sha256.c:55-117): the exception, or the bytes that `data` and `data_size` give. -/
def pyData (arg : Option PyArg) : PyExc ⊕ List Byte :=
  match arg with
  | none => .inl .type
  | some .broken => .inl .runtime
  | some .other => .inl .type
  | some .pretender => .inl .value
  | some (.bytes b) => if ssizeMax < b.length then .inl .value else .inr b

/-- PyBytes_AsString, PyBytes_Size and the test of the size for the argument `key` (pyhmac_sha256.c:199-221). The type is not tested before; PyBytes_Size returns -1 for what is not a bytes object. -/
def pyKeyData (arg : PyArg) : PyExc ⊕ List Byte :=
  match arg with
  | .bytes b => if ssizeMax < b.length then .inl .value else .inr b
  | _ => .inl .value

/-- `pyhmac_sha256_context_init` (pyhmac_sha256_context.c:203-236): the result and the new value of the member. A previous value is overwritten. -/
def pyInit (k : Kind) (al : Nat → Bool) (e : PyEnv) (m : Mem) : Res (Int × Option Nat × Mem) := do
  let (r, c, s) ← depInitialize (algOf k) { e.env k with allocOk := al } (some none) (m.view k.width)
  match c with
  | none => .ub
  | some slot => if r ≠ 1 then pure (-1, slot, m.put k.width s) else pure (0, slot, m.put k.width s)

/-- `pyhmac_sha256_context_free` (pyhmac_sha256_context.c:240-308): the outcome, and the number of module objects in memory afterwards. Without a context the object is not released (lines 257-265). Simplified: an exception raised here counts as the outcome of the statement that released the object; the interpreter may report it later. -/
def pyFree (k : Kind) (slot : Option Nat) (m : Mem) (objects : Int) : Res (PyResult × Mem × Int) :=
  match slot with
  | none => .ok (.raised .value, m, objects)
  | some p => do
    let (r, _, s) ← depFree (some (some p)) (m.view k.width)
    pure (if r ≠ 1 then .raised .memory else .none, m.put k.width s, objects - 1)

/-- `x = pyhmac.sha256_context()`: PyType_GenericNew (pyhmac/pyhmac.c:289) clears the object; then tp_init is called. If it fails the interpreter releases the object, and the exception is that of the release. -/
def pyCreate (k : Kind) (al : Nat → Bool) (e : PyEnv) (i : Nat) (ok : Bool) (st : PySt) : Res (PyResult × PySt) :=
  if ok then do
    let (r, slot, m) ← pyInit k al e st.mem
    if r ≠ 0 then do
      let (res, m, n) ← pyFree k slot m (st.objects + 1)
      pure (if res = .none then .raised .memory else res, { st with mem := m, objects := n })
    else pure (.none, { st with vars := Function.update st.vars i (some slot), mem := m, objects := st.objects + 1 })
  else .ok (.raised .memory, st)

/-- `pyhmac_sha256_context_update` (pyhmac_sha256_context.c:313-425) on an object with the member `slot`. -/
def pyUpdate (k : Kind) (u : Bool) (e : PyEnv) (slot : Option Nat) (arg : Option PyArg) (m : Mem) : Res (PyResult × Mem) :=
  match pyData arg with
  | .inl x => .ok (.raised x, m)
  | .inr b => do
    let (r, s) ← depUpdate (algOf k) u (e.env k) slot (some b) b.length (m.view k.width)
    pure (if r ≠ 1 then .raised .io else .none, m.put k.width s)

/-- `pyhmac_sha256_context_finalize` (pyhmac_sha256_context.c:430-494) on an object with the member `slot`. `ok`: PyBytes_FromStringAndSize succeeds. -/
def pyFinalize (k : Kind) (u : Bool) (e : PyEnv) (slot : Option Nat) (ok : Bool) (m : Mem) : Res (PyResult × Mem) := do
  let (r, h, s) ← depFinalize (algOf k) u (e.env k) slot (some (e.hash k)) (algOf k).hashSize (m.view k.width)
  match h with
  | none => .ub
  | some h => if r ≠ 1 then pure (.raised .io, m.put k.width s) else pure (if ok then .bytes h else .raised .io, m.put k.width s)

/-- `pyhmac_sha256_calculate` (pyhmac_sha256.c:38-164). The data and the array `sha256_hash[ ]` are laid out in the caller memory of the library function. -/
def pyCalculate (k : Kind) (u : Bool) (al : Nat → Bool) (e : PyEnv) (arg : Option PyArg) (ok : Bool) (st : PySt) : Res (PyResult × PySt) :=
  match pyData arg with
  | .inl x => .ok (.raised x, st)
  | .inr b => do
    let (r, s) ← calculate (algOf k) u { e.env k with allocOk := al } (some 0) b.length (some b.length) (algOf k).hashSize { st.mem.view k.width with caller := b ++ e.hash k }
    let st := { st with mem := st.mem.put k.width { s with caller := st.mem.caller } }
    if r ≠ 1 then pure (.raised .io, st)
    else pure (if ok then .bytes (s.caller.drop b.length) else .raised .io, { st with noneRefs := st.noneRefs + 1 })

/-- `pyhmac_sha256_calculate_hmac` (pyhmac_sha256.c:169-324). -/
def pyCalculateHmac (k : Kind) (u : Bool) (al : Nat → Bool) (e : PyEnv) (args : Option (PyArg × PyArg)) (ok : Bool) (st : PySt) : Res (PyResult × PySt) :=
  match args with
  | none => .ok (.raised .type, st)
  | some (key, data) => match pyKeyData key with
    | .inl x => .ok (.raised x, st)
    | .inr kb => match pyData (some data) with
      | .inl x => .ok (.raised x, st)
      | .inr b => do
        let (r, _, s) ← calculateHmac (algOf k) u { e.env k with allocOk := al } (e.keyHash k) (some 0) kb.length (some kb.length) b.length (some (kb.length + b.length)) (algOf k).hashSize
          { st.mem.view k.width with caller := kb ++ (b ++ e.hash k) }
        let st := { st with mem := st.mem.put k.width { s with caller := st.mem.caller } }
        if r ≠ 1 then pure (.raised .io, st)
        else pure (if ok then .bytes (s.caller.drop (kb.length + b.length)) else .raised .io, { st with noneRefs := st.noneRefs + 1 })

/-- A statement of the program on a bound variable. (The methods of pyhmac/pyhmac_sha256_context.c:203-494.) -/
def pyMethod (k : Kind) (u : Bool) (al : Nat → Bool) (e : PyEnv) (op : PyOp) (i : Nat) (slot : Option Nat) (st : PySt) : Res (PyResult × PySt) :=
  match op with
  | .reinit _ => do
    let (r, slot, m) ← pyInit k al e st.mem
    pure (if r ≠ 0 then .raised .memory else .none, { st with vars := Function.update st.vars i (some slot), mem := m })
  | .update _ arg => do
    let (r, m) ← pyUpdate k u e slot arg st.mem
    pure (r, { st with mem := m })
  | .finalize _ ok => do
    let (r, m) ← pyFinalize k u e slot ok st.mem
    pure (r, { st with mem := m })
  | .release _ => do
    let (r, m, n) ← pyFree k slot st.mem st.objects
    pure (r, { st with vars := Function.update st.vars i none, mem := m, objects := n })
  | _ => .ok (.raised .name, st)

/-- A method call on a variable: NameError if it is unbound. (Python itself; the methods are pyhmac/pyhmac_sha256_context.c:203-494.) -/
def pyOn (kinds : Nat → Kind) (u : Kind → Bool) (al : Nat → Bool) (e : PyEnv) (op : PyOp) (i : Nat) (st : PySt) : Res (PyResult × PySt) :=
  match st.vars i with
  | none => .ok (.raised .name, st)
  | some slot => pyMethod (kinds i) (u (kinds i)) al e op i slot st

/-- A statement that creates an object for an unbound variable. (pyhmac/pyhmac_sha256_context.c:160-236.) -/
def pyNew (kinds : Nat → Kind) (al : Nat → Bool) (e : PyEnv) (raw : Bool) (i : Nat) (ok : Bool) (st : PySt) : Res (PyResult × PySt) :=
  match st.vars i with
  | some _ => .ok (.raised .name, st)
  | none =>
    if raw then
      if ok then .ok (.none, { st with vars := Function.update st.vars i (some none), objects := st.objects + 1 }) else .ok (.raised .memory, st)
    else pyCreate (kinds i) al e i ok st

/-- One statement. Variables `i` hold objects of algorithm `kinds i`; `u` says which algorithms are compiled with unrolled loops, `al` the outcome of every allocation of the library. (Python itself; the functions are pyhmac/pyhmac_sha256_context.c:160-494.) -/
def pyExec (kinds : Nat → Kind) (u : Kind → Bool) (al : Nat → Bool) (e : PyEnv) (op : PyOp) (st : PySt) : Res (PyResult × PySt) :=
  match op with
  | .create i ok => pyNew kinds al e false i ok st
  | .createRaw i ok => pyNew kinds al e true i ok st
  | .calculate k arg ok => pyCalculate k (u k) al e arg ok st
  | .calculateHmac k args ok => pyCalculateHmac k (u k) al e args ok st
  | .reinit i => pyOn kinds u al e (.reinit i) i st
  | .update i arg => pyOn kinds u al e (.update i arg) i st
  | .finalize i ok => pyOn kinds u al e (.finalize i ok) i st
  | .release i => pyOn kinds u al e (.release i) i st

/-- A Python program. (Not code of /repo; it uses the methods of pyhmac/pyhmac_sha256_context.c:160-494.) -/
def pyProgram (kinds : Nat → Kind) (u : Kind → Bool) (al : Nat → Bool) : List (PyOp × PyEnv) → PySt → Res (List PyResult × PySt)
  | [], st => .ok ([], st)
  | (op, e) :: t, st => do
    let (r, st) ← pyExec kinds u al e op st
    let (rs, st) ← pyProgram kinds u al t st
    pure (r :: rs, st)

end Model
