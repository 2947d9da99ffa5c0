import Verif.Model.PyBuilds
import Verif.Model.PyError
import Verif.Spec.PyText
/-! The Python module with the texts of its exceptions, in every build of the library.

The functions are those of Model/PyBuilds, where every exception is given with its text. The texts of the five algorithms differ in the names only (pyhmac/pyhmac_{md5,sha1,sha224,sha256,sha512}_context.c and
pyhmac/pyhmac_{md5,sha1,sha224,sha256,sha512}.c); line numbers are those of pyhmac_sha256_context.c and pyhmac_sha256.c. Formatting with `%s` (PyErr_Format, PyOS_vsnprintf) does not fail. -/

namespace Model

open Spec (Kind PyArg PyExc PyResult PyOp PyOutcome)

/-- What the code does not control of texts, for one statement: the library's description of an error (`none`: no error; inside, `none`: the result -1 of libcerror_error_backtrace_sprint; otherwise the array after it), the exception that
`isinstance` raised, the local arrays `exception_string[ ]` and `error_string[ ]` on entry, and the text of an exception that the interpreter raises itself. (pyhmac/pyhmac_error.c:209, 339-340.) -/
structure PyTexts where
  sprint : Option (Option (List Byte))
  fetched : PyFetched
  exceptionString : List Byte
  errorString : List Byte
  own : List Byte

/-- An exception with the text that `pyhmac_error_raise` and the like gave it. (pyhmac/pyhmac_error.c:402-415.) -/
def PyRaised.outcome : PyRaised PyExc → PyOutcome
  | .given c t => .raised c t
  | .valueError t => .raised .value t

namespace PyText

/-- The name of an algorithm in identifiers (pyhmac_sha256_context.c:164, 207, 246, 321, 438; pyhmac_sha256.c:48, 180). -/
def ident : Kind → String
  | .md5 => "md5"
  | .sha1 => "sha1"
  | .sha224 => "sha224"
  | .sha256 => "sha256"
  | .sha512 => "sha512"

/-- The name of an algorithm in messages (pyhmac_sha256_context.c:231, 261, 300, 414, 472, 488; pyhmac_sha256.c:134, 158, 294, 318). -/
def title : Kind → String
  | .md5 => "MD5"
  | .sha1 => "SHA1"
  | .sha224 => "SHA224"
  | .sha256 => "SHA256"
  | .sha512 => "SHA512"

/-- A message after the format `"%s: ..."`. (For example pyhmac_sha256_context.c:366-369.) -/
def message (function text : String) : List Byte := Spec.ascii (function ++ ": " ++ text)

variable {M : Type}

/-- `pyhmac_error_raise` with a message (pyhmac_sha256_context.c:228-232). -/
def fail (I : PyTexts) (c : PyExc) (function text : String) : Res PyOutcome := do
  let r ← pyErrorRaise c (some (some (message function text))) I.sprint I.exceptionString
  pure r.outcome

/-- Parsing and checking of the argument `data` (pyhmac_sha256_context.c:335-397, pyhmac_sha256.c:55-117, 223-276), as `pyData`. -/
def data (I : PyTexts) (function : String) (arg : Option PyArg) : Res (PyOutcome ⊕ List Byte) :=
  match arg with
  | none => .ok (.inl (.raised .type I.own))
  | some .broken => do
    let (r, _) ← pyErrorFetchAndRaise .runtime (some (some (message function "unable to determine if object is of type bytes."))) I.fetched I.errorString
    pure (.inl r.outcome)
  | some .other => .ok (.inl (.raised .type (message function "unsupported bytes object type")))
  | some .pretender => .ok (.inl (.raised .value (message function "invalid data size value out of bounds.")))
  | some (.bytes b) => if ssizeMax < b.length then .ok (.inl (.raised .value (message function "invalid data size value out of bounds."))) else .ok (.inr b)

/-- The argument `key` (pyhmac_sha256.c:199-221), as `pyKeyData`. -/
def keyData (function : String) (arg : PyArg) : PyOutcome ⊕ List Byte :=
  match arg with
  | .bytes b => if ssizeMax < b.length then .inl (.raised .value (message function "invalid argument key data size value out of bounds.")) else .inr b
  | _ => .inl (.raised .value (message function "invalid argument key data size value out of bounds."))

/-- `pyhmac_sha256_context_init` (pyhmac_sha256_context.c:203-236), as `PyBuilds.init`: the exception (`none`: success). -/
def init (P : PyLibrary M) (e : PyEnv) (I : PyTexts) (k : Kind) (m : M) : Res (PyOutcome × Option Nat × M) := do
  let (r, slot, m) ← PyBuilds.acquire P e k none m
  if r ≠ 1 then do
    let x ← fail I .memory ("pyhmac_" ++ ident k ++ "_context_init") ("unable to initialize " ++ title k ++ " context.")
    pure (x, slot, m)
  else pure (.none, slot, m)

/-- `pyhmac_sha256_context_free` (pyhmac_sha256_context.c:240-308), as `PyBuilds.dealloc`. -/
def dealloc (P : PyLibrary M) (e : PyEnv) (I : PyTexts) (k : Kind) (slot : Option Nat) (m : M) (objects : Int) : Res (PyOutcome × M × Int) :=
  match slot with
  | none => .ok (.raised .value (message ("pyhmac_" ++ ident k ++ "_context_free") ("invalid " ++ title k ++ " context - missing libhmac " ++ title k ++ " context.")), m, objects)
  | some p => do
    let (r, _, m) ← PyBuilds.free P e k (some p) m
    if r ≠ 1 then do
      let x ← fail I .memory ("pyhmac_" ++ ident k ++ "_context_free") ("unable to free libhmac " ++ title k ++ " context.")
      pure (x, m, objects - 1)
    else pure (.none, m, objects - 1)

/-- `x = pyhmac.sha256_context()` (pyhmac/pyhmac.c:289; pyhmac_sha256_context.c:203-236), as `PyBuilds.create`: if `init` fails the object is released, and an exception of the release replaces the first one. -/
def create (P : PyLibrary M) (e : PyEnv) (I : PyTexts) (k : Kind) (i : Nat) (ok : Bool) (st : PyState M) : Res (PyOutcome × PyState M) :=
  if ok then do
    let (x, slot, m) ← init P e I k st.mem
    if x ≠ .none then do
      let (y, m, n) ← dealloc P e I k slot m (st.objects + 1)
      pure (if y = .none then x else y, { st with mem := m, objects := n })
    else pure (.none, { st with vars := Function.update st.vars i (some slot), mem := m, objects := st.objects + 1 })
  else .ok (.raised .memory I.own, st)

/-- `pyhmac_sha256_context_update` (pyhmac_sha256_context.c:313-425), as `PyBuilds.feed`. -/
def feed (P : PyLibrary M) (e : PyEnv) (I : PyTexts) (k : Kind) (slot : Option Nat) (arg : Option PyArg) (m : M) : Res (PyOutcome × M) := do
  let d ← data I ("pyhmac_" ++ ident k ++ "_context_update") arg
  match d with
  | .inl x => pure (x, m)
  | .inr b => do
    let (r, m) ← PyBuilds.update P e k slot (some b) b.length m
    if r ≠ 1 then do
      let x ← fail I .io ("pyhmac_" ++ ident k ++ "_context_update") ("unable to update " ++ title k ++ " context from data.")
      pure (x, m)
    else pure (.none, m)

/-- `pyhmac_sha256_context_finalize` (pyhmac_sha256_context.c:430-494), as `PyBuilds.digest`. -/
def digest (P : PyLibrary M) (e : PyEnv) (I : PyTexts) (k : Kind) (slot : Option Nat) (ok : Bool) (m : M) : Res (PyOutcome × M) := do
  let (r, h, m) ← PyBuilds.finalize P e k slot (some (e.hash k)) k.hashSize m
  match h with
  | none => .ub
  | some h =>
    if r ≠ 1 then do
      let x ← fail I .io ("pyhmac_" ++ ident k ++ "_context_finalize") ("unable to finalize " ++ title k ++ " context.")
      pure (x, m)
    else pure (if ok then .bytes h else .raised .io (message ("pyhmac_" ++ ident k ++ "_context_finalize") ("unable to convert " ++ title k ++ " hash into bytes object.")), m)

/-- `pyhmac_sha256_calculate` (pyhmac_sha256.c:38-164), as `PyBuilds.calculate`. -/
def calculate (P : PyLibrary M) (e : PyEnv) (I : PyTexts) (k : Kind) (arg : Option PyArg) (ok : Bool) (st : PyState M) : Res (PyOutcome × PyState M) := do
  let d ← data I ("pyhmac_" ++ ident k ++ "_calculate") arg
  match d with
  | .inl x => pure (x, st)
  | .inr b => do
    let (r, h, m) ← P.calculate e k b st.mem
    if r ≠ 1 then do
      let x ← fail I .io ("pyhmac_" ++ ident k ++ "_calculate") ("unable to calculate " ++ title k ++ " from data.")
      pure (x, { st with mem := m })
    else pure (if ok then .bytes h else .raised .io (message ("pyhmac_" ++ ident k ++ "_calculate") ("unable to convert " ++ title k ++ " hash into bytes object.")), { st with mem := m, noneRefs := st.noneRefs + 1 })

/-- `pyhmac_sha256_calculate_hmac` (pyhmac_sha256.c:169-324), as `PyBuilds.calculateHmac`. The variable `function` holds the name of the other function (line 180). -/
def calculateHmac (P : PyLibrary M) (e : PyEnv) (I : PyTexts) (k : Kind) (args : Option (PyArg × PyArg)) (ok : Bool) (st : PyState M) : Res (PyOutcome × PyState M) :=
  match args with
  | none => .ok (.raised .type I.own, st)
  | some (key, arg) =>
    match keyData ("pyhmac_" ++ ident k ++ "_calculate") key with
    | .inl x => .ok (x, st)
    | .inr kb => do
      let d ← data I ("pyhmac_" ++ ident k ++ "_calculate") (some arg)
      match d with
      | .inl x => pure (x, st)
      | .inr b => do
        let (r, h, m) ← P.calculateHmac e k kb b st.mem
        if r ≠ 1 then do
          let x ← fail I .io ("pyhmac_" ++ ident k ++ "_calculate") ("unable to calculate " ++ title k ++ " HMAC from data.")
          pure (x, { st with mem := m })
        else pure (if ok then .bytes h else .raised .io (message ("pyhmac_" ++ ident k ++ "_calculate") ("unable to convert " ++ title k ++ " HMAC into bytes object.")), { st with mem := m, noneRefs := st.noneRefs + 1 })

/-- A statement on a bound variable (the methods of pyhmac/pyhmac_sha256_context.c:203-494), as `PyBuilds.method`. -/
def method (P : PyLibrary M) (e : PyEnv) (I : PyTexts) (k : Kind) (op : PyOp) (i : Nat) (slot : Option Nat) (st : PyState M) : Res (PyOutcome × PyState M) :=
  match op with
  | .reinit _ => do
    let (x, slot, m) ← init P e I k st.mem
    pure (x, { st with vars := Function.update st.vars i (some slot), mem := m })
  | .update _ arg => do
    let (x, m) ← feed P e I k slot arg st.mem
    pure (x, { st with mem := m })
  | .finalize _ ok => do
    let (x, m) ← digest P e I k slot ok st.mem
    pure (x, { st with mem := m })
  | .release _ => do
    let (x, m, n) ← dealloc P e I k slot st.mem st.objects
    pure (x, { st with vars := Function.update st.vars i none, mem := m, objects := n })
  | _ => .ok (.raised .name I.own, st)

/-- A method call on a variable, as `PyBuilds.on`. (The methods of pyhmac/pyhmac_sha256_context.c:203-494.) -/
def on (P : PyLibrary M) (kinds : Nat → Kind) (e : PyEnv) (I : PyTexts) (op : PyOp) (i : Nat) (st : PyState M) : Res (PyOutcome × PyState M) :=
  match st.vars i with
  | none => .ok (.raised .name I.own, st)
  | some slot => method P e I (kinds i) op i slot st

/-- A statement that creates an object, as `PyBuilds.new`. (pyhmac/pyhmac_sha256_context.c:160-236.) -/
def new (P : PyLibrary M) (kinds : Nat → Kind) (e : PyEnv) (I : PyTexts) (raw : Bool) (i : Nat) (ok : Bool) (st : PyState M) : Res (PyOutcome × PyState M) :=
  match st.vars i with
  | some _ => .ok (.raised .name I.own, st)
  | none =>
    if raw then
      if ok then .ok (.none, { st with vars := Function.update st.vars i (some none), objects := st.objects + 1 }) else .ok (.raised .memory I.own, st)
    else create P e I (kinds i) i ok st

/-- One statement, as `PyBuilds.exec`. (The functions of pyhmac/pyhmac_sha256_context.c:160-494 and pyhmac/pyhmac_sha256.c:38-324.) -/
def exec (P : PyLibrary M) (kinds : Nat → Kind) (e : PyEnv) (I : PyTexts) (op : PyOp) (st : PyState M) : Res (PyOutcome × PyState M) :=
  match op with
  | .create i ok => new P kinds e I false i ok st
  | .createRaw i ok => new P kinds e I true i ok st
  | .calculate k arg ok => calculate P e I k arg ok st
  | .calculateHmac k args ok => calculateHmac P e I k args ok st
  | .reinit i => on P kinds e I (.reinit i) i st
  | .update i arg => on P kinds e I (.update i arg) i st
  | .finalize i ok => on P kinds e I (.finalize i ok) i st
  | .release i => on P kinds e I (.release i) i st

/-- A Python program, as `PyBuilds.program`. (Not code of /repo; it uses the methods of pyhmac/pyhmac_sha256_context.c:160-494.) -/
def program (P : PyLibrary M) (kinds : Nat → Kind) : List (PyOp × PyEnv × PyTexts) → PyState M → Res (List PyOutcome × PyState M)
  | [], st => .ok ([], st)
  | (op, e, I) :: t, st => do
    let (r, st) ← exec P kinds e I op st
    let (rs, st) ← program P kinds t st
    pure (r :: rs, st)

end PyText

end Model
