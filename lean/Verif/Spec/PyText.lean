import Verif.Spec.PyError
import Verif.Spec.PyModule
import Verif.Spec.Python
/-! The texts of the exceptions of the Python module. -/

namespace Spec

/-- What a Python program calls: the constructor or `__init__`, the release of an object, the methods and the functions of the module. -/
inductive PyFn where
  | init | free | update | finalize | calculate | calculateHmac
  deriving DecidableEq

/-- Why a call fails: `data` is not a bytes object; it cannot be found out whether it is one; the size of `data` or of `key` is out of bounds or unknown; the library fails; there is no memory for the result; the object has no context. -/
inductive PyWhy where
  | type | instance | size | keySize | library | convert | context
  deriving DecidableEq

/-- The name of a function in the texts. -/
def PyFn.name (k : Kind) (f : PyFn) : String :=
  "pyhmac_" ++ pyKindName k ++
    match f with
    | .init => "_context_init"
    | .free => "_context_free"
    | .update => "_context_update"
    | .finalize => "_context_finalize"
    | .calculate => "_calculate"
    | .calculateHmac => "_calculate_hmac"

/-- The name of an algorithm in the texts. -/
def pyKindText : Kind → String
  | .md5 => "MD5"
  | .sha1 => "SHA1"
  | .sha224 => "SHA224"
  | .sha256 => "SHA256"
  | .sha512 => "SHA512"

/-- What the text says after the name of the function. -/
def PyWhy.text (k : Kind) (f : PyFn) (why : PyWhy) : String :=
  match why with
  | .type => "unsupported bytes object type"
  | .instance => "unable to determine if object is of type bytes."
  | .size => "invalid data size value out of bounds."
  | .keySize => "invalid argument key data size value out of bounds."
  | .context => "invalid " ++ pyKindText k ++ " context - missing libhmac " ++ pyKindText k ++ " context."
  | .convert => "unable to convert " ++ pyKindText k ++ (if f = .calculateHmac then " HMAC" else " hash") ++ " into bytes object."
  | .library =>
    match f with
    | .init => "unable to initialize " ++ pyKindText k ++ " context."
    | .free => "unable to free libhmac " ++ pyKindText k ++ " context."
    | .update => "unable to update " ++ pyKindText k ++ " context from data."
    | .finalize => "unable to finalize " ++ pyKindText k ++ " context."
    | .calculate => "unable to calculate " ++ pyKindText k ++ " from data."
    | .calculateHmac => "unable to calculate " ++ pyKindText k ++ " HMAC from data."

/-- The class of the exception. -/
def PyWhy.cls (f : PyFn) (why : PyWhy) : PyExc :=
  match why with
  | .type => .type
  | .instance => .runtime
  | .size | .keySize | .context => .value
  | .convert => .io
  | .library => if f = .init ∨ f = .free then .memory else .io

/-- The text of an exception: the function `f` in whose name it is raised, what function `g` has to say, and the details: for a failure of the library its description of the error, for an exception in `isinstance` the description of that
exception. -/
def pyText (k : Kind) (f g : PyFn) (why : PyWhy) (details : Option (List Byte)) : List Byte :=
  match why with
  | .library => failureText (ascii (f.name k ++ ": " ++ why.text k g)) details
  | .instance => replacedText (ascii (f.name k ++ ": " ++ why.text k g)) details
  | _ => ascii (f.name k ++ ": " ++ why.text k g)

/-- Outcome of a statement, with the text of the exception. -/
inductive PyOutcome where
  | none
  | bytes (b : List Byte)
  | raised (e : PyExc) (text : List Byte)
  deriving DecidableEq

/-- The outcome without the text. -/
def PyOutcome.result : PyOutcome → PyResult
  | .none => .none
  | .bytes b => .bytes b
  | .raised e _ => .raised e

/-- What is known of the argument `data`: nothing is wrong with it (`none`), or why not. Missing arguments are reported by the interpreter. -/
def pyDataWhy : PyArg → Option PyWhy
  | .bytes b => if b.length ≤ maxSize then none else some .size
  | .pretender => some .size
  | .other => some .type
  | .broken => some .instance

/-- Why a statement may fail, apart from what the interpreter itself reports (wrong arguments, an unbound variable, no memory for an object); and for which algorithm. -/
def pyReason (kinds : Nat → Kind) : PyOp → Option (Kind × PyFn × (PyWhy → Prop))
  | .create i _ => some (kinds i, .init, fun w => w = .library)
  | .createRaw _ _ => none
  | .reinit i => some (kinds i, .init, fun w => w = .library)
  | .update i (some arg) => some (kinds i, .update, fun w => w = (pyDataWhy arg).getD .library)
  | .update _ none => none
  | .finalize i ok => some (kinds i, .finalize, fun w => w = .library ∨ w = .convert ∧ ok = false)
  | .release i => some (kinds i, .free, fun w => w = .library ∨ w = .context)
  | .calculate k (some arg) ok => some (k, .calculate, fun w => match pyDataWhy arg with
    | some x => w = x
    | none => w = .library ∨ w = .convert ∧ ok = false)
  | .calculate _ none _ => none
  | .calculateHmac k (some (key, data)) ok => some (k, .calculateHmac, fun w =>
    if (pyDataWhy key).isSome then w = .keySize else match pyDataWhy data with
    | some x => w = x
    | none => w = .library ∨ w = .convert ∧ ok = false)
  | .calculateHmac _ none _ => none

/-- Exceptions that the interpreter raises itself: the variable is unbound, there is no memory for an object, arguments are missing. -/
def pyOwn (op : PyOp) (x : PyExc) : Prop :=
  x = .name ∨ match op with
  | .create _ ok => x = .memory ∧ ok = false
  | .createRaw _ ok => x = .memory ∧ ok = false
  | .update _ none => x = .type
  | .calculate _ none _ => x = .type
  | .calculateHmac _ none _ => x = .type
  | _ => False

end Spec
