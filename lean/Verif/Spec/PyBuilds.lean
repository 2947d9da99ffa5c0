import Verif.Spec.Python
import Verif.Spec.Backend
/-! What a Python program sees of the module `pyhmac` when the hash functions may be those of a crypto library, which can fail. -/

namespace Spec

/-- The objects of a program: unbound variable, object without context, or object whose context stands for a message, if that is known. -/
abbrev PyMessages := Nat → Option (Option (Option (List Byte)))

/-- What one statement may do. `good k`: the functions of algorithm `k` never fail; `limit k`: the largest size that they take; `full`: the library finds no memory for some object. -/
def pyMay (kinds : Nat → Kind) (good : Kind → Prop) (limit : Kind → Nat) (full : Prop) (op : PyOp) (o : PyMessages) (r : PyResult) (o' : PyMessages) : Prop :=
  match op with
  | .create i ok => match o i with
    | some _ => r = .raised .name ∧ o' = o
    | none =>
      if ok then r = .none ∧ o' = Function.update o i (some (some (some []))) ∨ r = .raised .value ∧ o' = o ∧ (full ∨ ¬ good (kinds i))
      else r = .raised .memory ∧ o' = o
  | .createRaw i ok => match o i with
    | some _ => r = .raised .name ∧ o' = o
    | none => if ok then r = .none ∧ o' = Function.update o i (some none) else r = .raised .memory ∧ o' = o
  | .reinit i => match o i with
    | none => r = .raised .name ∧ o' = o
    | some _ => r = .none ∧ o' = Function.update o i (some (some (some []))) ∨ r = .raised .memory ∧ o' = Function.update o i (some none) ∧ (full ∨ ¬ good (kinds i))
  | .update i arg => match o i with
    | none => r = .raised .name ∧ o' = o
    | some x => match pyBytes arg with
      | .inl e => r = .raised e ∧ o' = o
      | .inr b => match x with
        | none => r = .raised .io ∧ o' = o
        | some m => r = .none ∧ o' = Function.update o i (some (some (m.map (· ++ b)))) ∨ r = .raised .io ∧ o' = Function.update o i (some (some none)) ∧ (limit (kinds i) < b.length ∨ ¬ good (kinds i))
  | .finalize i ok => match o i with
    | none => r = .raised .name ∧ o' = o
    | some none => r = .raised .io ∧ o' = o
    | some (some m) => o' = Function.update o i (some (some none)) ∧
        ((∃ d, r = (if ok then .bytes d else .raised .io) ∧ d.length = (kinds i).hashSize ∧ ∀ x, m = some x → x.length < 2 ^ 61 → d = (kinds i).std.digest x) ∨ r = .raised .io ∧ ¬ good (kinds i))
  | .release i => match o i with
    | none => r = .raised .name ∧ o' = o
    | some none => r = .raised .value ∧ o' = Function.update o i none
    | some (some _) => r = .none ∧ o' = Function.update o i none
  | .calculate k arg ok => match pyBytes arg with
    | .inl e => r = .raised e ∧ o' = o
    | .inr b => o' = o ∧
        ((∃ d, r = (if ok then .bytes d else .raised .io) ∧ d.length = k.hashSize ∧ (b.length < 2 ^ 61 → d = k.std.digest b)) ∨ r = .raised .io ∧ (full ∨ ¬ good k ∨ limit k < b.length))
  | .calculateHmac k args ok => match args with
    | none => r = .raised .type ∧ o' = o
    | some (key, data) => match pyKey key with
      | .inl e => r = .raised e ∧ o' = o
      | .inr kb => match pyBytes (some data) with
        | .inl e => r = .raised e ∧ o' = o
        | .inr b => o' = o ∧
            ((∃ d, r = (if ok then .bytes d else .raised .io) ∧ d.length = k.hashSize ∧ (kb.length < 2 ^ 61 → k.blockSize + b.length < 2 ^ 61 → d = hmac k.blockSize k.std.digest kb b)) ∨
              r = .raised .io ∧ (full ∨ ¬ good k ∨ limit k < b.length ∨ limit k < kb.length))

/-- What a program may do. -/
def pyMayRun (kinds : Nat → Kind) (good : Kind → Prop) (limit : Kind → Nat) (full : Prop) : List PyOp → List PyResult → PyMessages → PyMessages → Prop
  | [], [], o, o' => o' = o
  | op :: t, r :: rs, o, o' => ∃ o1, pyMay kinds good limit full op o r o1 ∧ pyMayRun kinds good limit full t rs o1 o'
  | _, _, _, _ => False

/-- One statement and its outcome, for `pyMessage`. -/
def pyMessageNext (i : Nat) (m : Option (List Byte)) (x : PyOp × PyResult) : Option (List Byte) :=
  match x with
  | (.create j _, .none) => if j = i then some [] else m
  | (.reinit j, r) => if j = i then (if r = .none then some [] else none) else m
  | (.update j (some (.bytes b)), r) => if j = i then (if r = .none then m.map (· ++ b) else none) else m
  | (.finalize j _, _) => if j = i then none else m
  | (.release j, _) => if j = i then none else m
  | _ => m

/-- The data that variable `i` was fed since its object was created or initialised again, from the statements and their outcomes (`none`: no object, one that was finalised, or one that refused data). -/
def pyMessage (i : Nat) (t : List (PyOp × PyResult)) : Option (List Byte) := t.foldl (pyMessageNext i) none

/-- No object is used again after it was finalised, unless it was initialised again (`f`: the variables whose object was finalised). -/
def pyOnce : (Nat → Bool) → List PyOp → Prop
  | _, [] => True
  | f, .update i _ :: t => f i = false ∧ pyOnce f t
  | f, .finalize i _ :: t => f i = false ∧ pyOnce (Function.update f i true) t
  | f, .reinit i :: t => pyOnce (Function.update f i false) t
  | f, .release i :: t => pyOnce (Function.update f i false) t
  | f, _ :: t => pyOnce f t

/-- The bytes that a statement feeds to an object. -/
def PyOp.fed : PyOp → Nat
  | .update _ (some (.bytes b)) => b.length
  | _ => 0

/-- The arguments are not larger than the functions take, and those of the one-shot functions shorter than 2^61 bytes (with the block of HMAC). -/
def PyOp.Fits (kinds : Nat → Kind) (limit : Kind → Nat) : PyOp → Prop
  | .update i (some (.bytes b)) => b.length ≤ limit (kinds i)
  | .calculate k (some (.bytes b)) _ => b.length ≤ limit k ∧ b.length < 2 ^ 61
  | .calculateHmac k (some (.bytes key, .bytes b)) _ => b.length ≤ limit k ∧ key.length ≤ limit k ∧ key.length < 2 ^ 61 ∧ k.blockSize + b.length < 2 ^ 61
  | _ => True

end Spec
