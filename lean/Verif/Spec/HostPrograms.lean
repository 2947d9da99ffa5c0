import Verif.Spec.Python
/-! Python programs on a host: no object is larger than the host allows. -/

namespace Spec

/-- A bytes object of at most `limit` bytes, or no bytes object. -/
def PyArg.AtMost (limit : Nat) : PyArg → Prop
  | .bytes b => b.length ≤ limit
  | _ => True

/-- The bytes objects that a statement passes have at most `limit` bytes. -/
def PyOp.AtMost (limit : Nat) : PyOp → Prop
  | .update _ (some a) => a.AtMost limit
  | .calculate _ (some a) _ => a.AtMost limit
  | .calculateHmac _ (some (a, b)) _ => a.AtMost limit ∧ b.AtMost limit
  | _ => True

end Spec
