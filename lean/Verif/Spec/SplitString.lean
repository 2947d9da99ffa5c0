import Verif.Model.SplitString
/-! What selecting digests owes for the memory it needs while it reads the list of names. -/

namespace Spec

open Model

/-- All calls that read the list of `n` names succeed. -/
def ListRead (c : SplitCalls) (n : Nat) : Prop := c.split = true ∧ c.number = true ∧ ∀ i < n, c.segment i = .found

instance (c : SplitCalls) (n : Nat) : Decidable (ListRead c n) := by unfold ListRead; infer_instance

/-- The list was split, and then its number of names could not be told, or one of its `n` names came as a NULL pointer after the names before it came as they should. -/
def ReadBroken (c : SplitCalls) (n : Nat) : Prop := c.split = true ∧ (c.number = false ∨ ∃ i < n, c.segment i = .null ∧ ∀ j < i, c.segment j = .found)

/-- The number of names of a list separated by commas. -/
def nameCount (string : List Nat) : Nat := string.count 44 + 1

/-- Releasing a split string never leaves it allocated. -/
def FreesAll (c : SplitCalls) : Prop := ∀ n, c.free n ≠ .kept

/-- The same call with the outcome of the library calls in two Booleans: all calls that read the list, the call that releases it. -/
def plainOp : HandleOp × SplitCalls → HandleOp
  | (.digests mc _ _ string, c) => .digests mc (decide (ListRead c (nameCount string))) (decide (c.free 0 = .done)) string
  | (op, _) => op

/-- Does this call on a handle select digests, with a list that could be split but then not be read? -/
def Broken : HandleOp × SplitCalls → Prop
  | (.digests _ _ _ string, c) => ReadBroken c (nameCount string)
  | _ => False

end Spec
