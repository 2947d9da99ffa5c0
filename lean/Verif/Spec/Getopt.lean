import Verif.Base
/-! Command lines with single-letter options (POSIX utility syntax). Characters are their numeric values. -/

namespace Spec

/-- What an option string such as "d:hp:vV" says of an option character: unknown, or known and followed by a colon (takes an argument) or not. -/
def optionKind : List Nat → Nat → Option Bool
  | [], _ => none
  | x :: t, c => if x = c ∧ c ≠ 58 then some (t.head? == some 58) else optionKind t c

/-- One or more options behind a single '-': options without argument, then possibly one with an argument, which stands right behind it (`attached`) or in the next argument. -/
structure OptGroup where
  flags : List Nat
  last : Option (Nat × List Nat × Bool)

/-- The command line arguments of a group. -/
def OptGroup.args (g : OptGroup) : List (List Nat) :=
  match g.last with
  | none => [45 :: g.flags]
  | some (o, v, true) => [45 :: (g.flags ++ o :: v)]
  | some (o, v, false) => [45 :: (g.flags ++ [o]), v]

/-- The options of a group with their arguments. -/
def OptGroup.options (g : OptGroup) : List (Nat × Option (List Nat)) :=
  g.flags.map (fun f => (f, none)) ++ (g.last.toList.map fun l => (l.1, some l.2.1))

/-- A well-formed group: not empty, known options, an attached argument is not empty, no NUL characters, and no option '-'. -/
structure OptGroup.Ok (opts : List Nat) (g : OptGroup) : Prop where
  nonempty : g.flags ≠ [] ∨ g.last ≠ none
  flags : ∀ f ∈ g.flags, optionKind opts f = some false ∧ f ≠ 0 ∧ f ≠ 45
  last : ∀ o v a, g.last = some (o, v, a) → optionKind opts o = some true ∧ o ≠ 0 ∧ o ≠ 45 ∧ 0 ∉ v ∧ (a = true → v ≠ [])

/-- What follows the options: nothing, or operands of which the first does not begin with '-'. -/
def Operands (rest : List (List Nat)) : Prop := ∀ a, rest.head? = some a → a.head? ≠ some 45

end Spec
