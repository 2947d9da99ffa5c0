import Verif.Spec.Getopt
/-! The function getopt of a C library, called with a fixed option string, and what its standards promise. Independent of the model. -/

namespace Spec

/-- What a program sees of `getopt`: it is called in a state, returns a character (`none`: -1) and leaves a state, from which the program reads the argument vector (which GNU getopt rearranges), `optind` and `optarg` (`none`: NULL).
The first element of the vector is the name of the program. -/
structure Library where
  State : Type
  start : List (List Nat) → State
  next : State → Option Nat × State
  argv : State → List (List Nat)
  optind : State → Nat
  optarg : State → Option (List Nat)

/-- Calls that return these options, with these arguments in `optarg`. (`none`: `optarg` is not looked at.) -/
inductive Library.Gives (L : Library) : L.State → List (Nat × Option (List Nat)) → L.State → Prop where
  | nil (s : L.State) : L.Gives s [] s
  | cons (s s1 s' : L.State) (c : Nat) (a : Option (List Nat)) (os : List (Nat × Option (List Nat))) (h : L.next s = (some c, s1)) (ha : a = none ∨ L.optarg s1 = a) (hs : L.Gives s1 os s') : L.Gives s ((c, a) :: os) s'

/-- Calls that return these options and then -1. -/
def Library.Delivers (L : Library) (s : L.State) (os : List (Nat × Option (List Nat))) (s' : L.State) : Prop := ∃ s1, L.Gives s os s1 ∧ L.next s1 = (none, s')

/-- POSIX: options come before the operands; the vector is not changed; at the end `optind` is the index of the first operand. -/
def Library.Posix (L : Library) (opts : List Nat) : Prop :=
  ∀ (program : List Nat) (groups : List OptGroup) (rest : List (List Nat)), (∀ g ∈ groups, g.Ok opts) → Operands rest → (∀ b ∈ rest, 0 ∉ b) →
    ∃ s', L.Delivers (L.start (program :: (groups.flatMap OptGroup.args ++ rest))) (groups.flatMap OptGroup.options) s' ∧
      L.argv s' = program :: (groups.flatMap OptGroup.args ++ rest) ∧ L.optind s' = 1 + (groups.flatMap OptGroup.args).length

/-- A part of a GNU command line: a group of options, or an operand. -/
inductive Item where
  | options (g : OptGroup)
  | operand (text : List Nat)

def Item.args : Item → List (List Nat)
  | .options g => g.args
  | .operand a => [a]

def Item.group? : Item → Option OptGroup
  | .options g => some g
  | .operand _ => none

def Item.operand? : Item → Option (List Nat)
  | .options _ => none
  | .operand a => some a

/-- Groups are well-formed, operands do not begin with '-'. -/
def Item.Ok (opts : List Nat) : Item → Prop
  | .options g => g.Ok opts
  | .operand a => a.head? ≠ some 45 ∧ 0 ∉ a

/-- GNU: options and operands may be mixed; at the end the operands, in their order, are the elements of the vector from `optind` on. -/
def Library.Gnu (L : Library) (opts : List Nat) : Prop :=
  ∀ (program : List Nat) (items : List Item), (∀ i ∈ items, i.Ok opts) →
    ∃ s', L.Delivers (L.start (program :: items.flatMap Item.args)) ((items.filterMap Item.group?).flatMap OptGroup.options) s' ∧
      (L.argv s').Perm (program :: items.flatMap Item.args) ∧ (L.argv s').drop (L.optind s') = items.filterMap Item.operand? ∧ L.optind s' ≤ (L.argv s').length

/-- States that calls lead to. -/
inductive Library.Reach (L : Library) (args : List (List Nat)) : L.State → Prop where
  | start : L.Reach args (L.start args)
  | next (s : L.State) (h : L.Reach args s) : L.Reach args (L.next s).2

/-- What every getopt keeps: the vector has the same elements, and after a call `optind` is at least 1 and at most their number. -/
def Library.InBounds (L : Library) : Prop :=
  ∀ args, args ≠ [] → ∀ s, L.Reach args s → (L.argv (L.next s).2).Perm args ∧ 1 ≤ L.optind (L.next s).2 ∧ L.optind (L.next s).2 ≤ args.length

/-- After enough calls -1 is returned, or a character that is not an option: the loop of a program over the options ends. -/
def Library.Ends (L : Library) (opts : List Nat) : Prop :=
  ∀ args, args ≠ [] → ∃ (n : Nat), ∀ os s, os.length = n → L.Gives (L.start args) os s → ∃ x ∈ os, optionKind opts x.1 = none

end Spec
