import Verif.Model.Trace
import Verif.Spec.Kinds
import Verif.Spec.Machine
/-! Of a list of observations: the work it stands for, and which objects it touches. -/

namespace Spec

open Model (Obs Arr)

/-- The work of an observation: the number of elements copied or set, and one. -/
def work : Obs → Nat
  | .copy _ _ _ _ n => n + 1
  | .set _ _ n => n + 1
  | _ => 1

/-- The work of a run. -/
def totalWork (t : List Obs) : Nat := (t.map work).sum

/-- What code may touch: arrays it reads, arrays it writes, objects on the heap it uses, objects it frees, whether it allocates, and the areas of the caller that it hands on. -/
structure Rights where
  reads : List Arr
  writes : List Arr
  uses : Nat → Prop
  frees : Nat → Prop
  allocates : Prop
  areas : Option Nat → Nat → Prop

/-- An observation within the rights. -/
def Allowed (F : Rights) : Obs → Prop
  | .read a _ => a ∈ F.reads
  | .write a _ => a ∈ F.writes
  | .copy d _ s _ _ => d ∈ F.writes ∧ s ∈ F.reads
  | .set d _ _ => d ∈ F.writes
  | .alloc _ => F.allocates
  | .free p => F.frees p
  | .deref p => ∀ q, p = some q → F.uses q
  | .area p n => F.areas p n
  | _ => True

/-- More rights. -/
def Rights.le (F G : Rights) : Prop :=
  F.reads ⊆ G.reads ∧ F.writes ⊆ G.writes ∧ (∀ p, F.uses p → G.uses p) ∧ (∀ p, F.frees p → G.frees p) ∧ (F.allocates → G.allocates) ∧ ∀ p n, F.areas p n → G.areas p n

/-! ## Work -/

/-- A bound on the work for a block. -/
def Kind.blockWork : Kind → Nat
  | .md5 => 2041
  | .sha1 => 3087
  | .sha224 => 2766
  | .sha256 => 2766
  | .sha512 => 3582

/-- A bound on the work of a call: it grows with the number of whole blocks in the given bytes, and with nothing else. -/
def callWork (k : Kind) : ApiCall → Nat
  | .update _ size => k.blockWork * (size / k.blockSize + 1) + 500
  | .finalize _ _ => k.blockWork * 2 + 1000
  | _ => 300

/-- The number of bytes of a call. -/
def callBytes : ApiCall → Nat
  | .update _ size => size
  | _ => 0

/-! ## What the calls touch -/

/-- What a call with a context at `slot` may touch. `initialize` sets up the new context from constant tables; `free` frees the context; `update` reads the input, `finalize` writes the output;
both use the context, local arrays and constant tables. -/
def callRights (slot : Option Nat) : ApiCall → Rights
  | .init => ⟨[.table], [.block, .state], fun _ => False, fun _ => False, False, fun _ _ => False⟩
  | .initNull => ⟨[.table], [.block, .state], fun _ => False, fun _ => False, False, fun _ _ => False⟩
  | .free => ⟨[], [], fun _ => False, (slot = some ·), False, fun _ _ => False⟩
  | .freeNull => ⟨[], [], fun _ => False, (slot = some ·), False, fun _ _ => False⟩
  | .update _ _ => ⟨[.input, .block, .state, .work, .sched, .table], [.block, .state, .work, .sched], (slot = some ·), fun _ => False, False, fun _ _ => False⟩
  | .finalize _ _ => ⟨[.block, .state, .work, .sched, .table], [.block, .state, .work, .sched, .output], (slot = some ·), fun _ => False, False, fun _ _ => False⟩

/-- What a one-shot function may touch: the message, the key and the constant tables are not written; heap objects used or freed are among `D`; areas of the caller handed on are among `E`. -/
def oneShotRights (D : Nat → Prop) (E : Option Nat → Nat → Prop) : Rights :=
  ⟨[.input, .block, .state, .work, .sched, .table, .keyData, .inner, .outer, .keyHash], [.block, .state, .work, .sched, .output, .keyData, .inner, .outer], D, D, True, E⟩

/-- A thread that is in a call: the context it works on (of `initialize`: the one that is made), and the addresses and sizes of the areas it gave. -/
structure Thread where
  id : Nat
  context : Nat
  input : Nat × Nat
  output : Nat × Nat

/-- Places in memory: the stack of a thread, an object on the heap, an area of the caller, the constant tables. -/
inductive Place where
  | stack (thread : Nat)
  | heap (p : Nat)
  | area (addr size : Nat)
  | constants

/-- Where an array is. -/
def Thread.place (t : Thread) : Arr → Place
  | .input => .area t.input.1 t.input.2
  | .output => .area t.output.1 t.output.2
  | .block => .heap t.context
  | .state => .heap t.context
  | .table => .constants
  | _ => .stack t.id

/-- The accesses of an observation: a place, and whether it is written. Uses of a heap object count as writes. -/
def Thread.accesses (t : Thread) : Obs → List (Place × Bool)
  | .read a _ => [(t.place a, false)]
  | .write a _ => [(t.place a, true)]
  | .copy d _ s _ _ => [(t.place d, true), (t.place s, false)]
  | .set d _ _ => [(t.place d, true)]
  | .free p => [(.heap p, true)]
  | .deref (some p) => [(.heap p, true)]
  | _ => []

/-- Areas with a byte in common. -/
def meet (a b : Nat × Nat) : Prop := ∃ x, a.1 ≤ x ∧ x < a.1 + a.2 ∧ b.1 ≤ x ∧ x < b.1 + b.2

/-- Places with a byte in common. -/
def Place.Overlap : Place → Place → Prop
  | .stack t, .stack t' => t = t'
  | .heap p, .heap q => p = q
  | .area a n, .area b m => meet (a, n) (b, m)
  | .constants, .constants => True
  | _, _ => False

/-- Two threads that share nothing but areas that both only read. -/
def Thread.Apart (t t' : Thread) : Prop :=
  t.id ≠ t'.id ∧ t.context ≠ t'.context ∧ ¬meet t.output t'.input ∧ ¬meet t.input t'.output ∧ ¬meet t.output t'.output

/-- A data race: an access of each thread to the same place, at least one of which is a write. -/
def Race (t t' : Thread) (l l' : List Obs) : Prop :=
  ∃ o ∈ l, ∃ o' ∈ l', ∃ x ∈ t.accesses o, ∃ y ∈ t'.accesses o', (x.2 = true ∨ y.2 = true) ∧ x.1.Overlap y.1

end Spec
