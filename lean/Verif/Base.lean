/-! Shared vocabulary of model and specification: bytes, and outcomes of C code. -/

/-- An octet (`uint8_t`). (For example libhmac/libhmac_sha256_context.h:86.) -/
abbrev Byte := BitVec 8

/-- Outcome of running a piece of C code: it returns, it has undefined behaviour, or it does not terminate. (No code of /repo: the meaning of, for example, libhmac/libhmac_sha256_context.c:227-448.) -/
inductive Res (α : Type u) where
  | ok (a : α)
  | ub
  | diverge
  deriving DecidableEq, Repr

namespace Res

/-- Sequencing: undefined behaviour and divergence are not recoverable. (For example libhmac/libhmac_sha256_context.c:300-332.) -/
@[inline] def bind {α β} : Res α → (α → Res β) → Res β
  | ok a, f => f a
  | ub, _ => ub
  | diverge, _ => diverge

/-- Sequencing of statements (for example libhmac/libhmac_sha256_context.c:300-332). -/
instance : Monad Res where
  pure := ok
  bind := bind

@[simp] theorem pure_eq {α} (a : α) : (pure a : Res α) = ok a := rfl
@[simp] theorem ok_bind {α β} (a : α) (f : α → Res β) : (ok a >>= f) = f a := rfl
@[simp] theorem ub_bind {α β} (f : α → Res β) : ((ub : Res α) >>= f) = ub := rfl
@[simp] theorem diverge_bind {α β} (f : α → Res β) : ((diverge : Res α) >>= f) = diverge := rfl

theorem bind_assoc {α β γ} (x : Res α) (f : α → Res β) (g : β → Res γ) :
    (x >>= f) >>= g = x >>= fun a => f a >>= g := by
  cases x <;> rfl

/-- The outcome is a normal return. (Used in statements; no code of /repo.) -/
def isOk {α} : Res α → Bool
  | ok _ => true
  | _ => false

end Res

/-- Read of an array element (C `a[i]`): outside the array is undefined behaviour. (For example libhmac/libhmac_sha256_context.c:371.) -/
def rd {α} (a : List α) (i : Nat) : Res α :=
  match a[i]? with
  | some x => .ok x
  | none => .ub

/-- Write of an array element (C `a[i] = v`). (For example libhmac/libhmac_sha256_context.c:325-332.) -/
def wr {α} (a : List α) (i : Nat) (v : α) : Res (List α) :=
  if i < a.length then .ok (a.set i v) else .ub

/-- `memory_copy( &dst[ doff ], &src[ soff ], n )` (common/memory.h:113-114, `memcpy`), in array elements. -/
def memCopy {α} (dst : List α) (doff : Nat) (src : List α) (soff n : Nat) : Res (List α) :=
  if doff + n ≤ dst.length ∧ soff + n ≤ src.length then
    .ok (dst.take doff ++ ((src.drop soff).take n ++ dst.drop (doff + n)))
  else .ub

/-- `memory_set( &dst[ off ], v, n )` (common/memory.h:120-121, `memset`), in array elements. -/
def memSet {α} (dst : List α) (off : Nat) (v : α) (n : Nat) : Res (List α) :=
  if off + n ≤ dst.length then
    .ok (dst.take off ++ (List.replicate n v ++ dst.drop (off + n)))
  else .ub

/-- `n` iterations of a counting loop whose counter starts at `i`. (For example libhmac/libhmac_sha256_context.c:337-346.) -/
def forCount {σ} (f : Nat → σ → Res σ) (i : Nat) : Nat → σ → Res σ
  | 0, s => .ok s
  | n + 1, s => f i s >>= fun s' => forCount f (i + 1) n s'

/-- `for( i = lo; i < hi; i++ ) s = f( i, s )`. (For example libhmac/libhmac_sha256_context.c:337-346.) -/
def forLoop {σ} (lo hi : Nat) (f : Nat → σ → Res σ) (s : σ) : Res σ :=
  forCount f lo (hi - lo) s

/-- A sequence of statements generated by repeated macro invocations: one statement per table row. (For example libhmac/libhmac_sha256_context.c:300-332.) -/
def runTable {ρ σ} (f : ρ → σ → Res σ) : List ρ → σ → Res σ
  | [], s => .ok s
  | r :: rs, s => f r s >>= fun s' => runTable f rs s'

/-- `SSIZE_MAX` on an LP64 platform (common/types.h.in:369-389). -/
def ssizeMax : Nat := 2 ^ 63 - 1
