import Verif.Model.Context
/-! Heap, caller memory, and the context functions on heap pointers.

Pointers to heap objects are allocation numbers; NULL is `none`. Allocation outcomes come from an environment: whether the n-th
allocation succeeds, and the indeterminate contents of a new allocation, are arbitrary functions. -/

namespace Model

/-- A heap object: a context structure or a byte array. (The structures of libhmac/libhmac_sha256_context.h:55-89, and the arrays allocated at libhmac/libhmac_sha256.c:277, 412, 440.) -/
inductive Obj (w : Nat) where
  | ctx (c : Ctx w)
  | bytes (b : List Byte)
  deriving DecidableEq

/-- What the code does not control: outcome of the n-th allocation, contents of fresh memory, contents of fresh stack arrays. (memory_allocate, common/memory.h:51-60; the stack arrays of libhmac/libhmac_sha256_context.c:232-241.) -/
structure Env (w : Nat) where
  allocOk : Nat → Bool
  junkCtx : Nat → Ctx w
  junkByte : Nat → Nat → Byte
  scr : Scr w

/-- Memory: the caller's memory, the number of allocations attempted, live objects, and the log of freed objects with their contents at the
moment of the free (latest first). (The memory that the functions of libhmac/libhmac_sha256_context.c and libhmac_sha256.c work on; `freed` is not visible to a program, it is kept for C22-C26.) -/
structure St (w : Nat) where
  caller : List Byte
  count : Nat
  live : List (Nat × Obj w)
  freed : List (Nat × Obj w)
  deriving DecidableEq

/-- Lookup of a live object. (No code of /repo: access through a pointer returned at common/memory.h:51-60.) -/
def getKey {α} (p : Nat) : List (Nat × α) → Option α
  | [] => none
  | e :: t => if e.1 = p then some e.2 else getKey p t

/-- Overwrite of a live object. (No code of /repo: access through a pointer returned at common/memory.h:51-60.) -/
def setKey {α} (p : Nat) (o : α) : List (Nat × α) → List (Nat × α)
  | [] => []
  | e :: t => if e.1 = p then (p, o) :: t else e :: setKey p o t

/-- Removal of a live object. (For memory_free, common/memory.h:91-100.) -/
def eraseKey {α} (p : Nat) : List (Nat × α) → List (Nat × α)
  | [] => []
  | e :: t => if e.1 = p then t else e :: eraseKey p t

/-- `memory_allocate( sizeof( uint8_t ) * n )` (common/memory.h:50-57, `malloc`). -/
def allocBytes {w} (env : Env w) (n : Nat) (s : St w) : Option Nat × St w :=
  if env.allocOk s.count then
    (some s.count, { s with count := s.count + 1, live := (s.count, .bytes ((List.range n).map (env.junkByte s.count))) :: s.live })
  else (none, { s with count := s.count + 1 })

/-- `memory_free` (common/memory.h:90-101, `free`) of a non-NULL pointer: freeing what is not live is undefined behaviour. -/
def memFree {w} (p : Nat) (s : St w) : Res (St w) :=
  match getKey p s.live with
  | none => .ub
  | some o => .ok { s with live := eraseKey p s.live, freed := (p, o) :: s.freed }

/-- Access to a live byte array. (`key_data`, `inner_padding` and `outer_padding`, libhmac/libhmac_sha256.c:277, 412, 440; access to what is not live is undefined.) -/
def loadBytes {w} (p : Option Nat) (s : St w) : Res (List Byte) :=
  match p with
  | none => .ub
  | some p => match getKey p s.live with
    | some (.bytes b) => .ok b
    | _ => .ub

/-- Update of a live byte array. (`key_data`, `inner_padding` and `outer_padding`, libhmac/libhmac_sha256.c:277, 412, 440; access to what is not live is undefined.) -/
def storeBytes {w} (p : Option Nat) (b : List Byte) (s : St w) : Res (St w) :=
  match p with
  | none => .ub
  | some p => .ok { s with live := setKey p (.bytes b) s.live }

/-- `libhmac_*_context_initialize` with a valid `context` argument that points to a variable holding `slot`
(libhmac/libhmac_sha256_context.c:456-619, built-in variant). A variable that is not NULL is only compared, what it points to is not looked at. -/
def hInitialize {w} (A : Alg w) (env : Env w) (slot : Option Nat) (s : St w) : Res (Int × Option Nat × St w) :=
  match slot with
  | some p => do
    let (r, _) ← ctxInitialize A none (some (some (zeroCtx A)))
    pure (r, some p, s)
  | none =>
    if env.allocOk s.count then do
      let (r, c) ← ctxInitialize A (some (env.junkCtx s.count)) (some none)
      match c with
      | some (some c) => pure (r, some s.count, { s with count := s.count + 1, live := (s.count, .ctx c) :: s.live })
      | _ => .ub
    else do
      let (r, _) ← ctxInitialize A none (some none)
      pure (r, none, { s with count := s.count + 1 })

/-- `libhmac_*_context_free` with a valid `context` argument that points to a variable holding `slot`
(libhmac/libhmac_sha256_context.c:624-683, built-in variant): returns the result and the new value of the variable. -/
def hFree {w} (slot : Option Nat) (s : St w) : Res (Int × Option Nat × St w) :=
  match slot with
  | none => .ok (1, none, s)
  | some p => do
    let s ← memFree p s
    pure (1, none, s)

/-- `libhmac_*_context_update` on a context pointer (libhmac/libhmac_sha256_context.c:837-1004). -/
def hUpdate {w} (A : Alg w) (u : Bool) (env : Env w) (slot : Option Nat) (buf : Option (List Byte)) (size : Nat) (s : St w) : Res (Int × St w) :=
  match slot with
  | none => do
    let (r, _) ← ctxUpdate A u env.scr none buf size
    pure (r, s)
  | some p => match getKey p s.live with
    | some (.ctx c) => do
      let (r, c') ← ctxUpdate A u env.scr (some c) buf size
      match c' with
      | some c' => pure (r, { s with live := setKey p (.ctx c') s.live })
      | none => .ub
    | _ => .ub

/-- `libhmac_*_context_finalize` on a context pointer (libhmac/libhmac_sha256_context.c:1159-1348): also returns the new contents of the output. -/
def hFinalize {w} (A : Alg w) (u : Bool) (env : Env w) (slot : Option Nat) (hash : Option (List Byte)) (hashSize : Nat) (s : St w) :
    Res (Int × Option (List Byte) × St w) :=
  match slot with
  | none => do
    let (r, _, h) ← ctxFinalize A u env.scr none hash hashSize
    pure (r, h, s)
  | some p => match getKey p s.live with
    | some (.ctx c) => do
      let (r, c', h) ← ctxFinalize A u env.scr (some c) hash hashSize
      match c' with
      | some c' => pure (r, h, { s with live := setKey p (.ctx c') s.live })
      | none => .ub
    | _ => .ub

/-- The `size` bytes of caller memory at a pointer (fewer if the memory ends before): what a function may access through the pointer. (The pointer arguments of libhmac/libhmac_sha256.c:143-148 and 225-232.) -/
def region {w} (s : St w) (p : Option Nat) (size : Nat) : Option (List Byte) :=
  p.map fun o => (s.caller.drop o).take size

/-- Write-back of an output area of caller memory. (The pointer arguments of libhmac/libhmac_sha256.c:143-148 and 225-232.) -/
def setRegion {w} (s : St w) (p : Option Nat) (b : Option (List Byte)) : St w :=
  match p, b with
  | some o, some b => { s with caller := s.caller.take o ++ (b ++ s.caller.drop (o + b.length)) }
  | _, _ => s

end Model
