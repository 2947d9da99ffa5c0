import Verif.Model.Heap
import Verif.Spec.Kinds
/-! The context functions in the builds that use a crypto library: libhmac/libhmac_{md5,sha1,sha224,sha256,sha512}_context.c, branches HAVE_LIBCRYPTO.

The five files have the same text up to names in these branches; line numbers are those of libhmac_sha256_context.c. What the functions of the library do is a parameter (`Library`); each of their calls may fail.
The error output is left out (see Model/BackendErrors), `memory_set` does not fail, and ERR_remove_thread_state is left out. -/

namespace Model

open Spec (ApiCall Reply Kind)

/-- The branches: the direct functions SHA256_Init, SHA256_Update, SHA256_Final (HAVE_OPENSSL_SHA_H; `smallLong`: SIZEOF_LONG < SIZEOF_SIZE_T), or the EVP functions, with the EVP context embedded in the libhmac
context (HAVE_EVP_MD_CTX_INIT and HAVE_EVP_MD_CTX_CLEANUP) or allocated (neither). -/
inductive Backend where
  | direct (smallLong : Bool)
  | evpEmbedded
  | evpAllocated
  deriving DecidableEq

/-- A crypto library: its hash state, and for the n-th call of it what it does. `init` is SHA256_Init or EVP_DigestInit_ex(2) (`none`: the result is not 1); `update` is SHA256_Update or EVP_DigestUpdate; `final` is
SHA256_Final or EVP_DigestFinal_ex, which is given the caller's output area; `create` is EVP_MD_CTX_new (`false`: NULL); `cleanup` is the result of EVP_MD_CTX_cleanup. -/
structure Library where
  State : Type
  init : Nat → Option State
  update : Nat → State → List Byte → Bool × State
  final : Nat → State → List Byte → Bool × State × List Byte
  create : Nat → Bool
  cleanup : Nat → Bool

/-- `evp_md_context` (libhmac_sha256_context.h:61-69): NULL, the embedded context, or an allocated one. -/
inductive EvpPtr where
  | null
  | embedded
  | heap (p : Nat)

/-- A heap object: the libhmac context (libhmac_sha256_context.h:55-86, first two branches) with the hash state inside it, or an allocated EVP context. A state that was not set up is `none`. -/
inductive BObj (σ : Type) where
  | ctx (state : Option σ) (evp : EvpPtr)
  | md (state : Option σ)

/-- Memory: the number of allocations attempted, of calls of the library, and the live objects. EVP contexts are numbered with the library calls (they are `2 n + 1`, libhmac contexts `2 n`). (The objects allocated at lines 489 and 521-567 of libhmac/libhmac_sha256_context.c.) -/
structure BSt (σ : Type) where
  count : Nat
  calls : Nat
  live : List (Nat × BObj σ)

/-- `memory_free` and EVP_MD_CTX_free: freeing what is not live is undefined. (common/memory.h:91-100; libhmac/libhmac_sha256_context.c:584, 615, 668, 679.) -/
def bErase {σ} (p : Nat) (s : BSt σ) : Res (BSt σ) :=
  match getKey p s.live with
  | none => .ub
  | some _ => .ok { s with live := eraseKey p s.live }

/-- One call of the library. (A counter for the outcomes in `Library`; not code of /repo. Calls are at libhmac/libhmac_sha256_context.c:521-571, 653-669, 745, 815, 1068, 1137.) -/
def BSt.tick {σ} (s : BSt σ) : BSt σ := { s with calls := s.calls + 1 }

/-- The end of `libhmac_sha256_context_initialize` after `on_error` (lines 612-619). -/
def bInitError {σ} (p : Nat) (s : BSt σ) : Res (Int × Option Nat × BSt σ) := do
  let s ← bErase p s
  pure (-1, none, s)

/-- The state of the hash in the EVP context of an allocated context is set up (lines 556-597): EVP_DigestInit_ex, and the clean up after its failure. -/
def bDigestInit (L : Library) (p : Nat) (evp : EvpPtr) (s : BSt L.State) : Res (Int × Option Nat × BSt L.State) :=
  match L.init s.calls with
  | some st =>
    match evp with
    | .null => .ub
    | .embedded => .ok (1, some p, { s.tick with live := setKey p (.ctx (some st) .embedded) s.live })
    | .heap q => .ok (1, some p, { s.tick with live := setKey p (.ctx none (.heap q)) (setKey q (.md (some st)) s.live) })
  | none =>
    match evp with
    | .null => .ub
    | .embedded => bInitError p s.tick.tick
    | .heap q => do
      let s ← bErase q s.tick
      bInitError p s

/-- `libhmac_sha256_context_initialize` (lines 456-619) for a variable that holds `slot`. -/
def bInitialize (B : Backend) (L : Library) (allocOk : Nat → Bool) (slot : Option Nat) (s : BSt L.State) : Res (Int × Option Nat × BSt L.State) :=
  match slot with
  | some p => .ok (-1, some p, s)
  | none =>
    if allocOk s.count then
      let p := 2 * s.count
      let s := { s with count := s.count + 1, live := (p, .ctx none .null) :: s.live }
      match B with
      | .direct _ =>
        match L.init s.calls with
        | some st => .ok (1, some p, { s.tick with live := setKey p (.ctx (some st) .null) s.live })
        | none => bInitError p s.tick
      | .evpEmbedded => bDigestInit L p .embedded s
      | .evpAllocated =>
        if L.create s.calls then
          let q := 2 * s.calls + 1
          bDigestInit L p (.heap q) { s.tick with live := setKey p (.ctx none (.heap q)) ((q, .md none) :: s.live) }
        else bInitError p s.tick
    else .ok (-1, none, { s with count := s.count + 1 })

/-- `libhmac_sha256_context_free` (lines 624-683) for a variable that holds `slot`. A failure of EVP_MD_CTX_cleanup sets the error but not the result. -/
def bFree (B : Backend) (L : Library) (slot : Option Nat) (s : BSt L.State) : Res (Int × Option Nat × BSt L.State) :=
  match slot with
  | none => .ok (1, none, s)
  | some p =>
    match B, getKey p s.live with
    | .direct _, some (.ctx _ _) => do
      let s ← bErase p s
      pure (1, none, s)
    | .evpEmbedded, some (.ctx _ _) => do
      let s ← bErase p s.tick
      pure (1, none, s)
    | .evpAllocated, some (.ctx _ (.heap q)) => do
      let s ← bErase q s.tick
      let s ← bErase p s
      pure (1, none, s)
    | .evpAllocated, some (.ctx _ .null) => do
      let s ← bErase p s.tick
      pure (1, none, s)
    | _, _ => .ub

/-- Access to the hash state of a context: the member `sha256_context`, or what `evp_md_context` points to. -/
def bState {σ} (B : Backend) (p : Nat) (s : BSt σ) : Res σ :=
  match B, getKey p s.live with
  | .direct _, some (.ctx (some st) _) => .ok st
  | .evpEmbedded, some (.ctx (some st) .embedded) => .ok st
  | .evpAllocated, some (.ctx _ (.heap q)) =>
    match getKey q s.live with
    | some (.md (some st)) => .ok st
    | _ => .ub
  | _, _ => .ub

/-- Change of the hash state of a context. (The hash state inside the structure of libhmac/libhmac_sha256_context.h:55-89.) -/
def bSetState {σ} (p : Nat) (st : σ) (s : BSt σ) : Res (BSt σ) :=
  match getKey p s.live with
  | some (.ctx _ (.heap q)) => .ok { s with live := setKey q (.md (some st)) s.live }
  | some (.ctx _ evp) => .ok { s with live := setKey p (.ctx (some st) evp) s.live }
  | _ => .ub

/-- The largest size of an update: SSIZE_MAX, or ULONG_MAX in the direct branch with a 32-bit `unsigned long` (lines 724-728, 800). -/
def Backend.maxUpdate : Backend → Nat
  | .direct true => 2 ^ 32 - 1
  | _ => ssizeMax

/-- The largest size of an output area: SSIZE_MAX (line 1046), or UINT_MAX in the EVP branches (line 1124). -/
def Backend.maxOutput : Backend → Nat
  | .direct _ => ssizeMax
  | _ => 2 ^ 32 - 1

/-- The library is given the bytes of the buffer: reading past its end is undefined. (The arguments `buffer` and `size` handed on in libhmac/libhmac_sha256_context.c:690-760 and 767-830.) -/
def bTake (b : List Byte) (size : Nat) : Res (List Byte) := if size ≤ b.length then .ok (b.take size) else .ub

/-- `libhmac_sha256_context_update` (lines 690-760 direct, 767-830 EVP). -/
def bUpdate (B : Backend) (L : Library) (slot : Option Nat) (buf : Option (List Byte)) (size : Nat) (s : BSt L.State) : Res (Int × BSt L.State) :=
  match slot, buf with
  | none, _ => .ok (-1, s)
  | some _, none => .ok (-1, s)
  | some p, some b =>
    if B.maxUpdate < size then .ok (-1, s)
    else if size = 0 then .ok (1, s)
    else do
      let st ← bState B p s
      let data ← bTake b size
      let s' ← bSetState p (L.update s.calls st data).2 s.tick
      pure (if (L.update s.calls st data).1 then 1 else -1, s')

/-- `libhmac_sha256_context_finalize` (lines 1013-1082 direct, 1089-1152 EVP). The library writes to the output area. -/
def bFinalize (B : Backend) (L : Library) (hashSize : Nat) (slot : Option Nat) (out : Option (List Byte)) (size : Nat) (s : BSt L.State) : Res (Int × Option (List Byte) × BSt L.State) :=
  match slot, out with
  | none, o => .ok (-1, o, s)
  | some _, none => .ok (-1, none, s)
  | some p, some o =>
    if B.maxOutput < size then .ok (-1, some o, s)
    else if size < hashSize then .ok (-1, some o, s)
    else do
      let st ← bState B p s
      let (ok, st', o') := L.final s.calls st o
      let s' ← bSetState p st' s.tick
      pure (if ok then 1 else -1, some o', s')

/-- One call of a client that keeps its context in a variable. The NULL tests of initialize and free are the same as in the built-in variant (lines 467-477, 631-641). -/
def bStep (B : Backend) (L : Library) (hashSize : Nat) (allocOk : Nat → Bool) (call : ApiCall) (slot : Option Nat) (s : BSt L.State) : Res (Reply × Option Nat × BSt L.State) :=
  match call with
  | .init => do
    let (r, slot, s) ← bInitialize B L allocOk slot s
    pure (⟨r, none⟩, slot, s)
  | .initNull => .ok (⟨-1, none⟩, slot, s)
  | .free => do
    let (r, slot, s) ← bFree B L slot s
    pure (⟨r, none⟩, slot, s)
  | .freeNull => .ok (⟨-1, none⟩, slot, s)
  | .update buf size => do
    let (r, s) ← bUpdate B L slot buf size s
    pure (⟨r, none⟩, slot, s)
  | .finalize out size => do
    let (r, out, s) ← bFinalize B L hashSize slot out size s
    pure (⟨r, out⟩, slot, s)

/-- A client program. (A client of include/libhmac.h.in:468-503; not code of /repo.) -/
def bRun (B : Backend) (L : Library) (hashSize : Nat) (allocOk : Nat → Bool) : List ApiCall → Option Nat → BSt L.State → Res (List Reply × Option Nat × BSt L.State)
  | [], slot, s => .ok ([], slot, s)
  | c :: cs, slot, s => do
    let (r, slot, s) ← bStep B L hashSize allocOk c slot s
    let (rs, slot, s) ← bRun B L hashSize allocOk cs slot s
    pure (r :: rs, slot, s)

end Model
