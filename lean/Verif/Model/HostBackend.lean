import Verif.Model.BackendOneShot
import Verif.Model.Builds
/-! The context functions and the one-shot functions of the builds with a crypto library, on a host whose `size_t` has `hb` bits (on the hosts of Model/Backend it has 64).

The width shows in the limits of sizes and in the computations with `size_t` of `libhmac_*_calculate_hmac`; everything else is the text of Model/Backend and Model/BackendOneShot, whose functions without a size
(`bInitialize`, `bFree`, `oPads`, `oWipe` and the like) are used as they are. Simplified: `unsigned int` has 32 bits, and so has `unsigned long` where it is narrower than `size_t` (`.direct true`, for hosts with `hb` above 32).
Line numbers are those of libhmac_sha256_context.c and libhmac_sha256.c. -/

namespace Model

open Spec (Kind ApiCall Reply)

/-- The largest size of an update: SSIZE_MAX of the host, or ULONG_MAX in the direct branch if `unsigned long` is narrower than `size_t` (lines 724-728, 800). -/
def hostMaxUpdate (hb : Nat) : Backend → Nat
  | .direct true => 2 ^ 32 - 1
  | _ => hostMax hb

/-- The largest size of an output area: SSIZE_MAX of the host (line 1046), or `(size_t) UINT_MAX` in the EVP branches (line 1124). -/
def hostMaxOutput (hb : Nat) : Backend → Nat
  | .direct _ => hostMax hb
  | _ => (2 ^ 32 - 1) % 2 ^ hb

/-- `libhmac_sha256_context_update` (lines 690-760 direct, 767-830 EVP). -/
def hostBUpdate (hb : Nat) (B : Backend) (L : Library) (slot : Option Nat) (buf : Option (List Byte)) (size : Nat) (s : BSt L.State) : Res (Int × BSt L.State) :=
  match slot, buf with
  | none, _ => .ok (-1, s)
  | some _, none => .ok (-1, s)
  | some p, some b =>
    if hostMaxUpdate hb B < size then .ok (-1, s)
    else if size = 0 then .ok (1, s)
    else do
      let st ← bState B p s
      let data ← bTake b size
      let s' ← bSetState p (L.update s.calls st data).2 s.tick
      pure (if (L.update s.calls st data).1 then 1 else -1, s')

/-- `libhmac_sha256_context_finalize` (lines 1013-1082 direct, 1089-1152 EVP). -/
def hostBFinalize (hb : Nat) (B : Backend) (L : Library) (hashSize : Nat) (slot : Option Nat) (out : Option (List Byte)) (size : Nat) (s : BSt L.State) : Res (Int × Option (List Byte) × BSt L.State) :=
  match slot, out with
  | none, o => .ok (-1, o, s)
  | some _, none => .ok (-1, none, s)
  | some p, some o =>
    if hostMaxOutput hb B < size then .ok (-1, some o, s)
    else if size < hashSize then .ok (-1, some o, s)
    else do
      let st ← bState B p s
      let (ok, st', o') := L.final s.calls st o
      let s' ← bSetState p st' s.tick
      pure (if ok then 1 else -1, some o', s')

/-- One call of a client that keeps its context in a variable, as `bStep`. (Lines 456-619, 624-683, 690-830, 1013-1152.) -/
def hostBStep (hb : Nat) (B : Backend) (L : Library) (hashSize : Nat) (allocOk : Nat → Bool) (call : ApiCall) (slot : Option Nat) (s : BSt L.State) : Res (Reply × Option Nat × BSt L.State) :=
  match call with
  | .init => do
    let (r, slot, s) ← bInitialize B L allocOk slot s
    pure (⟨r, none⟩, slot, s)
  | .initNull => .ok (⟨-1, none⟩, slot, s)
  | .free => do
    let (r, slot, s) ← bFree B L slot s
    pure (⟨r, none⟩, slot, s)
  | .freeNull => .ok (⟨-1, none⟩, slot, s)
  | .update buf size => do
    let (r, s) ← hostBUpdate hb B L slot buf size s
    pure (⟨r, none⟩, slot, s)
  | .finalize out size => do
    let (r, out, s) ← hostBFinalize hb B L hashSize slot out size s
    pure (⟨r, out⟩, slot, s)

/-- A client program. (A client of include/libhmac.h.in:468-503; not code of /repo.) -/
def hostBRun (hb : Nat) (B : Backend) (L : Library) (hashSize : Nat) (allocOk : Nat → Bool) : List ApiCall → Option Nat → BSt L.State → Res (List Reply × Option Nat × BSt L.State)
  | [], slot, s => .ok ([], slot, s)
  | c :: cs, slot, s => do
    let (r, slot, s) ← hostBStep hb B L hashSize allocOk c slot s
    let (rs, slot, s) ← hostBRun hb B L hashSize allocOk cs slot s
    pure (r :: rs, slot, s)

/-- `libhmac_*_context_update`, called by a one-shot function. (libhmac/libhmac_sha256_context.c:690-760 and 767-830.) -/
def hostOUpdate (hb : Nat) (B : Backend) (L : Library) (slot : Option Nat) (buf : Option (List Byte)) (size : Nat) (s : OSt L.State) : Res (Int × OSt L.State) := do
  let (r, c) ← hostBUpdate hb B L slot buf size s.ctxs
  pure (r, { s with ctxs := c })

/-- `libhmac_*_context_finalize`, called by a one-shot function. (libhmac/libhmac_sha256_context.c:1013-1082 and 1089-1152.) -/
def hostOFinalize (hb : Nat) (B : Backend) (L : Library) (digestSize : Nat) (slot : Option Nat) (out : Option (List Byte)) (size : Nat) (s : OSt L.State) : Res (Int × Option (List Byte) × OSt L.State) := do
  let (r, o, c) ← hostBFinalize hb B L digestSize slot out size s.ctxs
  pure (r, o, { s with ctxs := c })

/-- `libhmac_*_calculate` (libhmac_sha256.c:143-219). -/
def hostOCalculate (hb : Nat) (B : Backend) (L : Library) (digestSize : Nat) (env : OEnv) (buffer : Option Nat) (size : Nat) (hash : Option Nat) (hashSize : Nat) (s : OSt L.State) : Res (Int × OSt L.State) := do
  let (r, context, s) ← oInitialize B L env none s
  if r ≠ 1 then oCalculateError B L context s
  else do
    let (r, s) ← hostOUpdate hb B L context (oRegion s buffer size) size s
    if r ≠ 1 then oCalculateError B L context s
    else do
      let (r, h, s) ← hostOFinalize hb B L digestSize context (oRegion s hash hashSize) hashSize s
      let s := oSetRegion s hash h
      if r ≠ 1 then oCalculateError B L context s
      else do
        let (r, context, s) ← oFree B L context s
        if r ≠ 1 then oCalculateError B L context s else pure (1, s)

/-- Lines 277-411 of libhmac_sha256.c: allocate `key_data` and fill it with the key, or with the hash of the key. `false`: `goto on_error`. -/
def hostOKey (hb : Nat) (B : Backend) (L : Library) (digestSize blockSize : Nat) (env : OEnv) (key : Option Nat) (keySize : Nat) (l : Loc) (s : OSt L.State) : Res (Bool × Loc × OSt L.State) := do
  let (p, s) := oAlloc env blockSize s
  let l := { l with keyData := p }
  match p with
  | none => pure (false, l, s)
  | some _ =>
    if keySize ≤ blockSize then
      match oRegion s key keySize with
      | none => .ub
      | some k => do
        let d ← oLoad l.keyData s
        let d ← memCopy d 0 k 0 keySize
        let d ← memSet d keySize 0 (hostSub hb blockSize keySize)
        let s ← oStore l.keyData d s
        pure (true, l, s)
    else do
      let (r, context, s) ← oInitialize B L env l.context s
      let l := { l with context := context }
      if r ≠ 1 then pure (false, l, s)
      else do
        let (r, s) ← hostOUpdate hb B L l.context (oRegion s key keySize) keySize s
        if r ≠ 1 then pure (false, l, s)
        else do
          let (r, h, s) ← hostOFinalize hb B L digestSize l.context (some l.keyHash) digestSize s
          match h with
          | none => .ub
          | some h =>
            let l := { l with keyHash := h }
            if r ≠ 1 then pure (false, l, s)
            else do
              let (r, context, s) ← oFree B L l.context s
              let l := { l with context := context }
              if r ≠ 1 then pure (false, l, s)
              else do
                let d ← oLoad l.keyData s
                let d ← if digestSize < blockSize then memSet d digestSize 0 (hostSub hb blockSize digestSize) else pure d
                let d ← memCopy d 0 l.keyHash 0 digestSize
                let s ← oStore l.keyData d s
                pure (true, l, s)

/-- Lines 475-545 and 546-616 of libhmac_sha256.c: hash a padding followed by a caller area, and store the digest in the caller's HMAC area. -/
def hostOPass (hb : Nat) (B : Backend) (L : Library) (digestSize blockSize : Nat) (env : OEnv) (padding : Option Nat) (buffer : Option Nat) (size : Nat) (hmac : Option Nat) (hmacSize : Nat)
    (l : Loc) (s : OSt L.State) : Res (Bool × Loc × OSt L.State) := do
  let (r, context, s) ← oInitialize B L env l.context s
  let l := { l with context := context }
  if r ≠ 1 then pure (false, l, s)
  else do
    let d ← oLoad padding s
    let (r, s) ← hostOUpdate hb B L l.context (some d) blockSize s
    if r ≠ 1 then pure (false, l, s)
    else do
      let (r, s) ← hostOUpdate hb B L l.context (oRegion s buffer size) size s
      if r ≠ 1 then pure (false, l, s)
      else do
        let (r, h, s) ← hostOFinalize hb B L digestSize l.context (oRegion s hmac hmacSize) hmacSize s
        let s := oSetRegion s hmac h
        if r ≠ 1 then pure (false, l, s)
        else do
          let (r, context, s) ← oFree B L l.context s
          let l := { l with context := context }
          if r ≠ 1 then pure (false, l, s) else pure (true, l, s)

/-- `libhmac_*_calculate_hmac` (libhmac_sha256.c:225-714). -/
def hostOCalculateHmac (hb : Nat) (B : Backend) (L : Library) (digestSize blockSize : Nat) (env : OEnv) (keyHash : List Byte) (key : Option Nat) (keySize : Nat) (buffer : Option Nat) (size : Nat)
    (hmac : Option Nat) (hmacSize : Nat) (s : OSt L.State) : Res (Int × OSt L.State) :=
  match key with
  | none => .ok (-1, s)
  | some k =>
    if hostMax hb < keySize then .ok (-1, s)
    else if hmacSize < digestSize then .ok (-1, s)
    else do
      let (ok, l, s) ← hostOKey hb B L digestSize blockSize env (some k) keySize ⟨none, none, none, none, keyHash⟩ s
      if !ok then oHmacError B L blockSize l s
      else do
        let (ok, l, s) ← oPads blockSize env l s
        if !ok then oHmacError B L blockSize l s
        else do
          let (ok, l, s) ← hostOPass hb B L digestSize blockSize env l.inner buffer size hmac hmacSize l s
          if !ok then oHmacError B L blockSize l s
          else do
            let (ok, l, s) ← hostOPass hb B L digestSize blockSize env l.outer hmac digestSize hmac hmacSize l s
            if !ok then oHmacError B L blockSize l s
            else oHmacEnd blockSize l s

/-- A build that makes the choice `ch k` for algorithm `k` and uses the library `L`, on a host whose `size_t` has `hb` bits. (libhmac/libhmac_sha224_context.h:43-52 and the like; the functions of Model/Host and those above.) -/
def Contexts.mixedHost (hb : Nat) (ch : Kind → Choice) (L : Kind → Library) (T : Tool) : Contexts (MixedMem L) where
  count m := m.mem.count
  attempt m := { m with mem := { m.mem with count := m.mem.count + 1 } }
  call k c n slot m :=
    match ch k with
    | .builtin => do
      let (r, slot, mem) ← (Contexts.host hb T).call k c n slot m.mem
      pure (r, slot, { m with mem := mem })
    | .crypto b => do
      let (r, slot, s) ← hostBStep hb b (L k) k.hashSize T.alloc c slot ⟨m.mem.count, m.calls, m.live k⟩
      pure (r, slot, { mem := { m.mem with count := s.count }, calls := s.calls, live := Function.update m.live k s.live })
  bits := hb

end Model
