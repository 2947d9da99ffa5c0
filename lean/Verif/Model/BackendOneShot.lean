import Verif.Model.Backend
import Verif.Model.Calculate
/-! The one-shot functions `libhmac_*_calculate` and `libhmac_*_calculate_hmac` in the builds that use a crypto library.

Their text is the same in all builds (libhmac_{md5,sha1,sha224,sha256,sha512}.c have no `#if`); line numbers are those of libhmac_sha256.c. They call the context functions of Model/Backend. Simplified: the byte arrays
that the functions allocate are kept in a list of their own, apart from the contexts; allocations are counted together. Error objects are not modelled. -/

namespace Model

/-- Memory: the caller's memory, the contexts with the counters, the live byte arrays, and the log of freed byte arrays with their contents at the moment of the free (latest first). (The memory that libhmac/libhmac_sha256.c:143-219 and 225-714 work on.) -/
structure OSt (σ : Type) where
  caller : List Byte
  ctxs : BSt σ
  blocks : List (Nat × List Byte)
  freed : List (Nat × List Byte)

/-- What the code does not control: the outcomes of the allocations and the contents of new byte arrays. (Outcomes of memory_allocate, common/memory.h:51-60.) -/
structure OEnv where
  allocOk : Nat → Bool
  junkByte : Nat → Nat → Byte

/-- The `size` bytes of caller memory at a pointer (fewer if the memory ends before), as `region` of Model/Heap. (The pointer arguments of libhmac/libhmac_sha256.c:143-148 and 225-232.) -/
def oRegion {σ} (s : OSt σ) (p : Option Nat) (size : Nat) : Option (List Byte) :=
  p.map fun o => (s.caller.drop o).take size

/-- Write-back of an output area of caller memory, as `setRegion` of Model/Heap. (The pointer arguments of libhmac/libhmac_sha256.c:143-148 and 225-232.) -/
def oSetRegion {σ} (s : OSt σ) (p : Option Nat) (b : Option (List Byte)) : OSt σ :=
  match p, b with
  | some o, some b => { s with caller := s.caller.take o ++ (b ++ s.caller.drop (o + b.length)) }
  | _, _ => s

/-- `memory_allocate( sizeof( uint8_t ) * n )` (common/memory.h:50-57). -/
def oAlloc {σ} (env : OEnv) (n : Nat) (s : OSt σ) : Option Nat × OSt σ :=
  if env.allocOk s.ctxs.count then
    (some s.ctxs.count, { s with ctxs := { s.ctxs with count := s.ctxs.count + 1 }, blocks := (s.ctxs.count, (List.range n).map (env.junkByte s.ctxs.count)) :: s.blocks })
  else (none, { s with ctxs := { s.ctxs with count := s.ctxs.count + 1 } })

/-- Access to a live byte array. (`key_data`, `inner_padding` and `outer_padding`, libhmac/libhmac_sha256.c:277, 412, 440; access to what is not live is undefined.) -/
def oLoad {σ} (p : Option Nat) (s : OSt σ) : Res (List Byte) :=
  match p with
  | none => .ub
  | some p => match getKey p s.blocks with
    | some b => .ok b
    | none => .ub

/-- Update of a live byte array. (`key_data`, `inner_padding` and `outer_padding`, libhmac/libhmac_sha256.c:277, 412, 440; access to what is not live is undefined.) -/
def oStore {σ} (p : Option Nat) (b : List Byte) (s : OSt σ) : Res (OSt σ) :=
  match p with
  | none => .ub
  | some p => .ok { s with blocks := setKey p b s.blocks }

/-- `memory_free` of a byte array (common/memory.h:90-101): freeing what is not live is undefined. -/
def oFreeBlock {σ} (p : Nat) (s : OSt σ) : Res (OSt σ) :=
  match getKey p s.blocks with
  | none => .ub
  | some b => .ok { s with blocks := eraseKey p s.blocks, freed := (p, b) :: s.freed }

/-- `libhmac_*_context_initialize`, called with the address of the local `context`. (libhmac/libhmac_sha256_context.c:456-619.) -/
def oInitialize (B : Backend) (L : Library) (env : OEnv) (slot : Option Nat) (s : OSt L.State) : Res (Int × Option Nat × OSt L.State) := do
  let (r, slot, c) ← bInitialize B L env.allocOk slot s.ctxs
  pure (r, slot, { s with ctxs := c })

/-- `libhmac_*_context_update`. (libhmac/libhmac_sha256_context.c:690-760 and 767-830.) -/
def oUpdate (B : Backend) (L : Library) (slot : Option Nat) (buf : Option (List Byte)) (size : Nat) (s : OSt L.State) : Res (Int × OSt L.State) := do
  let (r, c) ← bUpdate B L slot buf size s.ctxs
  pure (r, { s with ctxs := c })

/-- `libhmac_*_context_finalize`; also returns the new contents of the output area. (libhmac/libhmac_sha256_context.c:1013-1082 and 1089-1152.) -/
def oFinalize (B : Backend) (L : Library) (digestSize : Nat) (slot : Option Nat) (out : Option (List Byte)) (size : Nat) (s : OSt L.State) : Res (Int × Option (List Byte) × OSt L.State) := do
  let (r, o, c) ← bFinalize B L digestSize slot out size s.ctxs
  pure (r, o, { s with ctxs := c })

/-- `libhmac_*_context_free`. (libhmac/libhmac_sha256_context.c:624-683.) -/
def oFree (B : Backend) (L : Library) (slot : Option Nat) (s : OSt L.State) : Res (Int × Option Nat × OSt L.State) := do
  let (r, slot, c) ← bFree B L slot s.ctxs
  pure (r, slot, { s with ctxs := c })

/-- `if( context != NULL ) { libhmac_*_context_free( &context, NULL ); }` (lines 212-217, 678-683). -/
def oFreeOpt (B : Backend) (L : Library) (p : Option Nat) (s : OSt L.State) : Res (OSt L.State) :=
  match p with
  | none => .ok s
  | some p => do
    let (_, _, s) ← oFree B L (some p) s
    pure s

/-- `on_error` of `libhmac_*_calculate` (lines 211-218). -/
def oCalculateError (B : Backend) (L : Library) (context : Option Nat) (s : OSt L.State) : Res (Int × OSt L.State) := do
  let s ← oFreeOpt B L context s
  pure (-1, s)

/-- `libhmac_*_calculate` (lines 143-219). `digestSize`: LIBHMAC_*_HASH_SIZE. -/
def oCalculate (B : Backend) (L : Library) (digestSize : Nat) (env : OEnv) (buffer : Option Nat) (size : Nat) (hash : Option Nat) (hashSize : Nat) (s : OSt L.State) : Res (Int × OSt L.State) := do
  let (r, context, s) ← oInitialize B L env none s
  if r ≠ 1 then oCalculateError B L context s
  else do
    let (r, s) ← oUpdate B L context (oRegion s buffer size) size s
    if r ≠ 1 then oCalculateError B L context s
    else do
      let (r, h, s) ← oFinalize B L digestSize context (oRegion s hash hashSize) hashSize s
      let s := oSetRegion s hash h
      if r ≠ 1 then oCalculateError B L context s
      else do
        let (r, context, s) ← oFree B L context s
        if r ≠ 1 then oCalculateError B L context s else pure (1, s)

/-- Lines 277-411: allocate `key_data` and fill it with the key, or with the hash of the key. `blockSize`: the local `block_size`. `false`: `goto on_error`. -/
def oKey (B : Backend) (L : Library) (digestSize blockSize : Nat) (env : OEnv) (key : Option Nat) (keySize : Nat) (l : Loc) (s : OSt L.State) : Res (Bool × Loc × OSt L.State) := do
  let (p, s) := oAlloc env blockSize s
  let l := { l with keyData := p }
  match p with
  | none => pure (false, l, s)
  | some _ =>
    if keySize ≤ blockSize then
      match oRegion s key keySize with
      | none => .ub
      | some k => do
        let d ← oLoad l.keyData s
        let d ← memCopy d 0 k 0 keySize
        let d ← memSet d keySize 0 (szSub blockSize keySize)
        let s ← oStore l.keyData d s
        pure (true, l, s)
    else do
      let (r, context, s) ← oInitialize B L env l.context s
      let l := { l with context := context }
      if r ≠ 1 then pure (false, l, s)
      else do
        let (r, s) ← oUpdate B L l.context (oRegion s key keySize) keySize s
        if r ≠ 1 then pure (false, l, s)
        else do
          let (r, h, s) ← oFinalize B L digestSize l.context (some l.keyHash) digestSize s
          match h with
          | none => .ub
          | some h =>
            let l := { l with keyHash := h }
            if r ≠ 1 then pure (false, l, s)
            else do
              let (r, context, s) ← oFree B L l.context s
              let l := { l with context := context }
              if r ≠ 1 then pure (false, l, s)
              else do
                let d ← oLoad l.keyData s
                let d ← if digestSize < blockSize then memSet d digestSize 0 (szSub blockSize digestSize) else pure d
                let d ← memCopy d 0 l.keyHash 0 digestSize
                let s ← oStore l.keyData d s
                pure (true, l, s)

/-- Lines 412-474: allocate and fill the paddings. -/
def oPads {σ} (blockSize : Nat) (env : OEnv) (l : Loc) (s : OSt σ) : Res (Bool × Loc × OSt σ) := do
  let (p, s) := oAlloc env blockSize s
  let l := { l with inner := p }
  match p with
  | none => pure (false, l, s)
  | some _ => do
    let d ← oLoad l.inner s
    let d ← memSet d 0 0x36 blockSize
    let s ← oStore l.inner d s
    let (p, s) := oAlloc env blockSize s
    let l := { l with outer := p }
    match p with
    | none => pure (false, l, s)
    | some _ => do
      let d ← oLoad l.outer s
      let d ← memSet d 0 0x5c blockSize
      let s ← oStore l.outer d s
      let kd ← oLoad l.keyData s
      let i ← oLoad l.inner s
      let o ← oLoad l.outer s
      let (i, o) ← xorPads blockSize kd i o
      let s ← oStore l.inner i s
      let s ← oStore l.outer o s
      pure (true, l, s)

/-- Lines 475-545 and 546-616: hash a padding followed by a caller area, and store the digest in the caller's HMAC area. -/
def oPass (B : Backend) (L : Library) (digestSize blockSize : Nat) (env : OEnv) (padding : Option Nat) (buffer : Option Nat) (size : Nat) (hmac : Option Nat) (hmacSize : Nat)
    (l : Loc) (s : OSt L.State) : Res (Bool × Loc × OSt L.State) := do
  let (r, context, s) ← oInitialize B L env l.context s
  let l := { l with context := context }
  if r ≠ 1 then pure (false, l, s)
  else do
    let d ← oLoad padding s
    let (r, s) ← oUpdate B L l.context (some d) blockSize s
    if r ≠ 1 then pure (false, l, s)
    else do
      let (r, s) ← oUpdate B L l.context (oRegion s buffer size) size s
      if r ≠ 1 then pure (false, l, s)
      else do
        let (r, h, s) ← oFinalize B L digestSize l.context (oRegion s hmac hmacSize) hmacSize s
        let s := oSetRegion s hmac h
        if r ≠ 1 then pure (false, l, s)
        else do
          let (r, context, s) ← oFree B L l.context s
          let l := { l with context := context }
          if r ≠ 1 then pure (false, l, s) else pure (true, l, s)

/-- Clearing and freeing of a block-sized buffer (lines 617-631, 636-650, 655-669; 685-691, 695-701, 705-711). -/
def oWipe {σ} (blockSize : Nat) (p : Option Nat) (s : OSt σ) : Res (OSt σ) := do
  let d ← oLoad p s
  let d ← memSet d 0 0 blockSize
  let s ← oStore p d s
  match p with
  | none => .ub
  | some p => oFreeBlock p s

/-- `if( x != NULL ) { memory_set( x, 0, block_size ); memory_free( x ); }` (lines 685-691, 695-701, 705-711). -/
def oWipeOpt {σ} (blockSize : Nat) (p : Option Nat) (s : OSt σ) : Res (OSt σ) :=
  match p with
  | none => .ok s
  | some p => oWipe blockSize (some p) s

/-- `on_error` of `libhmac_*_calculate_hmac` (lines 676-713). -/
def oHmacError (B : Backend) (L : Library) (blockSize : Nat) (l : Loc) (s : OSt L.State) : Res (Int × OSt L.State) := do
  let s ← oFreeOpt B L l.context s
  let s ← oWipeOpt blockSize l.outer s
  let s ← oWipeOpt blockSize l.inner s
  let s ← oWipeOpt blockSize l.keyData s
  pure (-1, s)

/-- Lines 617-675: the buffers are cleared and freed. -/
def oHmacEnd {σ} (blockSize : Nat) (l : Loc) (s : OSt σ) : Res (Int × OSt σ) := do
  let s ← oWipe blockSize l.outer s
  let s ← oWipe blockSize l.inner s
  let s ← oWipe blockSize l.keyData s
  pure (1, s)

/-- `libhmac_*_calculate_hmac` (lines 225-714). `keyHash` are the initial contents of the local array `key_hash[ ]`. Simplified: the final locals are not returned. -/
def oCalculateHmac (B : Backend) (L : Library) (digestSize blockSize : Nat) (env : OEnv) (keyHash : List Byte) (key : Option Nat) (keySize : Nat) (buffer : Option Nat) (size : Nat)
    (hmac : Option Nat) (hmacSize : Nat) (s : OSt L.State) : Res (Int × OSt L.State) :=
  match key with
  | none => .ok (-1, s)
  | some k =>
    if ssizeMax < keySize then .ok (-1, s)
    else if hmacSize < digestSize then .ok (-1, s)
    else do
      let (ok, l, s) ← oKey B L digestSize blockSize env (some k) keySize ⟨none, none, none, none, keyHash⟩ s
      if !ok then oHmacError B L blockSize l s
      else do
        let (ok, l, s) ← oPads blockSize env l s
        if !ok then oHmacError B L blockSize l s
        else do
          let (ok, l, s) ← oPass B L digestSize blockSize env l.inner buffer size hmac hmacSize l s
          if !ok then oHmacError B L blockSize l s
          else do
            let (ok, l, s) ← oPass B L digestSize blockSize env l.outer hmac digestSize hmac hmacSize l s
            if !ok then oHmacError B L blockSize l s
            else oHmacEnd blockSize l s

end Model
