import Verif.Model.Heap
/-! One-shot functions `libhmac_*_calculate` and `libhmac_*_calculate_hmac`.

The five files libhmac/libhmac_{md5,sha1,sha224,sha256,sha512}.c have the same text up to the names and the value of the local `block_size`;
line numbers are those of libhmac_sha256.c. `memory_copy` and `memory_set` do not fail. Error objects are not modelled.
The caller's key, message and output are areas of one flat memory, so they may overlap. -/

namespace Model

/-- `on_error` of `libhmac_*_calculate` (lines 211-218). -/
def calculateError {w} (context : Option Nat) (s : St w) : Res (Int × St w) :=
  match context with
  | none => .ok (-1, s)
  | some p => do
    let (_, _, s) ← hFree (some p) s
    pure (-1, s)

/-- `libhmac_*_calculate` (lines 143-219). -/
def calculate {w} (A : Alg w) (u : Bool) (env : Env w) (buffer : Option Nat) (size : Nat) (hash : Option Nat) (hashSize : Nat) (s : St w) :
    Res (Int × St w) := do
  let (r, context, s) ← hInitialize A env none s
  if r ≠ 1 then calculateError context s
  else do
    let (r, s) ← hUpdate A u env context (region s buffer size) size s
    if r ≠ 1 then calculateError context s
    else do
      let (r, h, s) ← hFinalize A u env context (region s hash hashSize) hashSize s
      let s := setRegion s hash h
      if r ≠ 1 then calculateError context s
      else do
        let (r, context, s) ← hFree context s
        if r ≠ 1 then calculateError context s else pure (1, s)

/-- The pointer locals and the array `key_hash[ ]` of `libhmac_*_calculate_hmac` (lines 234-240). -/
structure Loc where
  context : Option Nat
  keyData : Option Nat
  inner : Option Nat
  outer : Option Nat
  keyHash : List Byte
  deriving DecidableEq

/-- Lines 277-411: allocate `key_data` and fill it with the key, or with the hash of the key. `false`: `goto on_error`. -/
def hmacKey {w} (A : Alg w) (u : Bool) (env : Env w) (key : Option Nat) (keySize : Nat) (l : Loc) (s : St w) : Res (Bool × Loc × St w) := do
  let (p, s) := allocBytes env A.hmacBlockSize s
  let l := { l with keyData := p }
  match p with
  | none => pure (false, l, s)
  | some _ =>
    if keySize ≤ A.hmacBlockSize then
      match region s key keySize with
      | none => .ub
      | some k => do
        let d ← loadBytes l.keyData s
        let d ← memCopy d 0 k 0 keySize
        let d ← memSet d keySize 0 (szSub A.hmacBlockSize keySize)
        let s ← storeBytes l.keyData d s
        pure (true, l, s)
    else do
      let (r, context, s) ← hInitialize A env l.context s
      let l := { l with context := context }
      if r ≠ 1 then pure (false, l, s)
      else do
        let (r, s) ← hUpdate A u env l.context (region s key keySize) keySize s
        if r ≠ 1 then pure (false, l, s)
        else do
          let (r, h, s) ← hFinalize A u env l.context (some l.keyHash) A.hashSize s
          match h with
          | none => .ub
          | some h =>
            let l := { l with keyHash := h }
            if r ≠ 1 then pure (false, l, s)
            else do
              let (r, context, s) ← hFree l.context s
              let l := { l with context := context }
              if r ≠ 1 then pure (false, l, s)
              else do
                let d ← loadBytes l.keyData s
                let d ← if A.hashSize < A.hmacBlockSize then memSet d A.hashSize 0 (szSub A.hmacBlockSize A.hashSize) else pure d
                let d ← memCopy d 0 l.keyHash 0 A.hashSize
                let s ← storeBytes l.keyData d s
                pure (true, l, s)

/-- Loop of lines 468-474. -/
def xorPads (n : Nat) (kd inner outer : List Byte) : Res (List Byte × List Byte) :=
  forLoop 0 n (fun i (p : List Byte × List Byte) => do
    let k ← rd kd i
    let x ← rd p.1 i
    let inner ← wr p.1 i (x ^^^ k)
    let y ← rd p.2 i
    let outer ← wr p.2 i (y ^^^ k)
    pure (inner, outer)) (inner, outer)

/-- Lines 412-474: allocate and fill the paddings. -/
def hmacPads {w} (A : Alg w) (env : Env w) (l : Loc) (s : St w) : Res (Bool × Loc × St w) := do
  let (p, s) := allocBytes env A.hmacBlockSize s
  let l := { l with inner := p }
  match p with
  | none => pure (false, l, s)
  | some _ => do
    let d ← loadBytes l.inner s
    let d ← memSet d 0 0x36 A.hmacBlockSize
    let s ← storeBytes l.inner d s
    let (p, s) := allocBytes env A.hmacBlockSize s
    let l := { l with outer := p }
    match p with
    | none => pure (false, l, s)
    | some _ => do
      let d ← loadBytes l.outer s
      let d ← memSet d 0 0x5c A.hmacBlockSize
      let s ← storeBytes l.outer d s
      let kd ← loadBytes l.keyData s
      let i ← loadBytes l.inner s
      let o ← loadBytes l.outer s
      let (i, o) ← xorPads A.hmacBlockSize kd i o
      let s ← storeBytes l.inner i s
      let s ← storeBytes l.outer o s
      pure (true, l, s)

/-- Lines 475-545 and 546-616: hash a padding followed by a caller area, and store the digest in the caller's HMAC area. -/
def hmacPass {w} (A : Alg w) (u : Bool) (env : Env w) (padding : Option Nat) (buffer : Option Nat) (size : Nat) (hmac : Option Nat) (hmacSize : Nat)
    (l : Loc) (s : St w) : Res (Bool × Loc × St w) := do
  let (r, context, s) ← hInitialize A env l.context s
  let l := { l with context := context }
  if r ≠ 1 then pure (false, l, s)
  else do
    let d ← loadBytes padding s
    let (r, s) ← hUpdate A u env l.context (some d) A.hmacBlockSize s
    if r ≠ 1 then pure (false, l, s)
    else do
      let (r, s) ← hUpdate A u env l.context (region s buffer size) size s
      if r ≠ 1 then pure (false, l, s)
      else do
        let (r, h, s) ← hFinalize A u env l.context (region s hmac hmacSize) hmacSize s
        let s := setRegion s hmac h
        if r ≠ 1 then pure (false, l, s)
        else do
          let (r, context, s) ← hFree l.context s
          let l := { l with context := context }
          if r ≠ 1 then pure (false, l, s) else pure (true, l, s)

/-- Clearing and freeing of a block-sized buffer (lines 617-631, 636-650, 655-669; 685-691, 695-701, 705-711). -/
def wipeFree {w} (A : Alg w) (p : Option Nat) (s : St w) : Res (St w) := do
  let d ← loadBytes p s
  let d ← memSet d 0 0 A.hmacBlockSize
  let s ← storeBytes p d s
  match p with
  | none => .ub
  | some p => memFree p s

/-- `if( x != NULL ) { memory_set( x, 0, block_size ); memory_free( x ); }` (lines 685-691, 695-701, 705-711). -/
def wipeFreeOpt {w} (A : Alg w) (p : Option Nat) (s : St w) : Res (St w) :=
  match p with
  | none => .ok s
  | some p => wipeFree A (some p) s

/-- `if( context != NULL ) { libhmac_*_context_free( &context, NULL ); }` (lines 678-683). -/
def freeOpt {w} (p : Option Nat) (s : St w) : Res (St w) :=
  match p with
  | none => .ok s
  | some p => do
    let (_, _, s) ← hFree (some p) s
    pure s

/-- `on_error` of `libhmac_*_calculate_hmac` (lines 676-713). -/
def hmacError {w} (A : Alg w) (l : Loc) (s : St w) : Res (Int × Loc × St w) := do
  let s ← freeOpt l.context s
  let s ← wipeFreeOpt A l.outer s
  let s ← wipeFreeOpt A l.inner s
  let s ← wipeFreeOpt A l.keyData s
  pure (-1, l, s)

/-- Lines 412-675: the part of `libhmac_*_calculate_hmac` after the key was stored. -/
def hmacRest {w} (A : Alg w) (u : Bool) (env : Env w) (buffer : Option Nat) (size : Nat) (hmac : Option Nat) (hmacSize : Nat) (l : Loc) (s : St w) :
    Res (Int × Loc × St w) := do
  let (ok, l, s) ← hmacPads A env l s
  if !ok then hmacError A l s
  else do
    let (ok, l, s) ← hmacPass A u env l.inner buffer size hmac hmacSize l s
    if !ok then hmacError A l s
    else do
      let (ok, l, s) ← hmacPass A u env l.outer hmac A.hashSize hmac hmacSize l s
      if !ok then hmacError A l s
      else do
        let s ← wipeFree A l.outer s
        let l := { l with outer := none }
        let s ← wipeFree A l.inner s
        let l := { l with inner := none }
        let s ← wipeFree A l.keyData s
        let l := { l with keyData := none }
        pure (1, l, s)

/-- `libhmac_*_calculate_hmac` (lines 225-714). `keyHash` are the initial contents of the local array `key_hash[ ]`. Returns the result, the
final locals and the memory. -/
def calculateHmac {w} (A : Alg w) (u : Bool) (env : Env w) (keyHash : List Byte) (key : Option Nat) (keySize : Nat) (buffer : Option Nat) (size : Nat)
    (hmac : Option Nat) (hmacSize : Nat) (s : St w) : Res (Int × Loc × St w) :=
  let l : Loc := ⟨none, none, none, none, keyHash⟩
  match key with
  | none => .ok (-1, l, s)
  | some k =>
    if ssizeMax < keySize then .ok (-1, l, s)
    else if hmacSize < A.hashSize then .ok (-1, l, s)
    else do
      let (ok, l, s) ← hmacKey A u env (some k) keySize l s
      if !ok then hmacError A l s
      else hmacRest A u env buffer size hmac hmacSize l s

end Model
