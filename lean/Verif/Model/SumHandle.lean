import Verif.Model.Multi
import Verif.Model.DigestString
import Verif.Model.ByteSize
/-! hmactools/sum_handle.c.

The five digests are handled by five copies of the same statements, one after the other, in the order MD5, SHA-1, SHA-224, SHA-256, SHA-512; the model runs
over the list of the algorithms in that order. Not modelled: the error object, `md5_context_initialized` and the like (only written, never read), and
the inside of libcfile and libcsplit, which appear through the parameters of `Input` and `Tool`. -/

namespace Model

open Spec (Kind ApiCall Reply)

/-- What the tool does not control. (Used by hmactools/sum_handle.c:77, 1036 and by the functions of libhmac.) -/
structure Tool where
  /-- outcome of every allocation -/
  alloc : Nat → Bool
  /-- contents of fresh context memory -/
  envs : (w : Nat) → Env w
  /-- algorithms built with unrolled loops -/
  unrolled : Kind → Bool
  /-- contents of the local arrays of the hashing functions in their n-th use on an algorithm -/
  scr : (k : Kind) → Nat → Scr k.width
  /-- contents of the local array `calculated_*_hash` (sum_handle.c:738-742) -/
  hashJunk : (k : Kind) → List Byte
  /-- contents of a newly allocated hash string -/
  stringJunk : (k : Kind) → List Nat
  /-- contents of a newly allocated process buffer of some size -/
  bufferJunk : Nat → List Byte

/-- The input file as libcfile presents it. `size` is the result of `libcfile_file_get_size` (`none`: failure). The n-th read delivers at most `reads n` bytes (`none`: failure) of
what follows in the contents; it never delivers more than requested. (hmactools/sum_handle.c:344-350, 450, 1022.) -/
structure Input where
  content : List Byte
  size : Option Nat
  reads : Nat → Option Nat

/-- `sum_handle_t` (hmactools/sum_handle.h:38-131). Pointers to heap blocks other than contexts are allocation numbers; a hash string comes with its contents. `self` is the structure itself.
`position` and `readCount` are the state of the input handle: file position and number of reads made. -/
structure Handle where
  self : Nat
  input : Option Nat
  calculate : Kind → Bool
  context : Kind → Option Nat
  hashString : Kind → Option (Nat × List Nat)
  bufferSize : Nat
  abort : Bool
  position : Nat
  readCount : Nat

/-- Memory of the tool: contexts (`mem`) and the live blocks of other kinds. Both take their allocation numbers from `mem.count`. (Blocks allocated at hmactools/sum_handle.c:77, 118, 1036, 1450-1526.) -/
structure WorldOf (M : Type) where
  mem : M
  blocks : List Nat

/-- The memory with the built-in contexts; for other builds see Model/Builds. (As `WorldOf`: hmactools/sum_handle.c:77, 118, 1036, 1450-1526.) -/
abbrev World := WorldOf Mem

/-- `memory_allocate` of a block that is not a context. (common/memory.h:51-60.) -/
def allocBlock (T : Tool) (W : World) : Option Nat × World :=
  if T.alloc W.mem.count then
    (some W.mem.count, ⟨{ W.mem with count := W.mem.count + 1 }, W.mem.count :: W.blocks⟩)
  else (none, ⟨{ W.mem with count := W.mem.count + 1 }, W.blocks⟩)

/-- `memory_free` of a block that is not a context: freeing what is not live is undefined behaviour. (common/memory.h:91-100.) -/
def freeBlock {M : Type} (p : Nat) (W : WorldOf M) : Res (WorldOf M) :=
  if p ∈ W.blocks then .ok { W with blocks := W.blocks.erase p } else .ub

/-- The algorithms in the order of the code. (For example hmactools/sum_handle.c:490-583.) -/
def digestOrder : List Kind := [.md5, .sha1, .sha224, .sha256, .sha512]

/-- The `*_STRING_SIZE` constants (sum_handle.c:39-43). -/
def stringSize : Kind → Nat
  | .md5 => 33
  | .sha1 => 41
  | .sha224 => 57
  | .sha256 => 65
  | .sha512 => 129

/-- A call of a context function of algorithm `k` with the context variable of the handle: `libhmac_*_context_initialize` and so on (the functions of Model/Api.lean). (For example hmactools/sum_handle.c:173, 492, 586, 640, 770.) -/
def ctxCall (T : Tool) (k : Kind) (call : ApiCall) (n : Nat) (h : Handle) (W : World) : Res (Reply × Handle × World) := do
  let (r, slot, s) ← step (algOf k) (T.unrolled k) { T.envs k.width with allocOk := T.alloc } call (T.scr k n) (h.context k) (W.mem.view k.width)
  pure (r, { h with context := Function.update h.context k slot }, { W with mem := W.mem.put k.width s })

/-- The body of `sum_handle_initialize_integrity_hash` (sum_handle.c:490-575) up to `on_error`: `false` is `goto on_error`. -/
def initHashes (T : Tool) : List Kind → Handle → World → Res (Bool × Handle × World)
  | [], h, W => .ok (true, h, W)
  | k :: ks, h, W =>
    if h.calculate k then do
      let (r, h, W) ← ctxCall T k .init h.readCount h W
      if r.code ≠ 1 then pure (false, h, W) else initHashes T ks h W
    else initHashes T ks h W

/-- `if( context != NULL ) libhmac_*_context_free( &context, NULL )` (sum_handle.c:578-589). -/
def freeHash (T : Tool) (k : Kind) (h : Handle) (W : World) : Res (Handle × World) :=
  match h.context k with
  | none => .ok (h, W)
  | some _ => do
    let (_, h, W) ← ctxCall T k .free h.readCount h W
    pure (h, W)

/-- `sum_handle_initialize_integrity_hash` (sum_handle.c:473-591) with a valid handle. After a failure only the SHA-1 and MD5 contexts are freed. -/
def initIntegrity (T : Tool) (h : Handle) (W : World) : Res (Int × Handle × World) := do
  let (ok, h, W) ← initHashes T digestOrder h W
  if ok then pure (1, h, W)
  else do
    let (h, W) ← freeHash T .sha1 h W
    let (h, W) ← freeHash T .md5 h W
    pure (-1, h, W)

/-- The body of `sum_handle_update_integrity_hash` (sum_handle.c:638-728). -/
def updateHashes (T : Tool) (buffer : List Byte) (size : Nat) : List Kind → Handle → World → Res (Int × Handle × World)
  | [], h, W => .ok (1, h, W)
  | k :: ks, h, W =>
    if h.calculate k then do
      let (r, h, W) ← ctxCall T k (.update (some buffer) size) h.readCount h W
      if r.code ≠ 1 then pure (-1, h, W) else updateHashes T buffer size ks h W
    else updateHashes T buffer size ks h W

/-- `sum_handle_update_integrity_hash` (sum_handle.c:596-729) with a valid handle and buffer. -/
def updateIntegrity (T : Tool) (buffer : List Byte) (size : Nat) (h : Handle) (W : World) : Res (Int × Handle × World) :=
  if size = 0 ∨ ssizeMax < size then .ok (-1, h, W) else updateHashes T buffer size digestOrder h W

/-- `sum_handle_finalize_integrity_hash` (sum_handle.c:734-983) with a valid handle. -/
def finalizeHashes (T : Tool) : List Kind → Handle → World → Res (Int × Handle × World)
  | [], h, W => .ok (1, h, W)
  | k :: ks, h, W =>
    if h.calculate k then
      match h.hashString k with
      | none => .ok (-1, h, W)
      | some (p, str) => do
        let (r, h, W) ← ctxCall T k (.finalize (some (T.hashJunk k)) k.hashSize) h.readCount h W
        if r.code ≠ 1 then pure (-1, h, W)
        else do
          let (c, str') ← digestToString r.out k.hashSize (some str) (stringSize k)
          let h := { h with hashString := Function.update h.hashString k (str'.map fun s => (p, s)) }
          if c ≠ 1 then pure (-1, h, W) else finalizeHashes T ks h W
    else finalizeHashes T ks h W

/-- `sum_handle_read_buffer` (sum_handle.c:408-468) with valid arguments: the bytes placed at the start of the buffer, `none` is -1. -/
def readInput (inp : Input) (size : Nat) (h : Handle) : Option (List Byte) × Handle :=
  if ssizeMax < size then (none, h)
  else match inp.reads h.readCount with
    | none => (none, { h with readCount := h.readCount + 1 })
    | some n =>
      let d := (inp.content.drop h.position).take (min n size)
      (some d, { h with readCount := h.readCount + 1, position := h.position + d.length })

/-- The `while` loop of `sum_handle_process_input` (sum_handle.c:1063-1120). `aborted n` says if the abort flag is set when it is tested after the n-th read. `false`: `goto on_error`.
The counts are natural numbers: `process_count` never exceeds `media_size`, a 64-bit number. -/
def processLoop (T : Tool) (inp : Input) (aborted : Nat → Bool) (mediaSize : Nat) :
    Nat → Nat → List Byte → Handle → World → Res (Bool × Handle × World)
  | fuel, processCount, buffer, h, W =>
    if processCount < mediaSize then
      match fuel with
      | 0 => .diverge
      | fuel + 1 => do
        let readSize := if mediaSize - processCount < h.bufferSize then mediaSize - processCount else h.bufferSize
        match readInput inp readSize h with
        | (none, h) => pure (false, h, W)
        | (some d, h) => do
          let buffer ← memCopy buffer 0 d 0 d.length
          if d.length = 0 then pure (false, h, W)
          else do
            let (r, h, W) ← updateIntegrity T buffer d.length h W
            if r ≠ 1 then pure (false, h, W)
            else do
              let h := { h with abort := h.abort || aborted h.readCount }
              if h.abort then pure (true, h, W)
              else processLoop T inp aborted mediaSize fuel (processCount + d.length) buffer h W
    else .ok (true, h, W)

/-- `on_error` of `sum_handle_process_input` (sum_handle.c:1141-1147). -/
def processError {M : Type} (p : Nat) (h : Handle) (W : WorldOf M) : Res (Int × Handle × WorldOf M) := do
  let W ← freeBlock p W
  pure (-1, h, W)

/-- `sum_handle_process_input` (sum_handle.c:988-1148) with a valid handle. -/
def processInput (T : Tool) (inp : Input) (aborted : Nat → Bool) (h : Handle) (W : World) : Res (Int × Handle × World) :=
  if h.bufferSize = 0 ∨ ssizeMax < h.bufferSize then .ok (-1, h, W)
  else match inp.size with
    | none => .ok (-1, h, W)
    | some mediaSize =>
      match allocBlock T W with
      | (none, W) => .ok (-1, h, W)
      | (some p, W) => do
        let (r, h, W) ← initIntegrity T h W
        if r ≠ 1 then processError p h W
        else do
          let (ok, h, W) ← processLoop T inp aborted mediaSize mediaSize 0 (T.bufferJunk h.bufferSize) h W
          if !ok then processError p h W
          else do
            let W ← freeBlock p W
            let (r, h, W) ← finalizeHashes T digestOrder h W
            if r ≠ 1 then pure (-1, h, W) else pure (1, h, W)

/-- `sum_handle_initialize` (sum_handle.c:49-146) with a valid argument, pointing to a variable with the value `slot`. `libcfile_file_initialize` is taken as one allocation. After a failure to allocate the hash string
only the structure is freed. -/
def sumInitialize (T : Tool) (slot : Option Handle) (W : World) : Res (Int × Option Handle × World) :=
  match slot with
  | some h => .ok (-1, some h, W)
  | none =>
    match allocBlock T W with
    | (none, W) => .ok (-1, none, W)
    | (some self, W) =>
      match allocBlock T W with
      | (none, W) => do
        let W ← freeBlock self W
        pure (-1, none, W)
      | (some input, W) =>
        match allocBlock T W with
        | (none, W) => do
          let W ← freeBlock self W
          pure (-1, none, W)
        | (some str, W) =>
          .ok (1, some { self := self, input := some input, calculate := fun k => k = .md5, context := fun _ => none,
                         hashString := fun k => if k = .md5 then some (str, T.stringJunk .md5) else none,
                         bufferSize := 32768, abort := false, position := 0, readCount := 0 }, W)

/-- `if( p != NULL ) memory_free( p )` (sum_handle.c:187-191 and the like). -/
def freeOptBlock {M : Type} (p : Option Nat) (W : WorldOf M) : Res (WorldOf M) :=
  match p with
  | none => .ok W
  | some p => freeBlock p W

/-- `if( context != NULL ) if( libhmac_*_context_free( &context, error ) != 1 ) result = -1` (sum_handle.c:171-186 and the like). -/
def freeContext (T : Tool) (k : Kind) (r : Int) (h : Handle) (W : World) : Res (Int × Handle × World) :=
  match h.context k with
  | none => .ok (r, h, W)
  | some _ => do
    let (c, h, W) ← ctxCall T k .free h.readCount h W
    pure (if c.code ≠ 1 then -1 else r, h, W)

/-- The freeing of contexts and hash strings in `sum_handle_free` (sum_handle.c:171-275). The result is -1 if a context could not be freed. -/
def freeHashes (T : Tool) : List Kind → Int → Handle → World → Res (Int × Handle × World)
  | [], r, h, W => .ok (r, h, W)
  | k :: ks, r, h, W => do
    let (r, h, W) ← freeContext T k r h W
    let W ← freeOptBlock ((h.hashString k).map (·.1)) W
    freeHashes T ks r h W

/-- `sum_handle_free` (sum_handle.c:151-295) with a valid argument. `closeOk` is the result of `libcfile_file_free`, which frees the input handle in any case. -/
def sumFree (T : Tool) (closeOk : Bool) (slot : Option Handle) (W : World) : Res (Int × Option Handle × World) :=
  match slot with
  | none => .ok (1, none, W)
  | some h => do
    let (r, h, W) ← freeHashes T digestOrder 1 h W
    let W ← freeOptBlock h.input W
    let r := if closeOk then r else -1
    let W ← freeBlock h.self W
    pure (r, none, W)

/-- `memcmp( a, b, n ) == 0`: the standard lets it access all `n` characters of both. (system_string_compare, common/narrow_string.h:64-71; called from hmactools/sum_handle.c:1251 on.) -/
def memcmpEq (n : Nat) (a b : List Nat) : Res Bool := if n ≤ a.length ∧ n ≤ b.length then .ok (a.take n = b.take n) else .ub

/-- `strncmp( a, b, n ) == 0`: reads up to a difference, a terminator or `n` characters. (system_string_compare, common/narrow_string.h:64-71; called from hmactools/sum_handle.c:1251 on.) -/
def strncmpEq : Nat → List Nat → List Nat → Res Bool
  | 0, _, _ => .ok true
  | n + 1, a, b => do
    let x ← rd a 0
    let y ← rd b 0
    if x ≠ y then pure false
    else if x = 0 then pure true
    else strncmpEq n (a.drop 1) (b.drop 1)

/-- `system_string_compare( a, b, n ) == 0` (common/system_string.h:55-56, 105-106, common/narrow_string.h:64-71, common/wide_string.h:65-72): `memcmp` or `wmemcmp` if the system has it (`mc`), otherwise `strncmp`
or `wcsncmp`. -/
def compareEq (mc : Bool) (n : Nat) (a b : List Nat) : Res Bool := if mc then memcmpEq n a b else strncmpEq n a b

/-- A string literal: its characters and the terminator. (The literals of hmactools/sum_handle.c:1247-1500.) -/
def lit (s : String) : List Nat := s.toList.map Char.toNat ++ [0]

/-- A chain of `if( compare ) ... else if( compare ) ...` over literals (sum_handle.c:1251-1444): the algorithm of the first literal that is equal. -/
def firstMatch (mc : Bool) (seg : List Nat) (n : Nat) : List (String × Kind) → Res (Option Kind)
  | [] => .ok none
  | (s, k) :: t => do
    let eq ← compareEq mc n seg (lit s)
    if eq then pure (some k) else firstMatch mc seg n t

/-- The comparisons for one segment, given with its terminator (sum_handle.c:1249-1445). -/
def segmentKind (mc : Bool) (seg : List Nat) : Res (Option Kind) :=
  if seg.length = 4 then firstMatch mc seg 4 [("md5", .md5), ("MD5", .md5)]
  else if seg.length = 5 then firstMatch mc seg 4 [("sha1", .sha1), ("SHA1", .sha1)]
  else if seg.length = 6 then firstMatch mc seg 5 [("sha-1", .sha1), ("sha_1", .sha1), ("SHA-1", .sha1), ("SHA_1", .sha1)]
  else if seg.length = 7 then firstMatch mc seg 6 [("sha224", .sha224), ("SHA224", .sha224), ("sha256", .sha256), ("SHA256", .sha256), ("sha512", .sha512), ("SHA512", .sha512)]
  else if seg.length = 8 then firstMatch mc seg 7
    [("sha-224", .sha224), ("sha_224", .sha224), ("SHA-224", .sha224), ("SHA_224", .sha224),
     ("sha-256", .sha256), ("sha_256", .sha256), ("SHA-256", .sha256), ("SHA_256", .sha256),
     ("sha-512", .sha512), ("sha_512", .sha512), ("SHA-512", .sha512), ("SHA_512", .sha512)]
  else .ok none

/-- The loop over the segments (sum_handle.c:1216-1446): the algorithms named. -/
def segmentsLoop (mc : Bool) : List (List Nat) → (Kind → Bool) → Res (Kind → Bool)
  | [], f => .ok f
  | seg :: segs, f => do
    let k ← segmentKind mc (seg ++ [0])
    segmentsLoop mc segs (match k with | none => f | some k => Function.update f k true)

/-- The allocation of hash strings (sum_handle.c:1447-1541): `false` is `goto on_error`. -/
def enableDigests (T : Tool) (f : Kind → Bool) : List Kind → Handle → World → Bool × Handle × World
  | [], h, W => (true, h, W)
  | k :: ks, h, W =>
    if f k && !h.calculate k then
      match allocBlock T W with
      | (none, W) => (false, { h with hashString := Function.update h.hashString k none }, W)
      | (some p, W) =>
        enableDigests T f ks { h with calculate := Function.update h.calculate k true, hashString := Function.update h.hashString k (some (p, T.stringJunk k)) } W
    else enableDigests T f ks h W

/-- `system_string_split` of a string without terminator at a character: the segments without terminators (hmactools/hmactools_system_split_string.h:63-64). The source of libcsplit is not in /repo; this is what its
documentation says it does and is assumed. -/
def splitAt (c : Nat) : List Nat → List (List Nat)
  | [] => [[]]
  | x :: t => if x = c then [] :: splitAt c t
    else match splitAt c t with
      | [] => [[x]]
      | seg :: segs => (x :: seg) :: segs

/-- `sum_handle_set_digest_types` (sum_handle.c:1153-1565) with a valid handle and string (given without terminator). `splitOk` says if the split functions of libcsplit up to line 1236 succeed, `splitFreeOk` if `system_split_string_free`
does. The memory of the split string is not modelled. The successful result is 0 (`result`, lines 1170, 1555). -/
def setDigestTypes (T : Tool) (mc splitOk splitFreeOk : Bool) (string : List Nat) (h : Handle) (W : World) : Res (Int × Handle × World) :=
  if !splitOk then .ok (-1, h, W)
  else do
    let f ← segmentsLoop mc (splitAt 44 string) (fun _ => false)
    let (ok, h, W) := enableDigests T f digestOrder h W
    pure (if ok && splitFreeOk then 0 else -1, h, W)

/-- `sum_handle_set_process_buffer_size` (sum_handle.c:1570-1623) with a valid handle and string (given without terminator). -/
def setBufferSize (verbose : Bool) (dp : Option Nat) (string : List Nat) (h : Handle) : Res (Int × Handle) := do
  let (r, v) ← byteSizeConvert verbose dp (some (string ++ [0])) string.length (some 0)
  if r = -1 then pure (-1, h)
  else if r ≠ 0 then
    match v with
    | none => .ub
    | some v => if ssizeMax < v.toNat then pure (0, h) else pure (r, { h with bufferSize := v.toNat })
  else pure (r, h)

/-- `sum_handle_signal_abort` (sum_handle.c:300-320) with a valid handle. -/
def signalAbort (h : Handle) : Int × Handle := (1, { h with abort := true })

/-- A string printed with `%s`: the characters up to the terminator; undefined behaviour without one. (hmactools/sum_handle.c:1628-1693.) -/
def cString : List Nat → Res (List Nat)
  | [] => .ub
  | x :: t =>
    if x = 0 then .ok []
    else do
      let r ← cString t
      pure (x :: r)

/-- `sum_handle_hash_values_fprint` (sum_handle.c:1628-1693) with valid arguments: the digests printed, in order, with the text of their strings. A NULL string is undefined behaviour. -/
def printHashes : List Kind → Handle → Res (List (Kind × List Nat))
  | [], _ => .ok []
  | k :: ks, h =>
    if h.calculate k then
      match h.hashString k with
      | none => .ub
      | some (_, s) => do
        let text ← cString s
        let rest ← printHashes ks h
        pure ((k, text) :: rest)
    else printHashes ks h

/-- `sum_handle_open_input` (sum_handle.c:325-367) with a valid handle; `ok` is the outcome of `libcfile_file_open`, after which reading starts at the beginning of the file. -/
def openInput (ok : Bool) (h : Handle) : Int × Handle := if ok then (1, { h with position := 0 }) else (-1, h)

/-- `sum_handle_close` (sum_handle.c:372-403) with a valid handle; `ok` is the outcome of `libcfile_file_close`. -/
def closeInput (ok : Bool) : Int := if ok then 0 else -1

/-- A call of a function of sum_handle.h on a handle variable, with what the environment does in it. (hmactools/sum_handle.h:133-192.) -/
inductive HandleOp where
  | init
  | free (closeOk : Bool)
  | abort
  | open (ok : Bool)
  | close (ok : Bool)
  | process (inp : Input) (aborted : Nat → Bool)
  | digests (mc splitOk splitFreeOk : Bool) (string : List Nat)
  | bufferSize (verbose : Bool) (dp : Option Nat) (string : List Nat)
  | print

/-- What a call does: the result and the new value of the variable. All functions except initialize and free return -1 for a NULL handle (the first `if` of each). The text printed is in `printHashes`. (hmactools/sum_handle.c:49-1693.) -/
def handleStep (T : Tool) : HandleOp → Option Handle → World → Res (Int × Option Handle × World)
  | .init, slot, W => sumInitialize T slot W
  | .free closeOk, slot, W => sumFree T closeOk slot W
  | _, none, W => .ok (-1, none, W)
  | .abort, some h, W => .ok ((signalAbort h).1, some (signalAbort h).2, W)
  | .open ok, some h, W => .ok ((openInput ok h).1, some (openInput ok h).2, W)
  | .close ok, some h, W => .ok (closeInput ok, some h, W)
  | .process inp aborted, some h, W => do
    let (r, h, W) ← processInput T inp aborted h W
    pure (r, some h, W)
  | .digests mc splitOk splitFreeOk string, some h, W => do
    let (r, h, W) ← setDigestTypes T mc splitOk splitFreeOk string h W
    pure (r, some h, W)
  | .bufferSize verbose dp string, some h, W => do
    let (r, h) ← setBufferSize verbose dp string h
    pure (r, some h, W)
  | .print, some h, W => do
    let _ ← printHashes digestOrder h
    pure (1, some h, W)

/-- A sequence of calls: the results, the final value of the variable and the final memory. (A client of hmactools/sum_handle.h:133-192; for the tool see hmacsum.c.) -/
def handleRun (T : Tool) : List HandleOp → Option Handle → World → Res (List Int × Option Handle × World)
  | [], slot, W => .ok ([], slot, W)
  | op :: ops, slot, W => do
    let (r, slot, W) ← handleStep T op slot W
    let (rs, slot, W) ← handleRun T ops slot W
    pure (r :: rs, slot, W)

end Model
