import Verif.Model.Hmacsum
import Verif.Model.Backend
import Verif.Model.Host
/-! hmactools/sum_handle.c and hmactools/hmacsum.c over any implementation of the contexts.

Each algorithm of libhmac is built in one of four ways, chosen by its own macros: built in, or with one of the three branches for a crypto library (for example libhmac/libhmac_sha224_context.h:43-52, libhmac_md5_context.h:43-52).
The tool reaches contexts only through the context functions, so its functions are repeated here with those functions as a parameter (`Contexts`). With the built-in functions they are the functions of
Model/SumHandle and Model/Hmacsum (proved: `Builds.hmacsum_builtin`). Where the tool computes with `size_t` or compares with SSIZE_MAX, the width of the host is a parameter too. Simplified: strings of the command line are
shorter than SSIZE_MAX of the host, so getopt, digest_string and byte_size_string are those of the other models. -/

namespace Model

open Spec (Kind ApiCall Reply Line)

/-- How one algorithm is built. (libhmac/libhmac_sha224_context.h:43-52, 57-88 and the like.) -/
inductive Choice where
  | builtin
  | crypto (b : Backend)
  deriving DecidableEq

/-- The context functions over some memory: `call k c n slot m` is a call on a variable of algorithm `k` that holds `slot`, the `n` being the number of reads made, as in `ctxCall`. `count` and `attempt` are the number of
allocations attempted and one more attempt. `bits` is the width of `size_t` on the host. (libhmac/libhmac_md5_context.h:103-136 and the like; common/memory.h:51-60.) -/
structure Contexts (M : Type) where
  count : M → Nat
  attempt : M → M
  call : Kind → ApiCall → Nat → Option Nat → M → Res (Reply × Option Nat × M)
  bits : Nat

/-- `(size_t) SSIZE_MAX` of the host. (common/types.h.in:369-389; hmactools/sum_handle.c:1613.) -/
def Contexts.sizeMax {M : Type} (C : Contexts M) : Nat := hostMax C.bits

/-- The built-in functions, as in `ctxCall`. (libhmac/libhmac_sha256_context.c, branches without HAVE_LIBCRYPTO.) -/
def Contexts.builtin (T : Tool) : Contexts Mem where
  count m := m.count
  attempt m := { m with count := m.count + 1 }
  call k c n slot m := do
    let (r, slot, s) ← step (algOf k) (T.unrolled k) { T.envs k.width with allocOk := T.alloc } c (T.scr k n) slot (m.view k.width)
    pure (r, slot, m.put k.width s)
  bits := 64

/-- The built-in functions on a host whose `size_t` has `hb` bits. (libhmac/libhmac_sha256_context.c, branches without HAVE_LIBCRYPTO; with the functions of Model/Host.) -/
def Contexts.host (hb : Nat) (T : Tool) : Contexts Mem where
  count m := m.count
  attempt m := { m with count := m.count + 1 }
  call k c n slot m := do
    let (r, slot, s) ← hostStep hb (algOf k) (T.unrolled k) { T.envs k.width with allocOk := T.alloc } c (T.scr k n) slot (m.view k.width)
    pure (r, slot, m.put k.width s)
  bits := hb

/-- Memory of a build: that of the built-in contexts, and for the contexts with a crypto library the number of calls of the library and the live objects of each algorithm. All take their allocations from one counter.
(libhmac/libhmac_sha256_context.h:55-89; allocations at libhmac/libhmac_sha256_context.c:489 and 521-567.) -/
structure MixedMem (L : Kind → Library) where
  mem : Mem
  calls : Nat
  live : (k : Kind) → List (Nat × BObj (L k).State)

/-- A build that makes the choice `ch k` for algorithm `k` and uses the library `L`. (libhmac/libhmac_sha224_context.h:43-52 and the like; the functions of Model/Api and Model/Backend.) -/
def Contexts.mixed (ch : Kind → Choice) (L : Kind → Library) (T : Tool) : Contexts (MixedMem L) where
  count m := m.mem.count
  attempt m := { m with mem := { m.mem with count := m.mem.count + 1 } }
  call k c n slot m :=
    match ch k with
    | .builtin => do
      let (r, slot, mem) ← (Contexts.builtin T).call k c n slot m.mem
      pure (r, slot, { m with mem := mem })
    | .crypto b => do
      let (r, slot, s) ← bStep b (L k) k.hashSize T.alloc c slot ⟨m.mem.count, m.calls, m.live k⟩
      pure (r, slot, { mem := { m.mem with count := s.count }, calls := s.calls, live := Function.update m.live k s.live })
  bits := 64

namespace Builds

variable {M : Type}

/-- `memory_allocate` of a block that is not a context. (common/memory.h:51-60.) -/
def allocBlock (T : Tool) (C : Contexts M) (W : WorldOf M) : Option Nat × WorldOf M :=
  if T.alloc (C.count W.mem) then
    (some (C.count W.mem), ⟨C.attempt W.mem, C.count W.mem :: W.blocks⟩)
  else (none, ⟨C.attempt W.mem, W.blocks⟩)

/-- A call of a context function of algorithm `k` with the context variable of the handle. (For example hmactools/sum_handle.c:173, 492, 586, 640, 770.) -/
def ctxCall (C : Contexts M) (k : Kind) (call : ApiCall) (n : Nat) (h : Handle) (W : WorldOf M) : Res (Reply × Handle × WorldOf M) := do
  let (r, slot, m) ← C.call k call n (h.context k) W.mem
  pure (r, { h with context := Function.update h.context k slot }, { W with mem := m })

/-- The body of `sum_handle_initialize_integrity_hash` (sum_handle.c:490-575) up to `on_error`: `false` is `goto on_error`. -/
def initHashes (C : Contexts M) : List Kind → Handle → WorldOf M → Res (Bool × Handle × WorldOf M)
  | [], h, W => .ok (true, h, W)
  | k :: ks, h, W =>
    if h.calculate k then do
      let (r, h, W) ← ctxCall C k .init h.readCount h W
      if r.code ≠ 1 then pure (false, h, W) else initHashes C ks h W
    else initHashes C ks h W

/-- `if( context != NULL ) libhmac_*_context_free( &context, NULL )` (sum_handle.c:578-589). -/
def freeHash (C : Contexts M) (k : Kind) (h : Handle) (W : WorldOf M) : Res (Handle × WorldOf M) :=
  match h.context k with
  | none => .ok (h, W)
  | some _ => do
    let (_, h, W) ← ctxCall C k .free h.readCount h W
    pure (h, W)

/-- `sum_handle_initialize_integrity_hash` (sum_handle.c:473-591) with a valid handle. After a failure only the SHA-1 and MD5 contexts are freed. -/
def initIntegrity (C : Contexts M) (h : Handle) (W : WorldOf M) : Res (Int × Handle × WorldOf M) := do
  let (ok, h, W) ← initHashes C digestOrder h W
  if ok then pure (1, h, W)
  else do
    let (h, W) ← freeHash C .sha1 h W
    let (h, W) ← freeHash C .md5 h W
    pure (-1, h, W)

/-- The body of `sum_handle_update_integrity_hash` (sum_handle.c:638-728). -/
def updateHashes (C : Contexts M) (buffer : List Byte) (size : Nat) : List Kind → Handle → WorldOf M → Res (Int × Handle × WorldOf M)
  | [], h, W => .ok (1, h, W)
  | k :: ks, h, W =>
    if h.calculate k then do
      let (r, h, W) ← ctxCall C k (.update (some buffer) size) h.readCount h W
      if r.code ≠ 1 then pure (-1, h, W) else updateHashes C buffer size ks h W
    else updateHashes C buffer size ks h W

/-- `sum_handle_update_integrity_hash` (sum_handle.c:596-729) with a valid handle and buffer. -/
def updateIntegrity (C : Contexts M) (buffer : List Byte) (size : Nat) (h : Handle) (W : WorldOf M) : Res (Int × Handle × WorldOf M) :=
  if size = 0 ∨ C.sizeMax < size then .ok (-1, h, W) else updateHashes C buffer size digestOrder h W

/-- `sum_handle_finalize_integrity_hash` (sum_handle.c:734-983) with a valid handle. -/
def finalizeHashes (T : Tool) (C : Contexts M) : List Kind → Handle → WorldOf M → Res (Int × Handle × WorldOf M)
  | [], h, W => .ok (1, h, W)
  | k :: ks, h, W =>
    if h.calculate k then
      match h.hashString k with
      | none => .ok (-1, h, W)
      | some (p, str) => do
        let (r, h, W) ← ctxCall C k (.finalize (some (T.hashJunk k)) k.hashSize) h.readCount h W
        if r.code ≠ 1 then pure (-1, h, W)
        else do
          let (c, str') ← digestToString r.out k.hashSize (some str) (stringSize k)
          let h := { h with hashString := Function.update h.hashString k (str'.map fun s => (p, s)) }
          if c ≠ 1 then pure (-1, h, W) else finalizeHashes T C ks h W
    else finalizeHashes T C ks h W

/-- `sum_handle_read_buffer` (sum_handle.c:408-468), as in `Model.readInput`, with the SSIZE_MAX of the host. -/
def readInput (C : Contexts M) (inp : Input) (size : Nat) (h : Handle) : Option (List Byte) × Handle :=
  if C.sizeMax < size then (none, h)
  else match inp.reads h.readCount with
    | none => (none, { h with readCount := h.readCount + 1 })
    | some n =>
      let d := (inp.content.drop h.position).take (min n size)
      (some d, { h with readCount := h.readCount + 1, position := h.position + d.length })

/-- The `while` loop of `sum_handle_process_input` (sum_handle.c:1063-1120), as in `Model.processLoop`, with the conversion to `size_t` in line 1068. (The sizes of the file and `process_count` have 64 bits on every host.) -/
def processLoop (C : Contexts M) (inp : Input) (aborted : Nat → Bool) (mediaSize : Nat) :
    Nat → Nat → List Byte → Handle → WorldOf M → Res (Bool × Handle × WorldOf M)
  | fuel, processCount, buffer, h, W =>
    if processCount < mediaSize then
      match fuel with
      | 0 => .diverge
      | fuel + 1 => do
        let readSize := if mediaSize - processCount < h.bufferSize then (mediaSize - processCount) % 2 ^ C.bits else h.bufferSize
        match readInput C inp readSize h with
        | (none, h) => pure (false, h, W)
        | (some d, h) => do
          let buffer ← memCopy buffer 0 d 0 d.length
          if d.length = 0 then pure (false, h, W)
          else do
            let (r, h, W) ← updateIntegrity C buffer d.length h W
            if r ≠ 1 then pure (false, h, W)
            else do
              let h := { h with abort := h.abort || aborted h.readCount }
              if h.abort then pure (true, h, W)
              else processLoop C inp aborted mediaSize fuel (processCount + d.length) buffer h W
    else .ok (true, h, W)

/-- `sum_handle_process_input` (sum_handle.c:988-1148) with a valid handle. -/
def processInput (T : Tool) (C : Contexts M) (inp : Input) (aborted : Nat → Bool) (h : Handle) (W : WorldOf M) : Res (Int × Handle × WorldOf M) :=
  if h.bufferSize = 0 ∨ C.sizeMax < h.bufferSize then .ok (-1, h, W)
  else match inp.size with
    | none => .ok (-1, h, W)
    | some mediaSize =>
      match allocBlock T C W with
      | (none, W) => .ok (-1, h, W)
      | (some p, W) => do
        let (r, h, W) ← initIntegrity C h W
        if r ≠ 1 then processError p h W
        else do
          let (ok, h, W) ← processLoop C inp aborted mediaSize mediaSize 0 (T.bufferJunk h.bufferSize) h W
          if !ok then processError p h W
          else do
            let W ← freeBlock p W
            let (r, h, W) ← finalizeHashes T C digestOrder h W
            if r ≠ 1 then pure (-1, h, W) else pure (1, h, W)

/-- `sum_handle_initialize` (sum_handle.c:49-146) with a valid argument, as in `Model.sumInitialize`. -/
def sumInitialize (T : Tool) (C : Contexts M) (slot : Option Handle) (W : WorldOf M) : Res (Int × Option Handle × WorldOf M) :=
  match slot with
  | some h => .ok (-1, some h, W)
  | none =>
    match allocBlock T C W with
    | (none, W) => .ok (-1, none, W)
    | (some self, W) =>
      match allocBlock T C W with
      | (none, W) => do
        let W ← freeBlock self W
        pure (-1, none, W)
      | (some input, W) =>
        match allocBlock T C W with
        | (none, W) => do
          let W ← freeBlock self W
          pure (-1, none, W)
        | (some str, W) =>
          .ok (1, some { self := self, input := some input, calculate := fun k => k = .md5, context := fun _ => none,
                         hashString := fun k => if k = .md5 then some (str, T.stringJunk .md5) else none,
                         bufferSize := 32768, abort := false, position := 0, readCount := 0 }, W)

/-- `if( context != NULL ) if( libhmac_*_context_free( &context, error ) != 1 ) result = -1` (sum_handle.c:171-186 and the like). -/
def freeContext (C : Contexts M) (k : Kind) (r : Int) (h : Handle) (W : WorldOf M) : Res (Int × Handle × WorldOf M) :=
  match h.context k with
  | none => .ok (r, h, W)
  | some _ => do
    let (c, h, W) ← ctxCall C k .free h.readCount h W
    pure (if c.code ≠ 1 then -1 else r, h, W)

/-- The freeing of contexts and hash strings in `sum_handle_free` (sum_handle.c:171-275). The result is -1 if a context could not be freed. -/
def freeHashes (C : Contexts M) : List Kind → Int → Handle → WorldOf M → Res (Int × Handle × WorldOf M)
  | [], r, h, W => .ok (r, h, W)
  | k :: ks, r, h, W => do
    let (r, h, W) ← freeContext C k r h W
    let W ← freeOptBlock ((h.hashString k).map (·.1)) W
    freeHashes C ks r h W

/-- `sum_handle_free` (sum_handle.c:151-295) with a valid argument, as in `Model.sumFree`. -/
def sumFree (C : Contexts M) (closeOk : Bool) (slot : Option Handle) (W : WorldOf M) : Res (Int × Option Handle × WorldOf M) :=
  match slot with
  | none => .ok (1, none, W)
  | some h => do
    let (r, h, W) ← freeHashes C digestOrder 1 h W
    let W ← freeOptBlock h.input W
    let r := if closeOk then r else -1
    let W ← freeBlock h.self W
    pure (r, none, W)

/-- The allocation of hash strings (sum_handle.c:1447-1541): `false` is `goto on_error`. -/
def enableDigests (T : Tool) (C : Contexts M) (f : Kind → Bool) : List Kind → Handle → WorldOf M → Bool × Handle × WorldOf M
  | [], h, W => (true, h, W)
  | k :: ks, h, W =>
    if f k && !h.calculate k then
      match allocBlock T C W with
      | (none, W) => (false, { h with hashString := Function.update h.hashString k none }, W)
      | (some p, W) =>
        enableDigests T C f ks { h with calculate := Function.update h.calculate k true, hashString := Function.update h.hashString k (some (p, T.stringJunk k)) } W
    else enableDigests T C f ks h W

/-- `sum_handle_set_digest_types` (sum_handle.c:1153-1565) with a valid handle and string, as in `Model.setDigestTypes`. -/
def setDigestTypes (T : Tool) (C : Contexts M) (mc splitOk splitFreeOk : Bool) (string : List Nat) (h : Handle) (W : WorldOf M) : Res (Int × Handle × WorldOf M) :=
  if !splitOk then .ok (-1, h, W)
  else do
    let f ← segmentsLoop mc (splitAt 44 string) (fun _ => false)
    let (ok, h, W) := enableDigests T C f digestOrder h W
    pure (if ok && splitFreeOk then 0 else -1, h, W)

/-- `on_error` (hmacsum.c:387-401). -/
def onError (E : Environment) (C : Contexts M) (out : List Line) (slot : Option Handle) (W : WorldOf M) : Res (Exit × WorldOf M) := do
  let (_, _, W) ← sumFree C E.freeOk slot W
  pure (⟨false, out⟩, W)

/-- `on_abort` and what follows (hmacsum.c:343-385). -/
def onAbort (E : Environment) (C : Contexts M) (out : List Line) (h : Handle) (W : WorldOf M) : Res (Exit × WorldOf M) :=
  if closeInput E.closeOk ≠ 0 then onError E C out (some h) W
  else do
    let (r, slot, W) ← sumFree C E.freeOk (some h) W
    if r ≠ 1 then onError E C out slot W
    else if E.arrival.atFinal then pure (⟨false, out ++ [.aborted]⟩, W)
    else pure (⟨true, out⟩, W)

/-- Processing and printing (hmacsum.c:316-342). -/
def processAndPrint (E : Environment) (C : Contexts M) (inp : Input) (out : List Line) (h : Handle) (W : WorldOf M) : Res (Exit × WorldOf M) := do
  let (r, h, W) ← processInput E.tool C inp E.arrival.atRead h W
  if E.arrival.atProcessed then onAbort E C out h W
  else if r ≠ 1 then onError E C out (some h) W
  else do
    let ds ← printHashes digestOrder h
    onAbort E C (out ++ ds.map fun d => .digest d.1 d.2) h W

/-- Opening and what follows (hmacsum.c:299-315). -/
def openAndProcess (E : Environment) (C : Contexts M) (source : List Nat) (out : List Line) (h : Handle) (W : WorldOf M) : Res (Exit × WorldOf M) :=
  match E.files source with
  | none => if E.arrival.atOpen then onAbort E C out (openInput false h).2 W else onError E C out (some (openInput false h).2) W
  | some inp => if E.arrival.atOpen then onAbort E C out (openInput true h).2 W else processAndPrint E C inp out (openInput true h).2 W

/-- `sum_handle_set_process_buffer_size` (sum_handle.c:1570-1623), as in `Model.setBufferSize`, with the conversion to `size_t` in line 1619. -/
def setBufferSize (C : Contexts M) (verbose : Bool) (dp : Option Nat) (string : List Nat) (h : Handle) : Res (Int × Handle) := do
  let (r, v) ← byteSizeConvert verbose dp (some (string ++ [0])) string.length (some 0)
  if r = -1 then pure (-1, h)
  else if r ≠ 0 then
    match v with
    | none => .ub
    | some v => if C.sizeMax < v.toNat then pure (0, h) else pure (r, { h with bufferSize := v.toNat % 2 ^ C.bits })
  else pure (r, h)

/-- The option -p (hmacsum.c:245-269): `false` is `goto on_error`. -/
def applyBufferSize (E : Environment) (C : Contexts M) (o : Options) (h : Handle) : Res (Bool × Handle) :=
  match o.bufferSize with
  | none => .ok (true, h)
  | some s => do
    let (r, h) ← setBufferSize C o.verbose E.dp s h
    if r = -1 then pure (false, h)
    else if r = 0 ∨ C.sizeMax < h.bufferSize then pure (true, { h with bufferSize := 32768 })
    else pure (true, h)

/-- The option -d (hmacsum.c:270-285): `false` is `goto on_error`. -/
def applyDigests (E : Environment) (C : Contexts M) (o : Options) (h : Handle) (W : WorldOf M) : Res (Bool × Handle × WorldOf M) :=
  match o.digests with
  | none => .ok (true, h, W)
  | some s => do
    let (r, h, W) ← setDigestTypes E.tool C E.mc E.splitOk E.splitFreeOk s h W
    pure (r ≠ -1, h, W)

/-- The main program after the option loop (hmacsum.c:232-401). A failure to attach the signal handler (286-298) is only printed. -/
def runSource (E : Environment) (C : Contexts M) (o : Options) (source : List Nat) (out : List Line) (W : WorldOf M) : Res (Exit × WorldOf M) := do
  let (r, slot, W) ← sumInitialize E.tool C none W
  if r ≠ 1 then onError E C out slot W
  else match slot with
    | none => .ub
    | some h => do
      let (ok, h) ← applyBufferSize E C o h
      if !ok then onError E C out (some h) W
      else do
        let (ok, h, W) ← applyDigests E C o h W
        if !ok then onError E C out (some h) W
        else openAndProcess E C source out h W

/-- `main` (hmacsum.c:127-402), as in `Model.hmacsum`. -/
def hmacsum (E : Environment) (C : Contexts M) (args : List (List Nat)) (W : WorldOf M) : Res (Exit × WorldOf M) :=
  if !E.localeOk then onError E C [] none W
  else if !E.outputOk then onError E C [] none W
  else do
    let p ← parseOptions E.mc args ((args.map List.length).sum + 1) ⟨none, none, false⟩ optInit
    match p with
    | .invalid => onError E C [.version, .usage] none W
    | .help => pure (⟨true, [.version, .usage]⟩, W)
    | .version => pure (⟨true, [.version, .copyright]⟩, W)
    | .missing => onError E C [.version, .usage] none W
    | .run o source => runSource E C o source [.version] W

end Builds

end Model
