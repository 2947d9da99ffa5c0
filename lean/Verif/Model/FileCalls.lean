import Verif.Model.Builds
import Verif.Spec.FileCalls
/-! The calls that hmacsum makes of libcfile: the functions of Model/Builds that call it, or call one that does, with the list of these calls. The outcome of each call is that in `Environment` and `Input`, as in Model/Builds. -/

namespace Model.Builds

open Spec (Line FileCall)

variable {M : Type}

/-- How the program ended and what it called. -/
structure ExitF where
  exit : Exit
  calls : List FileCall

/-- `Builds.sumInitialize` (sum_handle.c:49-146): libcfile_file_initialize is called in 105-115 if the handle could be allocated. It is not freed after a failure (135-145). -/
def fSumInitialize (T : Tool) (C : Contexts M) (slot : Option Handle) (W : WorldOf M) : Res (Int × Option Handle × WorldOf M × List FileCall) :=
  match slot with
  | some h => .ok (-1, some h, W, [])
  | none =>
    match allocBlock T C W with
    | (none, W) => .ok (-1, none, W, [])
    | (some self, W) =>
      match allocBlock T C W with
      | (none, W) => do
        let W ← freeBlock self W
        pure (-1, none, W, [.create false])
      | (some input, W) =>
        match allocBlock T C W with
        | (none, W) => do
          let W ← freeBlock self W
          pure (-1, none, W, [.create true])
        | (some str, W) =>
          .ok (1, some { self := self, input := some input, calculate := fun k => k = .md5, context := fun _ => none,
                         hashString := fun k => if k = .md5 then some (str, T.stringJunk .md5) else none,
                         bufferSize := 32768, abort := false, position := 0, readCount := 0 }, W, [.create true])

/-- The calls of `sum_handle_free` (sum_handle.c:151-295): libcfile_file_free (276-287) if there is a handle, whatever the frees before it return. -/
def freeCalls (ok : Bool) (slot : Option Handle) : List FileCall := if slot.isSome then [.free ok] else []

/-- `Builds.readInput` (sum_handle.c:408-468): libcfile_file_read_buffer is called in 450-454 if the size is not refused. -/
def fReadInput (C : Contexts M) (inp : Input) (size : Nat) (h : Handle) : Option (List Byte) × Handle × List FileCall :=
  if C.sizeMax < size then (none, h, [])
  else match inp.reads h.readCount with
    | none => (none, { h with readCount := h.readCount + 1 }, [.read size none])
    | some n =>
      let d := (inp.content.drop h.position).take (min n size)
      (some d, { h with readCount := h.readCount + 1, position := h.position + d.length }, [.read size (some d.length)])

/-- `Builds.processLoop` (sum_handle.c:1063-1120). -/
def fProcessLoop (C : Contexts M) (inp : Input) (aborted : Nat → Bool) (mediaSize : Nat) :
    Nat → Nat → List Byte → Handle → WorldOf M → List FileCall → Res (Bool × Handle × WorldOf M × List FileCall)
  | fuel, processCount, buffer, h, W, calls =>
    if processCount < mediaSize then
      match fuel with
      | 0 => .diverge
      | fuel + 1 => do
        let readSize := if mediaSize - processCount < h.bufferSize then (mediaSize - processCount) % 2 ^ C.bits else h.bufferSize
        match fReadInput C inp readSize h with
        | (none, h, c) => pure (false, h, W, calls ++ c)
        | (some d, h, c) => do
          let buffer ← memCopy buffer 0 d 0 d.length
          if d.length = 0 then pure (false, h, W, calls ++ c)
          else do
            let (r, h, W) ← updateIntegrity C buffer d.length h W
            if r ≠ 1 then pure (false, h, W, calls ++ c)
            else do
              let h := { h with abort := h.abort || aborted h.readCount }
              if h.abort then pure (true, h, W, calls ++ c)
              else fProcessLoop C inp aborted mediaSize fuel (processCount + d.length) buffer h W (calls ++ c)
    else .ok (true, h, W, calls)

/-- `Builds.processInput` (sum_handle.c:988-1148): libcfile_file_get_size is called in 1022-1035 if the buffer size is not refused. -/
def fProcessInput (T : Tool) (C : Contexts M) (inp : Input) (aborted : Nat → Bool) (h : Handle) (W : WorldOf M) (calls : List FileCall) : Res (Int × Handle × WorldOf M × List FileCall) :=
  if h.bufferSize = 0 ∨ C.sizeMax < h.bufferSize then .ok (-1, h, W, calls)
  else match inp.size with
    | none => .ok (-1, h, W, calls ++ [.size none])
    | some mediaSize =>
      match allocBlock T C W with
      | (none, W) => .ok (-1, h, W, calls ++ [.size (some mediaSize)])
      | (some p, W) => do
        let (r, h, W) ← initIntegrity C h W
        if r ≠ 1 then do
          let (r, h, W) ← processError p h W
          pure (r, h, W, calls ++ [.size (some mediaSize)])
        else do
          let (ok, h, W, calls) ← fProcessLoop C inp aborted mediaSize mediaSize 0 (T.bufferJunk h.bufferSize) h W (calls ++ [.size (some mediaSize)])
          if !ok then do
            let (r, h, W) ← processError p h W
            pure (r, h, W, calls)
          else do
            let W ← freeBlock p W
            let (r, h, W) ← finalizeHashes T C digestOrder h W
            if r ≠ 1 then pure (-1, h, W, calls) else pure (1, h, W, calls)

/-- `Builds.onError` (hmacsum.c:387-401). -/
def fOnError (E : Environment) (C : Contexts M) (out : List Line) (calls : List FileCall) (slot : Option Handle) (W : WorldOf M) : Res (ExitF × WorldOf M) := do
  let (_, _, W) ← sumFree C E.freeOk slot W
  pure (⟨⟨false, out⟩, calls ++ freeCalls E.freeOk slot⟩, W)

/-- `Builds.onAbort` (hmacsum.c:343-385): libcfile_file_close is called by `sum_handle_close` (sum_handle.c:389-401), whether or not the file could be opened. -/
def fOnAbort (E : Environment) (C : Contexts M) (out : List Line) (calls : List FileCall) (h : Handle) (W : WorldOf M) : Res (ExitF × WorldOf M) :=
  if closeInput E.closeOk ≠ 0 then fOnError E C out (calls ++ [.close E.closeOk]) (some h) W
  else do
    let (r, slot, W) ← sumFree C E.freeOk (some h) W
    let calls := calls ++ [.close E.closeOk] ++ freeCalls E.freeOk (some h)
    if r ≠ 1 then fOnError E C out calls slot W
    else if E.arrival.atFinal then pure (⟨⟨false, out ++ [.aborted]⟩, calls⟩, W)
    else pure (⟨⟨true, out⟩, calls⟩, W)

/-- `Builds.processAndPrint` (hmacsum.c:316-342). -/
def fProcessAndPrint (E : Environment) (C : Contexts M) (inp : Input) (out : List Line) (calls : List FileCall) (h : Handle) (W : WorldOf M) : Res (ExitF × WorldOf M) := do
  let (r, h, W, calls) ← fProcessInput E.tool C inp E.arrival.atRead h W calls
  if E.arrival.atProcessed then fOnAbort E C out calls h W
  else if r ≠ 1 then fOnError E C out calls (some h) W
  else do
    let ds ← printHashes digestOrder h
    fOnAbort E C (out ++ ds.map fun d => .digest d.1 d.2) calls h W

/-- `Builds.openAndProcess` (hmacsum.c:299-315): libcfile_file_open is called by `sum_handle_open_input` (sum_handle.c:350-367). -/
def fOpenAndProcess (E : Environment) (C : Contexts M) (source : List Nat) (out : List Line) (calls : List FileCall) (h : Handle) (W : WorldOf M) : Res (ExitF × WorldOf M) :=
  match E.files source with
  | none =>
    if E.arrival.atOpen then fOnAbort E C out (calls ++ [.open source false]) (openInput false h).2 W
    else fOnError E C out (calls ++ [.open source false]) (some (openInput false h).2) W
  | some inp =>
    if E.arrival.atOpen then fOnAbort E C out (calls ++ [.open source true]) (openInput true h).2 W
    else fProcessAndPrint E C inp out (calls ++ [.open source true]) (openInput true h).2 W

/-- `Builds.runSource` (hmacsum.c:232-401). The options do not touch the file object. -/
def fRunSource (E : Environment) (C : Contexts M) (o : Options) (source : List Nat) (out : List Line) (W : WorldOf M) : Res (ExitF × WorldOf M) := do
  let (r, slot, W, calls) ← fSumInitialize E.tool C none W
  if r ≠ 1 then fOnError E C out calls slot W
  else match slot with
    | none => .ub
    | some h => do
      let (ok, h) ← applyBufferSize E C o h
      if !ok then fOnError E C out calls (some h) W
      else do
        let (ok, h, W) ← applyDigests E C o h W
        if !ok then fOnError E C out calls (some h) W
        else fOpenAndProcess E C source out calls h W

/-- `Builds.hmacsum` (hmacsum.c:127-402). -/
def fHmacsum (E : Environment) (C : Contexts M) (args : List (List Nat)) (W : WorldOf M) : Res (ExitF × WorldOf M) :=
  if !E.localeOk then fOnError E C [] [] none W
  else if !E.outputOk then fOnError E C [] [] none W
  else do
    let p ← parseOptions E.mc args ((args.map List.length).sum + 1) ⟨none, none, false⟩ optInit
    match p with
    | .invalid => fOnError E C [.version, .usage] [] none W
    | .help => pure (⟨⟨true, [.version, .usage]⟩, []⟩, W)
    | .version => pure (⟨⟨true, [.version, .copyright]⟩, []⟩, W)
    | .missing => fOnError E C [.version, .usage] [] none W
    | .run o source => fRunSource E C o source [.version] W

end Model.Builds
