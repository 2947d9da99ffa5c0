import Verif.Model.Hmacsum
import Verif.Spec.Changing
/-! hmactools/sum_handle.c and hmactools/hmacsum.c with a source that may change while it is read.

In Model/SumHandle.lean the input has fixed contents of which the reads deliver pieces. Here every read delivers what the source has at that moment. The functions are those of Model/SumHandle.lean and Model/Hmacsum.lean that read
the input, with a `Source` in the place of the fixed contents. The size is still determined once, before the first read. -/

namespace Model

open Spec (Kind Line Source)

/-- `sum_handle_read_buffer` (sum_handle.c:408-468) with valid arguments: the bytes placed at the start of the buffer, `none` is -1. -/
def readSource (S : Source) (size : Nat) (h : Handle) : Option (List Byte) × Handle :=
  if ssizeMax < size then (none, h)
  else match S h.readCount h.position size with
    | none => (none, { h with readCount := h.readCount + 1 })
    | some d => (some (d.take size), { h with readCount := h.readCount + 1, position := h.position + (d.take size).length })

/-- The `while` loop of `sum_handle_process_input` (sum_handle.c:1063-1120), as `processLoop`. -/
def sourceLoop (T : Tool) (S : Source) (aborted : Nat → Bool) (mediaSize : Nat) : Nat → Nat → List Byte → Handle → World → Res (Bool × Handle × World)
  | fuel, processCount, buffer, h, W =>
    if processCount < mediaSize then
      match fuel with
      | 0 => .diverge
      | fuel + 1 => do
        let readSize := if mediaSize - processCount < h.bufferSize then mediaSize - processCount else h.bufferSize
        match readSource S readSize h with
        | (none, h) => pure (false, h, W)
        | (some d, h) => do
          let buffer ← memCopy buffer 0 d 0 d.length
          if d.length = 0 then pure (false, h, W)
          else do
            let (r, h, W) ← updateIntegrity T buffer d.length h W
            if r ≠ 1 then pure (false, h, W)
            else do
              let h := { h with abort := h.abort || aborted h.readCount }
              if h.abort then pure (true, h, W)
              else sourceLoop T S aborted mediaSize fuel (processCount + d.length) buffer h W
    else .ok (true, h, W)

/-- `sum_handle_process_input` (sum_handle.c:988-1148) with a valid handle, as `processInput`. `size` is the result of `libcfile_file_get_size` (sum_handle.c:1022). -/
def processSource (T : Tool) (S : Source) (size : Option Nat) (aborted : Nat → Bool) (h : Handle) (W : World) : Res (Int × Handle × World) :=
  if h.bufferSize = 0 ∨ ssizeMax < h.bufferSize then .ok (-1, h, W)
  else match size with
    | none => .ok (-1, h, W)
    | some mediaSize =>
      match allocBlock T W with
      | (none, W) => .ok (-1, h, W)
      | (some p, W) => do
        let (r, h, W) ← initIntegrity T h W
        if r ≠ 1 then processError p h W
        else do
          let (ok, h, W) ← sourceLoop T S aborted mediaSize mediaSize 0 (T.bufferJunk h.bufferSize) h W
          if !ok then processError p h W
          else do
            let W ← freeBlock p W
            let (r, h, W) ← finalizeHashes T digestOrder h W
            if r ≠ 1 then pure (-1, h, W) else pure (1, h, W)

/-- Processing and printing (hmacsum.c:316-342), as `processAndPrint`. -/
def sourceAndPrint (E : Environment) (S : Source) (size : Option Nat) (out : List Line) (h : Handle) (W : World) : Res (Exit × World) := do
  let (r, h, W) ← processSource E.tool S size E.arrival.atRead h W
  if E.arrival.atProcessed then onAbort E out h W
  else if r ≠ 1 then onError E out (some h) W
  else do
    let ds ← printHashes digestOrder h
    onAbort E (out ++ ds.map fun d => .digest d.1 d.2) h W

/-- Opening and what follows (hmacsum.c:299-315), as `openAndProcess`. `sources` takes the place of `E.files`: a source that can be opened, with the size that is reported for it. -/
def openSource (E : Environment) (sources : List Nat → Option (Source × Option Nat)) (source : List Nat) (out : List Line) (h : Handle) (W : World) : Res (Exit × World) :=
  match sources source with
  | none => if E.arrival.atOpen then onAbort E out (openInput false h).2 W else onError E out (some (openInput false h).2) W
  | some (S, size) => if E.arrival.atOpen then onAbort E out (openInput true h).2 W else sourceAndPrint E S size out (openInput true h).2 W

/-- The main program after the option loop (hmacsum.c:232-401), as `runSource`. -/
def runChanging (E : Environment) (sources : List Nat → Option (Source × Option Nat)) (o : Options) (source : List Nat) (out : List Line) (W : World) : Res (Exit × World) := do
  let (r, slot, W) ← sumInitialize E.tool none W
  if r ≠ 1 then onError E out slot W
  else match slot with
    | none => .ub
    | some h => do
      let (ok, h) ← applyBufferSize E o h
      if !ok then onError E out (some h) W
      else do
        let (ok, h, W) ← applyDigests E o h W
        if !ok then onError E out (some h) W
        else openSource E sources source out h W

/-- `main` (hmacsum.c:127-402), as `hmacsum`. -/
def hmacsumChanging (E : Environment) (sources : List Nat → Option (Source × Option Nat)) (args : List (List Nat)) (W : World) : Res (Exit × World) :=
  if !E.localeOk then onError E [] none W
  else if !E.outputOk then onError E [] none W
  else do
    let p ← parseOptions E.mc args ((args.map List.length).sum + 1) ⟨none, none, false⟩ optInit
    match p with
    | .invalid => onError E [.version, .usage] none W
    | .help => pure (⟨true, [.version, .usage]⟩, W)
    | .version => pure (⟨true, [.version, .copyright]⟩, W)
    | .missing => onError E [.version, .usage] none W
    | .run o source => runChanging E sources o source [.version] W

end Model
