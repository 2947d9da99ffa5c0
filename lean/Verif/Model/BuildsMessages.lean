import Verif.Model.Builds
import Verif.Model.Messages
/-! hmactools/hmacsum.c with the messages that it prints on standard error, over any implementation of the contexts and on hosts of any width: the functions of Model/Messages with the context functions and the width of
`size_t` as a parameter, as in Model/Builds. Simplified as there. -/

namespace Model.Builds

open Spec (Line Message)

variable {M : Type}

/-- `Builds.onError` (hmacsum.c:387-401). -/
def mOnError (E : Environment) (C : Contexts M) (out : List Line) (err : List Message) (slot : Option Handle) (W : WorldOf M) : Res (ExitM × WorldOf M) := do
  let (_, _, W) ← sumFree C E.freeOk slot W
  pure (⟨⟨false, out⟩, err⟩, W)

/-- `Builds.onAbort` (hmacsum.c:343-385). -/
def mOnAbort (E : Environment) (C : Contexts M) (S : SystemCalls) (out : List Line) (err : List Message) (h : Handle) (W : WorldOf M) : Res (ExitM × WorldOf M) :=
  if closeInput E.closeOk ≠ 0 then mOnError E C out (err ++ [.closeHandle]) (some h) W
  else do
    let err := if signalDetach S.detach ≠ 1 then err ++ [.detach] else err
    let (r, slot, W) ← sumFree C E.freeOk (some h) W
    if r ≠ 1 then mOnError E C out (err ++ [.freeHandle]) slot W
    else if E.arrival.atFinal then pure (⟨⟨false, out ++ [.aborted]⟩, err⟩, W)
    else pure (⟨⟨true, out⟩, err⟩, W)

/-- `Builds.processAndPrint` (hmacsum.c:316-342). -/
def mProcessAndPrint (E : Environment) (C : Contexts M) (S : SystemCalls) (inp : Input) (out : List Line) (err : List Message) (h : Handle) (W : WorldOf M) : Res (ExitM × WorldOf M) := do
  let (r, h, W) ← processInput E.tool C inp E.arrival.atRead h W
  if E.arrival.atProcessed then mOnAbort E C S out err h W
  else if r ≠ 1 then mOnError E C out (err ++ [.processInput]) (some h) W
  else do
    let ds ← printHashes digestOrder h
    mOnAbort E C S (out ++ ds.map fun d => .digest d.1 d.2) err h W

/-- `Builds.openAndProcess` (hmacsum.c:299-315). -/
def mOpenAndProcess (E : Environment) (C : Contexts M) (S : SystemCalls) (source : List Nat) (out : List Line) (err : List Message) (h : Handle) (W : WorldOf M) : Res (ExitM × WorldOf M) :=
  match E.files source with
  | none => if E.arrival.atOpen then mOnAbort E C S out err (openInput false h).2 W else mOnError E C out (err ++ [.openInput]) (some (openInput false h).2) W
  | some inp => if E.arrival.atOpen then mOnAbort E C S out err (openInput true h).2 W else mProcessAndPrint E C S inp out err (openInput true h).2 W

/-- `Builds.applyBufferSize` (hmacsum.c:245-269). -/
def mApplyBufferSize (E : Environment) (C : Contexts M) (o : Options) (err : List Message) (h : Handle) : Res (Bool × Handle × List Message) :=
  match o.bufferSize with
  | none => .ok (true, h, err)
  | some s => do
    let (r, h) ← setBufferSize C o.verbose E.dp s h
    if r = -1 then pure (false, h, err ++ [.bufferSize])
    else if r = 0 ∨ C.sizeMax < h.bufferSize then pure (true, { h with bufferSize := 32768 }, err ++ [.bufferSizeDefault])
    else pure (true, h, err)

/-- `Builds.applyDigests` (hmacsum.c:270-285). -/
def mApplyDigests (E : Environment) (C : Contexts M) (o : Options) (err : List Message) (h : Handle) (W : WorldOf M) : Res (Bool × Handle × WorldOf M × List Message) :=
  match o.digests with
  | none => .ok (true, h, W, err)
  | some s => do
    let (r, h, W) ← setDigestTypes E.tool C E.mc E.splitOk E.splitFreeOk s h W
    pure (r ≠ -1, h, W, if r = -1 then err ++ [.digestTypes] else err)

/-- `Builds.runSource` (hmacsum.c:232-401). -/
def mRunSource (E : Environment) (C : Contexts M) (S : SystemCalls) (o : Options) (source : List Nat) (out : List Line) (W : WorldOf M) : Res (ExitM × WorldOf M) := do
  let (r, slot, W) ← sumInitialize E.tool C none W
  if r ≠ 1 then mOnError E C out [.createHandle] slot W
  else match slot with
    | none => .ub
    | some h => do
      let (ok, h, err) ← mApplyBufferSize E C o [] h
      if !ok then mOnError E C out err (some h) W
      else do
        let (ok, h, W, err) ← mApplyDigests E C o err h W
        if !ok then mOnError E C out err (some h) W
        else do
          let err := if signalAttach true S.attach ≠ 1 then err ++ [.attach] else err
          mOpenAndProcess E C S source out err h W

/-- `Builds.hmacsum` (hmacsum.c:127-402), as `mHmacsum`: `E.outputOk` is not used, the outcome of `hmactools_output_initialize` is computed. `_IONBF` is 2. -/
def mHmacsum (E : Environment) (C : Contexts M) (S : SystemCalls) (args : List (List Nat)) (W : WorldOf M) : Res (ExitM × WorldOf M) :=
  if !E.localeOk then mOnError E C [] [.locale] none W
  else if outputInitialize 2 S.bufferOut S.bufferErr ≠ 1 then mOnError E C [] [.output] none W
  else do
    let (p, arg) ← mParseOptions E.mc args ((args.map List.length).sum + 1) ⟨none, none, false⟩ optInit
    match p with
    | .invalid => mOnError E C [.version, .usage] [.invalidArgument arg] none W
    | .help => pure (⟨⟨true, [.version, .usage]⟩, []⟩, W)
    | .version => pure (⟨⟨true, [.version, .copyright]⟩, []⟩, W)
    | .missing => mOnError E C [.version, .usage] [.missingSource] none W
    | .run o source => mRunSource E C S o source [.version] W

end Model.Builds
