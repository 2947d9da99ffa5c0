import Verif.Model.Hmacsum
import Verif.Spec.Messages
/-! hmactools/hmacsum.c once more, with the messages that the main program prints on standard error (`fprintf( stderr, … )`), and with hmactools_output_initialize and hmactools_signal.c. Not modelled: the backtraces of
errors and the verbose output printed by libcnotify, the messages of the signal handler (hmacsum.c:100-122), the branches for Windows. -/

namespace Model

open Spec (Line Message)

/-- `hmactools_output_initialize` (hmactools/hmactools_output.c:49-102): mode (0 `_IOFBF`, 1 `_IOLBF`, 2 `_IONBF`, on this platform), outcomes of `setvbuf` for standard output and standard error. -/
def outputInitialize (mode : Int) (out err : Bool) : Int :=
  if mode ≠ 0 ∧ mode ≠ 1 ∧ mode ≠ 2 then -1
  else if !out then -1
  else if !err then -1
  else 1

/-- `hmactools_signal_attach` (hmactools/hmactools_signal.c:204-235): is a handler given, and the outcome of `signal`. -/
def signalAttach (handler ok : Bool) : Int := if !handler then -1 else if !ok then -1 else 1

/-- `hmactools_signal_detach` (hmactools/hmactools_signal.c:240-259). -/
def signalDetach (ok : Bool) : Int := if !ok then -1 else 1

/-- Outcomes of system calls in the two files above. (`setvbuf` at hmactools/hmactools_output.c:69 and 84, `signal` at hmactools/hmactools_signal.c:221 and 245.) -/
structure SystemCalls where
  bufferOut : Bool
  bufferErr : Bool
  attach : Bool
  detach : Bool

/-- What a user sees, with standard error. (hmactools/hmacsum.c:128-402.) -/
structure ExitM where
  exit : Exit
  err : List Message

/-- `Model.onError` (hmacsum.c:387-401). -/
def mOnError (E : Environment) (out : List Line) (err : List Message) (slot : Option Handle) (W : World) : Res (ExitM × World) := do
  let (_, _, W) ← sumFree E.tool E.freeOk slot W
  pure (⟨⟨false, out⟩, err⟩, W)

/-- `Model.onAbort` (hmacsum.c:343-385). -/
def mOnAbort (E : Environment) (C : SystemCalls) (out : List Line) (err : List Message) (h : Handle) (W : World) : Res (ExitM × World) :=
  if closeInput E.closeOk ≠ 0 then mOnError E out (err ++ [.closeHandle]) (some h) W
  else do
    let err := if signalDetach C.detach ≠ 1 then err ++ [.detach] else err
    let (r, slot, W) ← sumFree E.tool E.freeOk (some h) W
    if r ≠ 1 then mOnError E out (err ++ [.freeHandle]) slot W
    else if E.arrival.atFinal then pure (⟨⟨false, out ++ [.aborted]⟩, err⟩, W)
    else pure (⟨⟨true, out⟩, err⟩, W)

/-- `Model.processAndPrint` (hmacsum.c:316-342). -/
def mProcessAndPrint (E : Environment) (C : SystemCalls) (inp : Input) (out : List Line) (err : List Message) (h : Handle) (W : World) : Res (ExitM × World) := do
  let (r, h, W) ← processInput E.tool inp E.arrival.atRead h W
  if E.arrival.atProcessed then mOnAbort E C out err h W
  else if r ≠ 1 then mOnError E out (err ++ [.processInput]) (some h) W
  else do
    let ds ← printHashes digestOrder h
    mOnAbort E C (out ++ ds.map fun d => .digest d.1 d.2) err h W

/-- `Model.openAndProcess` (hmacsum.c:299-315). -/
def mOpenAndProcess (E : Environment) (C : SystemCalls) (source : List Nat) (out : List Line) (err : List Message) (h : Handle) (W : World) : Res (ExitM × World) :=
  match E.files source with
  | none => if E.arrival.atOpen then mOnAbort E C out err (openInput false h).2 W else mOnError E out (err ++ [.openInput]) (some (openInput false h).2) W
  | some inp => if E.arrival.atOpen then mOnAbort E C out err (openInput true h).2 W else mProcessAndPrint E C inp out err (openInput true h).2 W

/-- `Model.applyBufferSize` (hmacsum.c:245-269). -/
def mApplyBufferSize (E : Environment) (o : Options) (err : List Message) (h : Handle) : Res (Bool × Handle × List Message) :=
  match o.bufferSize with
  | none => .ok (true, h, err)
  | some s => do
    let (r, h) ← setBufferSize o.verbose E.dp s h
    if r = -1 then pure (false, h, err ++ [.bufferSize])
    else if r = 0 ∨ ssizeMax < h.bufferSize then pure (true, { h with bufferSize := 32768 }, err ++ [.bufferSizeDefault])
    else pure (true, h, err)

/-- `Model.applyDigests` (hmacsum.c:270-285). -/
def mApplyDigests (E : Environment) (o : Options) (err : List Message) (h : Handle) (W : World) : Res (Bool × Handle × World × List Message) :=
  match o.digests with
  | none => .ok (true, h, W, err)
  | some s => do
    let (r, h, W) ← setDigestTypes E.tool E.mc E.splitOk E.splitFreeOk s h W
    pure (r ≠ -1, h, W, if r = -1 then err ++ [.digestTypes] else err)

/-- `Model.runSource` (hmacsum.c:232-401). -/
def mRunSource (E : Environment) (C : SystemCalls) (o : Options) (source : List Nat) (out : List Line) (W : World) : Res (ExitM × World) := do
  let (r, slot, W) ← sumInitialize E.tool none W
  if r ≠ 1 then mOnError E out [.createHandle] slot W
  else match slot with
    | none => .ub
    | some h => do
      let (ok, h, err) ← mApplyBufferSize E o [] h
      if !ok then mOnError E out err (some h) W
      else do
        let (ok, h, W, err) ← mApplyDigests E o err h W
        if !ok then mOnError E out err (some h) W
        else do
          let err := if signalAttach true C.attach ≠ 1 then err ++ [.attach] else err
          mOpenAndProcess E C source out err h W

/-- `Model.parseOptions` (hmacsum.c:172-230), with the argument that the message for an invalid option names (`argv[ optind - 1 ]`, hmacsum.c:184). -/
def mParseOptions (mc : Bool) (args : List (List Nat)) : Nat → Options → OptState → Res (Parsed × List Nat)
  | 0, _, _ => .diverge
  | fuel + 1, o, s => do
    let (c, s) ← getopt mc args (Spec.codes "d:hp:vV") s
    match c with
    | none =>
      if s.optind = args.length then pure (.missing, [])
      else do
        let source ← argAt args s.optind
        pure (.run o source, [])
    | some c =>
      if c = 100 then do
        let a ← argString args s.optarg
        mParseOptions mc args fuel { o with digests := a } s
      else if c = 104 then pure (.help, [])
      else if c = 112 then do
        let a ← argString args s.optarg
        mParseOptions mc args fuel { o with bufferSize := a } s
      else if c = 118 then mParseOptions mc args fuel { o with verbose := true } s
      else if c = 86 then pure (.version, [])
      else do
        let a ← argAt args (s.optind - 1)
        pure (.invalid, a)

/-- `Model.hmacsum` (hmacsum.c:127-402): `E.outputOk` is not used, the outcome of `hmactools_output_initialize` is computed. `_IONBF` is 2. -/
def mHmacsum (E : Environment) (C : SystemCalls) (args : List (List Nat)) (W : World) : Res (ExitM × World) :=
  if !E.localeOk then mOnError E [] [.locale] none W
  else if outputInitialize 2 C.bufferOut C.bufferErr ≠ 1 then mOnError E [] [.output] none W
  else do
    let (p, arg) ← mParseOptions E.mc args ((args.map List.length).sum + 1) ⟨none, none, false⟩ optInit
    match p with
    | .invalid => mOnError E [.version, .usage] [.invalidArgument arg] none W
    | .help => pure (⟨⟨true, [.version, .usage]⟩, []⟩, W)
    | .version => pure (⟨⟨true, [.version, .copyright]⟩, []⟩, W)
    | .missing => mOnError E [.version, .usage] [.missingSource] none W
    | .run o source => mRunSource E C o source [.version] W

end Model
