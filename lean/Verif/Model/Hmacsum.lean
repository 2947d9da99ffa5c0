import Verif.Model.SumHandle
import Verif.Model.Getopt
import Verif.Spec.Hmacsum
/-! hmactools/hmacsum.c: the main program.

The option parser is that of hmactools_getopt.c, used on systems without getopt (hmactools/hmactools_getopt.h:41-43). Not modelled: messages on standard error, the error object, failures to write to
standard output, what the signal handler does besides setting flags (it closes standard input, hmacsum.c:111-122), and signals while the handler is not attached, in `sum_handle_free`, and on the way to `on_error`. -/

namespace Model

open Spec (Line)

/-- When a signal arrives, seen from the tests of the abort flags: never; before the test after opening (hmacsum.c:304); before the test after the n-th read (sum_handle.c:1116); after the last of them and before the test
after processing (hmacsum.c:320); later, before the last test (hmacsum.c:376). -/
inductive Arrival where
  | never
  | opening
  | reading (n : Nat)
  | processed
  | late

/-- `hmacsum_abort` at hmacsum.c:304. -/
def Arrival.atOpen : Arrival → Bool
  | .opening => true
  | _ => false

/-- The abort flag of the handle at its test after the n-th read: `hmacsum_signal_handler` (hmacsum.c:85-123) sets both flags. -/
def Arrival.atRead : Arrival → Nat → Bool
  | .opening, _ => true
  | .reading m, n => m ≤ n
  | _, _ => false

/-- `hmacsum_abort` at hmacsum.c:320. -/
def Arrival.atProcessed : Arrival → Bool
  | .opening | .reading _ | .processed => true
  | _ => false

/-- `hmacsum_abort` at hmacsum.c:376. -/
def Arrival.atFinal : Arrival → Bool
  | .never => false
  | _ => true

/-- What the main program does not control: what the sum handle does not (`tool`), the build of the string functions (`mc`), the outcomes of the calls in hmacsum.c:148 (`localeOk`), 158 (`outputOk`), of libcsplit
(`splitOk`, `splitFreeOk`), of closing and freeing the input handle (`closeOk`, `freeOk`), the decimal point of the locale (`dp`), the files that can be opened, and the signal. -/
structure Environment where
  tool : Tool
  mc : Bool
  localeOk : Bool
  outputOk : Bool
  splitOk : Bool
  splitFreeOk : Bool
  closeOk : Bool
  freeOk : Bool
  dp : Option Nat
  files : List Nat → Option Input
  arrival : Arrival

/-- The variables set by options (hmacsum.c:134-139). -/
structure Options where
  digests : Option (List Nat)
  bufferSize : Option (List Nat)
  verbose : Bool

/-- How the option loop ends. (The ways out of hmactools/hmacsum.c:172-230.) -/
inductive Parsed where
  | run (o : Options) (source : List Nat)
  | help
  | version
  | invalid
  | missing

/-- `argv[ i ]` as a string. (hmactools/hmacsum.c:184 and 230.) -/
def argAt (args : List (List Nat)) (i : Nat) : Res (List Nat) := do
  let a ← argString args (some (i, 0))
  match a with
  | none => .ub
  | some a => pure a

/-- The option loop and the test for the source (hmacsum.c:172-230). -/
def parseOptions (mc : Bool) (args : List (List Nat)) : Nat → Options → OptState → Res Parsed
  | 0, _, _ => .diverge
  | fuel + 1, o, s => do
    let (c, s) ← getopt mc args (Spec.codes "d:hp:vV") s
    match c with
    | none =>
      if s.optind = args.length then pure .missing
      else do
        let source ← argAt args s.optind
        pure (.run o source)
    | some c =>
      if c = 100 then do
        let a ← argString args s.optarg
        parseOptions mc args fuel { o with digests := a } s
      else if c = 104 then pure .help
      else if c = 112 then do
        let a ← argString args s.optarg
        parseOptions mc args fuel { o with bufferSize := a } s
      else if c = 118 then parseOptions mc args fuel { o with verbose := true } s
      else if c = 86 then pure .version
      else do
        let _ ← argAt args (s.optind - 1)
        pure .invalid

/-- What a user sees: the exit status (`true`: EXIT_SUCCESS) and standard output. (hmactools/hmacsum.c:128-402.) -/
structure Exit where
  status : Bool
  out : List Line

/-- `on_error` (hmacsum.c:387-401). The NULL test is also in `sum_handle_free`. -/
def onError (E : Environment) (out : List Line) (slot : Option Handle) (W : World) : Res (Exit × World) := do
  let (_, _, W) ← sumFree E.tool E.freeOk slot W
  pure (⟨false, out⟩, W)

/-- `on_abort` and what follows (hmacsum.c:343-385). -/
def onAbort (E : Environment) (out : List Line) (h : Handle) (W : World) : Res (Exit × World) :=
  if closeInput E.closeOk ≠ 0 then onError E out (some h) W
  else do
    let (r, slot, W) ← sumFree E.tool E.freeOk (some h) W
    if r ≠ 1 then onError E out slot W
    else if E.arrival.atFinal then pure (⟨false, out ++ [.aborted]⟩, W)
    else pure (⟨true, out⟩, W)

/-- Processing and printing (hmacsum.c:316-342). -/
def processAndPrint (E : Environment) (inp : Input) (out : List Line) (h : Handle) (W : World) : Res (Exit × World) := do
  let (r, h, W) ← processInput E.tool inp E.arrival.atRead h W
  if E.arrival.atProcessed then onAbort E out h W
  else if r ≠ 1 then onError E out (some h) W
  else do
    let ds ← printHashes digestOrder h
    onAbort E (out ++ ds.map fun d => .digest d.1 d.2) h W

/-- Opening and what follows (hmacsum.c:299-315). -/
def openAndProcess (E : Environment) (source : List Nat) (out : List Line) (h : Handle) (W : World) : Res (Exit × World) :=
  match E.files source with
  | none => if E.arrival.atOpen then onAbort E out (openInput false h).2 W else onError E out (some (openInput false h).2) W
  | some inp => if E.arrival.atOpen then onAbort E out (openInput true h).2 W else processAndPrint E inp out (openInput true h).2 W

/-- The option -p (hmacsum.c:245-269): `false` is `goto on_error`. -/
def applyBufferSize (E : Environment) (o : Options) (h : Handle) : Res (Bool × Handle) :=
  match o.bufferSize with
  | none => .ok (true, h)
  | some s => do
    let (r, h) ← setBufferSize o.verbose E.dp s h
    if r = -1 then pure (false, h)
    else if r = 0 ∨ ssizeMax < h.bufferSize then pure (true, { h with bufferSize := 32768 })
    else pure (true, h)

/-- The option -d (hmacsum.c:270-285): `false` is `goto on_error`. -/
def applyDigests (E : Environment) (o : Options) (h : Handle) (W : World) : Res (Bool × Handle × World) :=
  match o.digests with
  | none => .ok (true, h, W)
  | some s => do
    let (r, h, W) ← setDigestTypes E.tool E.mc E.splitOk E.splitFreeOk s h W
    pure (r ≠ -1, h, W)

/-- The main program after the option loop (hmacsum.c:232-401). A failure to attach the signal handler (286-298) is only printed. -/
def runSource (E : Environment) (o : Options) (source : List Nat) (out : List Line) (W : World) : Res (Exit × World) := do
  let (r, slot, W) ← sumInitialize E.tool none W
  if r ≠ 1 then onError E out slot W
  else match slot with
    | none => .ub
    | some h => do
      let (ok, h) ← applyBufferSize E o h
      if !ok then onError E out (some h) W
      else do
        let (ok, h, W) ← applyDigests E o h W
        if !ok then onError E out (some h) W
        else openAndProcess E source out h W

/-- `main` (hmacsum.c:127-402). The arguments are given with their terminators. The number of iterations of the option loop is bounded by the size of the arguments. -/
def hmacsum (E : Environment) (args : List (List Nat)) (W : World) : Res (Exit × World) :=
  if !E.localeOk then onError E [] none W
  else if !E.outputOk then onError E [] none W
  else do
    let p ← parseOptions E.mc args ((args.map List.length).sum + 1) ⟨none, none, false⟩ optInit
    match p with
    | .invalid => onError E [.version, .usage] none W
    | .help => pure (⟨true, [.version, .usage]⟩, W)
    | .version => pure (⟨true, [.version, .copyright]⟩, W)
    | .missing => onError E [.version, .usage] none W
    | .run o source => runSource E o source [.version] W

end Model
