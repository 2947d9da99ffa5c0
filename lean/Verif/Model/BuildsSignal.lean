import Verif.Model.BuildsMessages
import Verif.Model.Signal
/-! hmactools/hmacsum.c with its signal handler and with signals that arrive at any moment, over any implementation of the contexts and on hosts of any width: the functions of Model/Signal with the context functions and
the width of `size_t` as a parameter, as in Model/Builds. Simplified as there and in Model/Signal. -/

namespace Model.Builds

open Spec (Line Message)

variable {M : Type}

/-- What the handler and the main program share, and what the process has done: is the handler attached, `hmacsum_abort` (hmacsum.c:55), is descriptor 0 open, is `error` (hmacsum.c:134) other than NULL,
`hmacsum_sum_handle`, the output, the memory, and the numbers of signals handled and of reads made (counts for the statements; not code of /repo). -/
structure Proc (M : Type) where
  attached : Bool
  abort : Bool
  stdin : Bool
  error : Bool
  var : Var
  out : List Line
  err : List Message
  world : WorldOf M
  handled : Nat
  reads : Nat

/-- The end of the process: it exits, or the default action of a signal ends it. (hmacsum.c:128-402.) -/
inductive Fate (M : Type) where
  | exited (x : ExitM) (p : Proc M)
  | killed (p : Proc M)

/-- `Model.signalHandler`: `hmacsum_signal_handler` (hmacsum.c:85-123). `sum_handle_signal_abort` writes to the handle (sum_handle.c:317). -/
def signalHandler (p : Proc M) : Res (Proc M) :=
  match p.var with
  | .null => .ok { p with abort := true, stdin := false, handled := p.handled + 1 }
  | .live h => .ok { p with abort := true, stdin := false, handled := p.handled + 1, var := .live (signalAbort h).2 }
  | .freed => .ub

/-- A number of signals, one after the other: `true` if the process ends. (Not code of /repo: `SIG_DFL` and the handler given at hmactools/hmactools_signal.c:221-223 and 245-247.) -/
def deliver (resets : Bool) : Nat → Proc M → Res (Bool × Proc M)
  | 0, p => .ok (false, p)
  | n + 1, p =>
    if !p.attached then .ok (true, p)
    else do
      let p ← signalHandler p
      deliver resets n { p with attached := !resets }

/-- The program passes a point. (Not code of /repo; the points are those of hmacsum.c:140-401.) -/
def pass (S : Signals) (pt : Point) (p : Proc M) (k : Proc M → Res (Fate M)) : Res (Fate M) := do
  let (dead, p) ← deliver S.resets (S.count pt) p
  if dead then pure (.killed p) else k p

/-- The points of `n` reads, from the i-th on (sum_handle.c:1063-1120). -/
def passReads (S : Signals) : Nat → Nat → Proc M → (Proc M → Res (Fate M)) → Res (Fate M)
  | _, 0, p, k => k p
  | i, n + 1, p, k => pass S (.read i) p fun p => passReads S (i + 1) n p k

/-- Printing of lines (sum_handle.c:1657-1691), the i-th line first. -/
def passLines (S : Signals) : Nat → List Line → Proc M → (Proc M → Res (Fate M)) → Res (Fate M)
  | i, [], p, k => pass S (.printing i) p k
  | i, l :: ls, p, k => pass S (.printing i) p fun p => passLines S (i + 1) ls { p with out := p.out ++ [l] } k

/-- `return` from `main` (hmacsum.c:200, 216, 383, 385, 401). -/
def leave (status : Bool) (p : Proc M) : Res (Fate M) := .ok (.exited ⟨⟨status, p.out⟩, p.err⟩ p)

/-- `on_error` (hmacsum.c:387-401). -/
def sOnError (E : Environment) (C : Contexts M) (S : Signals) (p : Proc M) : Res (Fate M) :=
  pass S .failing { p with error := false } fun p =>
    match p.var with
    | .null => pass S .failed p (leave false)
    | .live h => do
      let (_, _, W) ← sumFree C E.freeOk (some h) p.world
      pass S .releasing { p with var := .freed, world := W } fun p =>
        pass S .failed { p with var := .null } (leave false)
    | .freed => .ub

/-- `on_abort` and what follows (hmacsum.c:343-385). After a failure to detach the handler, `error` is printed and freed (hmacsum.c:361-364). -/
def sOnAbort (E : Environment) (C : Contexts M) (Y : SystemCalls) (S : Signals) (p : Proc M) : Res (Fate M) :=
  if closeInput E.closeOk ≠ 0 then sOnError E C S { p with err := p.err ++ [.closeHandle], error := true }
  else pass S .closing p fun p =>
    pass S .detached (if signalDetach Y.detach ≠ 1 then { p with err := p.err ++ [.detach], error := false } else { p with attached := false }) fun p =>
      match p.var with
      | .live h => do
        let (r, _, W) ← sumFree C E.freeOk (some h) p.world
        pass S .freeing { p with var := .freed, world := W } fun p =>
          if r ≠ 1 then sOnError E C S { p with var := .null, err := p.err ++ [.freeHandle], error := true }
          else pass S .ending { p with var := .null } fun p =>
            if p.abort then pass S .last { p with out := p.out ++ [.aborted] } (leave false)
            else pass S .last p (leave true)
      | _ => .ub

/-- Processing and printing (hmacsum.c:316-342). The abort flag of the handle is set at its test after the n-th read if a signal was handled since the test of line 304. -/
def sProcessAndPrint (E : Environment) (C : Contexts M) (Y : SystemCalls) (S : Signals) (inp : Input) (p : Proc M) : Res (Fate M) :=
  match p.var with
  | .live h => do
    let (r, h, W) ← processInput E.tool C inp (fun n => p.attached && (List.range (n + 1)).any fun k => 0 < S.count (.read k)) h p.world
    passReads S 0 (h.readCount + 1) { p with var := .live h, world := W, error := r ≠ 1, reads := h.readCount } fun p =>
      pass S .processed p fun p =>
        if p.abort then sOnAbort E C Y S p
        else if r ≠ 1 then sOnError E C S { p with err := p.err ++ [.processInput] }
        else match p.var with
          | .live h => do
            let ds ← printHashes digestOrder h
            passLines S 0 (ds.map fun d => .digest d.1 d.2) p (sOnAbort E C Y S)
          | _ => .ub
  | _ => .ub

/-- Opening and what follows (hmacsum.c:299-315). -/
def sOpenAndProcess (E : Environment) (C : Contexts M) (Y : SystemCalls) (S : Signals) (source : List Nat) (p : Proc M) : Res (Fate M) :=
  match p.var with
  | .live h =>
    pass S .opening { p with var := .live (openInput (E.files source).isSome h).2, error := (openInput (E.files source).isSome h).1 ≠ 1 } fun p =>
      if p.abort then sOnAbort E C Y S p
      else match E.files source with
        | none => sOnError E C S { p with err := p.err ++ [.openInput] }
        | some inp => sProcessAndPrint E C Y S inp p
  | _ => .ub

/-- The main program after the option loop (hmacsum.c:232-401). -/
def sRunSource (E : Environment) (C : Contexts M) (Y : SystemCalls) (S : Signals) (o : Options) (source : List Nat) (p : Proc M) : Res (Fate M) :=
  pass S .create p fun p => do
    let (r, slot, W) ← sumInitialize E.tool C none p.world
    if r ≠ 1 then sOnError E C S { p with world := W, var := Var.ofSlot slot, err := p.err ++ [.createHandle], error := true }
    else match slot with
      | none => .ub
      | some h => do
        let (ok, h, err) ← mApplyBufferSize E C o p.err h
        if !ok then sOnError E C S { p with world := W, var := .live h, err := err, error := true }
        else do
          let (ok, h, W, err) ← mApplyDigests E C o err h W
          if !ok then sOnError E C S { p with world := W, var := .live h, err := err, error := true }
          else pass S .configured { p with world := W, var := .live h, err := err } fun p =>
            sOpenAndProcess E C Y S source (if signalAttach true Y.attach ≠ 1 then { p with err := p.err ++ [.attach] } else { p with attached := true })

/-- `main` (hmacsum.c:127-402). -/
def sHmacsum (E : Environment) (C : Contexts M) (Y : SystemCalls) (S : Signals) (args : List (List Nat)) (W : WorldOf M) : Res (Fate M) :=
  pass S .begin { attached := false, abort := false, stdin := true, error := false, var := .null, out := [], err := [], world := W, handled := 0, reads := 0 } fun p =>
    if !E.localeOk then sOnError E C S { p with err := [.locale], error := true }
    else if outputInitialize 2 Y.bufferOut Y.bufferErr ≠ 1 then sOnError E C S { p with err := [.output], error := true }
    else pass S .parsing { p with out := [.version] } fun p => do
      let (q, arg) ← mParseOptions E.mc args ((args.map List.length).sum + 1) ⟨none, none, false⟩ optInit
      match q with
      | .invalid => sOnError E C S { p with out := [.version, .usage], err := [.invalidArgument arg] }
      | .help => pass S .told { p with out := [.version, .usage] } (leave true)
      | .version => pass S .told { p with out := [.version, .copyright] } (leave true)
      | .missing => sOnError E C S { p with out := [.version, .usage], err := [.missingSource] }
      | .run o source => sRunSource E C Y S o source p

end Model.Builds
