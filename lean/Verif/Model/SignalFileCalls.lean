import Verif.Model.BuildsSignal
import Verif.Model.FileCalls
/-! The calls that hmacsum makes of libcfile, with signals at any moment: the functions of Model/BuildsSignal with the list of these calls, as in Model/FileCalls. The handler itself makes none: `sum_handle_signal_abort` only sets a flag (sum_handle.c:297-320).

Simplified: as in Model/BuildsSignal all of the reading is computed before the points of the reads are passed. So the list of a process that is killed while it reads may go on after the calls that it made; these are then the first ones of the list. -/

namespace Model.Builds

open Spec (Line FileCall)

variable {M : Type}

/-- `Builds.pass` (not code of /repo): a process that is killed calls nothing more. -/
def gPass (S : Signals) (pt : Point) (p : Proc M) (calls : List FileCall) (k : Proc M → Res (Fate M × List FileCall)) : Res (Fate M × List FileCall) := do
  let (dead, p) ← deliver S.resets (S.count pt) p
  if dead then pure (.killed p, calls) else k p

/-- `Builds.passReads` (sum_handle.c:1063-1120). -/
def gPassReads (S : Signals) (calls : List FileCall) : Nat → Nat → Proc M → (Proc M → Res (Fate M × List FileCall)) → Res (Fate M × List FileCall)
  | _, 0, p, k => k p
  | i, n + 1, p, k => gPass S (.read i) p calls fun p => gPassReads S calls (i + 1) n p k

/-- `Builds.passLines` (sum_handle.c:1657-1691). -/
def gPassLines (S : Signals) (calls : List FileCall) : Nat → List Line → Proc M → (Proc M → Res (Fate M × List FileCall)) → Res (Fate M × List FileCall)
  | i, [], p, k => gPass S (.printing i) p calls k
  | i, l :: ls, p, k => gPass S (.printing i) p calls fun p => gPassLines S calls (i + 1) ls { p with out := p.out ++ [l] } k

/-- `Builds.leave` (hmacsum.c:200, 216, 383, 385, 401). -/
def gLeave (status : Bool) (calls : List FileCall) (p : Proc M) : Res (Fate M × List FileCall) := .ok (.exited ⟨⟨status, p.out⟩, p.err⟩ p, calls)

/-- `Builds.sOnError` (hmacsum.c:387-401). -/
def gOnError (E : Environment) (C : Contexts M) (S : Signals) (calls : List FileCall) (p : Proc M) : Res (Fate M × List FileCall) :=
  gPass S .failing { p with error := false } calls fun p =>
    match p.var with
    | .null => gPass S .failed p calls (gLeave false calls)
    | .live h => do
      let (_, _, W) ← sumFree C E.freeOk (some h) p.world
      let calls := calls ++ freeCalls E.freeOk (some h)
      gPass S .releasing { p with var := .freed, world := W } calls fun p =>
        gPass S .failed { p with var := .null } calls (gLeave false calls)
    | .freed => .ub

/-- `Builds.sOnAbort` (hmacsum.c:343-385). -/
def gOnAbort (E : Environment) (C : Contexts M) (Y : SystemCalls) (S : Signals) (calls : List FileCall) (p : Proc M) : Res (Fate M × List FileCall) :=
  if closeInput E.closeOk ≠ 0 then gOnError E C S (calls ++ [.close E.closeOk]) { p with err := p.err ++ [.closeHandle], error := true }
  else gPass S .closing p (calls ++ [.close E.closeOk]) fun p =>
    gPass S .detached (if signalDetach Y.detach ≠ 1 then { p with err := p.err ++ [.detach], error := false } else { p with attached := false }) (calls ++ [.close E.closeOk]) fun p =>
      match p.var with
      | .live h => do
        let (r, _, W) ← sumFree C E.freeOk (some h) p.world
        let calls := calls ++ [.close E.closeOk] ++ freeCalls E.freeOk (some h)
        gPass S .freeing { p with var := .freed, world := W } calls fun p =>
          if r ≠ 1 then gOnError E C S calls { p with var := .null, err := p.err ++ [.freeHandle], error := true }
          else gPass S .ending { p with var := .null } calls fun p =>
            if p.abort then gPass S .last { p with out := p.out ++ [.aborted] } calls (gLeave false calls)
            else gPass S .last p calls (gLeave true calls)
      | _ => .ub

/-- `Builds.sProcessAndPrint` (hmacsum.c:316-342). -/
def gProcessAndPrint (E : Environment) (C : Contexts M) (Y : SystemCalls) (S : Signals) (inp : Input) (calls : List FileCall) (p : Proc M) : Res (Fate M × List FileCall) :=
  match p.var with
  | .live h => do
    let (r, h, W, calls) ← fProcessInput E.tool C inp (fun n => p.attached && (List.range (n + 1)).any fun k => 0 < S.count (.read k)) h p.world calls
    gPassReads S calls 0 (h.readCount + 1) { p with var := .live h, world := W, error := r ≠ 1, reads := h.readCount } fun p =>
      gPass S .processed p calls fun p =>
        if p.abort then gOnAbort E C Y S calls p
        else if r ≠ 1 then gOnError E C S calls { p with err := p.err ++ [.processInput] }
        else match p.var with
          | .live h => do
            let ds ← printHashes digestOrder h
            gPassLines S calls 0 (ds.map fun d => .digest d.1 d.2) p (gOnAbort E C Y S calls)
          | _ => .ub
  | _ => .ub

/-- `Builds.sOpenAndProcess` (hmacsum.c:299-315). -/
def gOpenAndProcess (E : Environment) (C : Contexts M) (Y : SystemCalls) (S : Signals) (source : List Nat) (calls : List FileCall) (p : Proc M) : Res (Fate M × List FileCall) :=
  match p.var with
  | .live h =>
    gPass S .opening { p with var := .live (openInput (E.files source).isSome h).2, error := (openInput (E.files source).isSome h).1 ≠ 1 } (calls ++ [.open source (E.files source).isSome]) fun p =>
      if p.abort then gOnAbort E C Y S (calls ++ [.open source (E.files source).isSome]) p
      else match E.files source with
        | none => gOnError E C S (calls ++ [.open source false]) { p with err := p.err ++ [.openInput] }
        | some inp => gProcessAndPrint E C Y S inp (calls ++ [.open source true]) p
  | _ => .ub

/-- `Builds.sRunSource` (hmacsum.c:232-401). -/
def gRunSource (E : Environment) (C : Contexts M) (Y : SystemCalls) (S : Signals) (o : Options) (source : List Nat) (p : Proc M) : Res (Fate M × List FileCall) :=
  gPass S .create p [] fun p => do
    let (r, slot, W, calls) ← fSumInitialize E.tool C none p.world
    if r ≠ 1 then gOnError E C S calls { p with world := W, var := Var.ofSlot slot, err := p.err ++ [.createHandle], error := true }
    else match slot with
      | none => .ub
      | some h => do
        let (ok, h, err) ← mApplyBufferSize E C o p.err h
        if !ok then gOnError E C S calls { p with world := W, var := .live h, err := err, error := true }
        else do
          let (ok, h, W, err) ← mApplyDigests E C o err h W
          if !ok then gOnError E C S calls { p with world := W, var := .live h, err := err, error := true }
          else gPass S .configured { p with world := W, var := .live h, err := err } calls fun p =>
            gOpenAndProcess E C Y S source calls (if signalAttach true Y.attach ≠ 1 then { p with err := p.err ++ [.attach] } else { p with attached := true })

/-- `Builds.sHmacsum` (hmacsum.c:127-402). -/
def gHmacsum (E : Environment) (C : Contexts M) (Y : SystemCalls) (S : Signals) (args : List (List Nat)) (W : WorldOf M) : Res (Fate M × List FileCall) :=
  gPass S .begin { attached := false, abort := false, stdin := true, error := false, var := .null, out := [], err := [], world := W, handled := 0, reads := 0 } [] fun p =>
    if !E.localeOk then gOnError E C S [] { p with err := [.locale], error := true }
    else if outputInitialize 2 Y.bufferOut Y.bufferErr ≠ 1 then gOnError E C S [] { p with err := [.output], error := true }
    else gPass S .parsing { p with out := [.version] } [] fun p => do
      let (q, arg) ← mParseOptions E.mc args ((args.map List.length).sum + 1) ⟨none, none, false⟩ optInit
      match q with
      | .invalid => gOnError E C S [] { p with out := [.version, .usage], err := [.invalidArgument arg] }
      | .help => gPass S .told { p with out := [.version, .usage] } [] (gLeave true [])
      | .version => gPass S .told { p with out := [.version, .copyright] } [] (gLeave true [])
      | .missing => gOnError E C S [] { p with out := [.version, .usage], err := [.missingSource] }
      | .run o source => gRunSource E C Y S o source p

end Model.Builds
