import Verif.Proofs.SignalFileCounts
import Verif.Props.FileCalls
/-! C94 with signals: hmacsum uses the file library as it is to be used, with any number of signals at any moments, in every build and on every host. -/

namespace Props

open Model Spec Configure
open Model.Builds (gHmacsum SignalTrace Closing Processed readCalls)

variable {M : Type} {E : Environment} {C : Contexts M} {Y : SystemCalls} {S : Signals}

/-- C94. The program with signals and with its calls of the file library is the program of C81. -/
theorem C94_signals_same (E : Environment) (C : Contexts M) (Y : SystemCalls) (S : Signals) (args : List (List Nat)) (W : WorldOf M) : (gHmacsum E C Y S args W >>= fun y => pure y.1) = Builds.sHmacsum E C Y S args W :=
  Builds.gHmacsum_erase args W

/-- The program with its calls ends whenever the one without does. -/
theorem gHmacsum_of {args : List (List Nat)} {W : WorldOf M} {f : Builds.Fate M} (e : Builds.sHmacsum E C Y S args W = .ok f) : ∃ calls, gHmacsum E C Y S args W = .ok (f, calls) := by
  rw [← C94_signals_same] at e
  obtain ⟨⟨g, calls⟩, e1, e⟩ := Res.bind_eq_ok e
  cases e
  exact ⟨calls, e1⟩

/-- The state after the calls of a run on a source. -/
theorem signalTrace_after {source : List Nat} {f : Builds.Fate M} {c : List FileCall} (h : SignalTrace E S source f c) (hat : 0 < S.count .opening → E.files source ≠ none) :
    ∃ s, FileState.absent.after c = some s ∧ ∀ x q, f = .exited x q → s = .absent ∨ s = .closed ∧ c = [.create true] ∧ x.exit.status = false := by
  have ended : ∀ {x q}, f = Builds.Fate.exited x q → ¬ f.ends → False := by
    rintro x q rfl h
    exact h trivial
  cases h with
  | start hf h =>
    rcases h with rfl | rfl | rfl
    · exact ⟨_, rfl, fun _ _ _ => .inl rfl⟩
    · exact ⟨_, rfl, fun _ _ _ => .inl rfl⟩
    · refine ⟨_, rfl, fun x q e => .inr ⟨rfl, rfl, ?_⟩⟩
      subst e
      exact Bool.eq_false_iff.mpr hf
  | options hf h =>
    subst h
    exact ⟨_, rfl, fun _ _ _ => .inl rfl⟩
  | noFile hn hf h =>
    rcases h with rfl | ⟨rfl, hk⟩ | ⟨ha, -⟩
    · exact ⟨_, rfl, fun _ _ _ => .inl rfl⟩
    · exact ⟨_, rfl, fun x q e => (ended e hk).elim⟩
    · exact absurd hn (hat ha)
  | file inp t u hf hp h hc hw =>
    subst h
    obtain ⟨a, size, ok, hp⟩ := hp
    have key : FileState.absent.after (.create true :: .open source true :: t) = some .opened := after_processed hp
    rw [after_append, key]
    rcases hc.1 with rfl | rfl | ⟨rfl | rfl, hk⟩
    · exact ⟨_, rfl, fun _ _ _ => .inl rfl⟩
    · refine ⟨.absent, ?_, fun _ _ _ => .inl rfl⟩
      cases E.closeOk <;> rfl
    · exact ⟨_, rfl, fun x q e => (ended e hk).elim⟩
    · cases E.closeOk
      · exact ⟨_, rfl, fun x q e => (ended e hk).elim⟩
      · exact ⟨_, rfl, fun x q e => (ended e hk).elim⟩

/-- C94. With any signals, also for a process that one of them kills (which makes the first calls of the list): each call is one that may be made. If the process ends by itself no object is left. The full claim is false in the same two cases as without signals,
which are excluded or named here: a signal while a file that cannot be opened is opened, and a failure of the third allocation. -/
theorem C94_signals_protocol_partial (E : Environment) (C : Contexts M) (Y : SystemCalls) (S : Signals) (args : List (List Nat)) (W : WorldOf M) (f : Builds.Fate M) (calls : List FileCall) (e : gHmacsum E C Y S args W = .ok (f, calls))
    (hat : 0 < S.count .opening → ∀ source, E.files source ≠ none) :
    (∀ made, made <+: calls → FileState.absent.after made ≠ none) ∧
      ∀ x q, f = .exited x q → FileState.absent.after calls = some .absent ∨ FileState.absent.after calls = some .closed ∧ calls = [.create true] ∧ x.exit.status = false := by
  have key : ∃ s, FileState.absent.after calls = some s ∧ ∀ x q, f = .exited x q → s = .absent ∨ s = .closed ∧ calls = [.create true] ∧ x.exit.status = false := by
    rcases Builds.gHmacsum_calls e with rfl | ⟨source, h⟩
    · exact ⟨_, rfl, fun _ _ _ => .inl rfl⟩
    · exact signalTrace_after h fun h => hat h source
  obtain ⟨s, hs, hx⟩ := key
  refine ⟨?_, fun x q e => ?_⟩
  · rintro made ⟨rest, rfl⟩ hn
    rw [after_append, hn] at hs
    cases hs
  · rcases hx x q e with rfl | ⟨rfl, h⟩
    · exact .inl hs
    · exact .inr ⟨hs, h⟩

/-- C94. With any signals, without exception: if the file could be opened and the process ends by itself, the last call frees the object, so that the file is closed. -/
theorem C94_signals_closed (E : Environment) (C : Contexts M) (Y : SystemCalls) (S : Signals) (args : List (List Nat)) (W : WorldOf M) (x : ExitM) (q : Builds.Proc M) (calls : List FileCall)
    (e : gHmacsum E C Y S args W = .ok (.exited x q, calls)) (name : List Nat) (ho : FileCall.open name true ∈ calls) :
    ∃ before ok, calls = before ++ [.free ok] ∧ FileState.absent.after before ≠ none ∧ ∀ ok', FileCall.free ok' ∉ before := by
  rcases Builds.gHmacsum_calls e with rfl | ⟨source, h⟩
  · simp at ho
  cases h with
  | start hf h => rcases h with rfl | rfl | rfl <;> simp at ho
  | options hf h => subst h; simp at ho
  | noFile hn hf h => rcases h with rfl | ⟨rfl, -⟩ | ⟨-, rfl | ⟨rfl, -⟩⟩ <;> simp at ho
  | file inp t u hf hp h hc hw =>
    obtain ⟨a, size, ok, hp⟩ := hp
    have key : FileState.absent.after (.create true :: .open source true :: t) = some .opened := after_processed hp
    have hfree : ∀ ok', FileCall.free ok' ∉ t := by
      intro ok' hm
      rcases hp.shape with rfl | ⟨rfl, -⟩ | ⟨n, rs, -, rfl, -⟩ <;> simp [readCalls] at hm
    rcases hc.1 with rfl | rfl | ⟨-, hk⟩
    · exact ⟨_, _, h, by rw [key]; simp, by simpa using hfree⟩
    · refine ⟨.create true :: .open source true :: t ++ [.close E.closeOk], E.freeOk, by rw [h]; simp, ?_, by simpa using hfree⟩
      rw [after_append, key]
      cases E.closeOk <;> decide
    · exact absurd trivial hk

/-- C94. With any signals: bytes are read only from a file whose size is known, no read asks for bytes past this size or for none, and nothing is read after a failed or an empty read. -/
theorem C94_signals_reads (E : Environment) (C : Contexts M) (Y : SystemCalls) (S : Signals) (args : List (List Nat)) (W : WorldOf M) (f : Builds.Fate M) (calls : List FileCall) (e : gHmacsum E C Y S args W = .ok (f, calls)) :
    readsOf calls = [] ∨ ∃ source inp n, E.files source = some inp ∧ inp.size = some n ∧ FileCall.open source true ∈ calls ∧ FileCall.size (some n) ∈ calls ∧ ReadsWithin n (readsOf calls) := by
  rcases Builds.gHmacsum_calls e with rfl | ⟨source, h⟩
  · exact .inl rfl
  cases h with
  | start hf h => rcases h with rfl | rfl | rfl <;> exact .inl rfl
  | options hf h => subst h; exact .inl rfl
  | noFile hn hf h => rcases h with rfl | ⟨rfl, -⟩ | ⟨-, rfl | ⟨rfl, -⟩⟩ <;> exact .inl rfl
  | file inp t u hf hp h hc hw =>
    obtain ⟨a, size, ok, hp⟩ := hp
    have hu : readsOf u = [] := by
      rcases hc.1 with rfl | rfl | ⟨rfl | rfl, -⟩ <;> rfl
    have hr : readsOf calls = readsOf t := by
      rw [h, readsOf_append, hu, List.append_nil]
      rfl
    rw [hr]
    rcases hp.shape with rfl | ⟨rfl, -⟩ | ⟨n, rs, hn, rfl, hww, -⟩
    · exact .inl rfl
    · exact .inl rfl
    · refine .inr ⟨source, inp, n, hf, hn, by rw [h]; simp, by rw [h]; simp, ?_⟩
      show ReadsWithin n (readsOf (readCalls rs))
      rw [readsOf_readCalls]
      exact hww

theorem success_signalTrace {source : List Nat} {f : Builds.Fate M} {calls : List FileCall} (h : SignalTrace E S source f calls) (hx : f.succeeds) :
    ∃ inp n rs, E.files source = some inp ∧ inp.size = some n ∧ ReadsWithin n rs ∧ bytesRead rs = n ∧
      calls = .create true :: .open source true :: .size (some n) :: rs.map (fun r => .read r.1 r.2) ++ [.close true, .free true] := by
  cases h with
  | start hf h => exact absurd hx hf
  | options hf h => exact absurd hx hf
  | noFile hn hf h => exact absurd hx hf
  | file inp t u hf hp h hc hw =>
    obtain ⟨n, rs, h1, h2, h3, h4⟩ := hw hx
    exact ⟨inp, n, rs, hf, h1, h3, h4, by rw [h, h2, hc.2 hx]; rfl⟩

/-- C94. With any signals, success means: no file was touched (usage or copyright), or a file was opened, asked for its size, read completely, closed without failure, and the object freed without failure. So no signal ever makes the program succeed on part of a
file. -/
theorem C94_signals_success (E : Environment) (C : Contexts M) (Y : SystemCalls) (S : Signals) (args : List (List Nat)) (W : WorldOf M) (x : ExitM) (q : Builds.Proc M) (calls : List FileCall)
    (e : gHmacsum E C Y S args W = .ok (.exited x q, calls)) (hx : x.exit.status = true) :
    calls = [] ∨ ∃ source inp n rs, E.files source = some inp ∧ inp.size = some n ∧ ReadsWithin n rs ∧ bytesRead rs = n ∧
      calls = .create true :: .open source true :: .size (some n) :: rs.map (fun r => .read r.1 r.2) ++ [.close true, .free true] := by
  rcases Builds.gHmacsum_calls e with h | ⟨source, h⟩
  · exact .inl h
  · exact .inr ⟨source, success_signalTrace h hx⟩

/-- C94. With any signals, on a command line that names a source, success means that it is this file that was opened, and opened once, read completely and closed. -/
theorem C94_signals_success_source (E : Environment) (C : Contexts M) (Y : SystemCalls) (S : Signals) (program : List Nat) (groups : List OptGroup) (source : List Nat) (rest : List (List Nat)) (hl : SourceLine groups source) (W : WorldOf M)
    (x : ExitM) (q : Builds.Proc M) (calls : List FileCall) (e : gHmacsum E C Y S (commandLine program groups (source :: rest)) W = .ok (.exited x q, calls)) (hx : x.exit.status = true) :
    ∃ inp n rs, E.files source = some inp ∧ inp.size = some n ∧ ReadsWithin n rs ∧ bytesRead rs = n ∧
      calls = .create true :: .open source true :: .size (some n) :: rs.map (fun r => .read r.1 r.2) ++ [.close true, .free true] := by
  obtain ⟨arg, hp⟩ := mParse_of (parse_source E.mc program groups source rest hl)
  exact success_signalTrace (Builds.gHmacsum_source e hx hp) hx

/-- C94. A signal that arrives while the n-th read is made: if the process ends by itself, the file library is not asked for bytes again after that read. -/
theorem C94_signals_prompt (E : Environment) (C : Contexts M) (Y : SystemCalls) (S : Signals) (n : Nat) (hn : 0 < S.count (.read n)) (args : List (List Nat)) (W : WorldOf M) (x : ExitM) (q : Builds.Proc M) (calls : List FileCall)
    (e : gHmacsum E C Y S args W = .ok (.exited x q, calls)) : (readsOf calls).length = q.reads ∧ (readsOf calls).length ≤ max n 1 := by
  have hc : q.reads = (readsOf calls).length := Builds.gHmacsum_counted e x q rfl
  have h : Builds.sHmacsum E C Y S args W = .ok (.exited x q) := by
    rw [← C94_signals_same, e]
    rfl
  exact ⟨hc.symm, hc ▸ C81_prompt E C Y S n hn args W x q h⟩

/-- C94, the full claim is false with signals, too: in every build, a signal while a file that does not exist is opened. -/
theorem C94_signals_close_unopened (ch : Kind → Choice) (L : Kind → Library) : ∃ f calls, gHmacsum env1 (.mixed ch L env1.tool) sysCalls1 (signalsAt [.opening]) (argVector [codes "hmacsum", codes "absent"]) (mixed0 L) = .ok (f, calls) ∧
    calls = [.create true, .open (codes "absent") false, .close true, .free true] ∧ FileState.absent.after calls = none := ⟨_, _, rfl, rfl, rfl⟩

/-- C94. In every build with correct libraries, on hosts of 17 to 64 bits, for every command line and any signals: the process ends or is killed, and each of its calls may be made; if it exits with success no object is left. Excluded, as the code has undefined
behaviour there (C81), are signals between the release of the handle and the clearing of the pointer to it, and as before a signal while a file that cannot be opened is opened. -/
theorem C94_signals_every_build_partial {hb : Nat} {ch : Kind → Choice} {L : Kind → Library} (E : Environment) (Y : SystemCalls) (S : Signals) (hT : E.tool.Ok) (hdp : E.dp ≠ some 0) (hL : Correct ch L) (h1 : 17 ≤ hb) (h2 : hb ≤ 64)
    (hrel : S.count .releasing = 0) (hfree : Y.detach = true ∨ S.count .freeing = 0) (bodies : List (List Nat)) (hne : bodies ≠ []) (h0 : ∀ b ∈ bodies, 0 ∉ b) (hdash : ∀ b ∈ bodies.drop 1, b ≠ [45]) (W : WorldOf (MixedMem L))
    (hat : 0 < S.count .opening → ∀ source, E.files source ≠ none) :
    ∃ f calls, gHmacsum E (.mixedHost hb ch L E.tool) Y S (argVector bodies) W = .ok (f, calls) ∧ (∀ made, made <+: calls → FileState.absent.after made ≠ none) ∧
      ∀ x q, f = .exited x q → x.exit.status = true → FileState.absent.after calls = some .absent := by
  obtain ⟨f, h⟩ := C81_safe_mixed_host_partial (hb := hb) E Y S hT hdp hL h1 h2 hrel hfree bodies hne h0 hdash W
  obtain ⟨calls, e⟩ := gHmacsum_of h
  obtain ⟨a, b⟩ := C94_signals_protocol_partial _ _ _ _ _ _ f calls e hat
  refine ⟨f, calls, e, a, fun x q hf hx => ?_⟩
  rcases b x q hf with b | ⟨-, -, b⟩
  · exact b
  · rw [hx] at b
    cases b

/-- Signals while the file is opened, read and printed, on a 32-bit host with a library that fails now and then: files exist. -/
example : ∃ f calls, gHmacsum { env1 with files := fun _ => some input0 } (.mixedHost 32 choice0 failingLibrary env1.tool) sysCalls1 (signalsAt [.opening, .read 3, .printing 1]) (argVector [codes "hmacsum", codes "file"]) (mixed0 _) = .ok (f, calls) ∧
    (∀ made, made <+: calls → FileState.absent.after made ≠ none) ∧ ∀ x q, f = .exited x q → x.exit.status = true → FileState.absent.after calls = some .absent :=
  C94_signals_every_build_partial (hb := 32) { env1 with files := fun _ => some input0 } sysCalls1 (signalsAt [.opening, .read 3, .printing 1]) tool0_ok (by decide) failing_correct (by decide) (by decide) rfl (.inl rfl) [codes "hmacsum", codes "file"]
    (by simp) (by decide) (by decide) (mixed0 _) (fun _ _ h => by cases h)

/-- A signal before the file is opened, when the handler is not yet attached: the process is killed, and the object has been created. -/
example : ∃ q, gHmacsum env1 (.mixed choice0 failingLibrary env1.tool) sysCalls1 (signalsAt [.configured]) (argVector [codes "hmacsum", codes "file"]) (mixed0 _) = .ok (.killed q, [.create true]) := ⟨_, rfl⟩

/-- C94_signals_prompt: a signal during the third read of a file of 100000 bytes. -/
example : ∃ x q calls, gHmacsum env1 (.mixed choice0 failingLibrary env1.tool) sysCalls1 (signalsAt [.read 3]) (commandLine (codes "hmacsum") [⟨[], some (112, codes "4096", true)⟩] [codes "file"]) (mixed0 _) = .ok (.exited x q, calls) ∧
    (readsOf calls).length ≤ 3 := by
  obtain ⟨x, q, e, -⟩ := C81_interrupted env1 sysCalls1 (signalsAt [.read 3]) start1 failing_correct rfl rfl (fun pt h => by
    cases pt <;> first | (exact .inr (.inl ⟨_, rfl⟩)) | (exact .inr (.inr (.inr (.inl ⟨_, rfl⟩)))) | (exact absurd h (by decide)))
    (codes "hmacsum") [⟨[], some (112, codes "4096", true)⟩] (codes "file") [] lineP (mixed0 _) (.inr (.inr (.inr (.inr (.inr ⟨2, input0, 100000, 4096, by decide, .inr ⟨46, [4, 0, 9, 6], false, 0, false, .none, rfl, by decide, rfl, by decide, by decide, rfl⟩, by simp [env1], rfl, by decide⟩)))))
  obtain ⟨calls, e⟩ := gHmacsum_of e
  exact ⟨x, q, calls, e, (C94_signals_prompt _ _ _ _ 3 (by decide) _ _ x q calls e).2⟩

/-- A run that succeeds, on a file of 100000 bytes. -/
example : ∃ x q n rs, gHmacsum env1 (.mixed choice0 exactLibrary env1.tool) sysCalls1 (signalsAt []) (commandLine (codes "hmacsum") groups0 [codes "file"]) (mixed0 _) =
    .ok (.exited x q, .create true :: .open (codes "file") true :: .size (some n) :: rs.map (fun r => .read r.1 r.2) ++ [.close true, .free true]) ∧ bytesRead rs = n := by
  obtain ⟨x, q, h, hx⟩ := quiet1_builds
  obtain ⟨calls, e⟩ := gHmacsum_of h
  obtain ⟨inp, n, rs, -, -, -, hb, rfl⟩ := C94_signals_success_source env1 _ sysCalls1 _ _ _ _ _ line1 _ x q calls e hx
  exact ⟨x, q, n, rs, e, hb⟩

end Props
