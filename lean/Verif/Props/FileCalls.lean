import Verif.Proofs.FileCalls
import Verif.Props.HostBackend
/-! C94: hmacsum uses the file library as it is to be used, in every build and on every host. (The theorems with an arbitrary `C` hold for any implementation of the context functions.) -/

namespace Props

open Model Spec Configure
open Model.Builds (ExitF fHmacsum fErase FileTrace Processed readCalls)

variable {M : Type} {E : Environment} {C : Contexts M}

/-- C94. The program with its calls of the file library is the program of the other claims. -/
theorem C94_same (E : Environment) (C : Contexts M) (args : List (List Nat)) (W : WorldOf M) : (fHmacsum E C args W >>= fun y => pure (y.1.exit, y.2)) = Builds.hmacsum E C args W :=
  Builds.fHmacsum_erase args W

theorem fHmacsum_calls {args : List (List Nat)} {W W' : WorldOf M} {x : ExitF} (e : fHmacsum E C args W = .ok (x, W')) : x.calls = [] ∨ ∃ source, FileTrace E source x := by
  have none : ∀ {out : List Line} {V V' : WorldOf M} {y : ExitF}, Builds.fOnError E C out [] none V = .ok (y, V') → y.calls = [] := fun h => by
    rw [(Builds.fOnError_calls h).2]
    rfl
  unfold fHmacsum at e
  split at e
  · exact .inl (none e)
  split at e
  · exact .inl (none e)
  obtain ⟨p, -, e⟩ := Res.bind_eq_ok e
  cases p with
  | run o source => exact .inr ⟨source, Builds.fRunSource_calls e⟩
  | help => cases e; exact .inl rfl
  | version => cases e; exact .inl rfl
  | invalid => exact .inl (none e)
  | missing => exact .inl (none e)

theorem after_append (s : FileState) (a b : List FileCall) : s.after (a ++ b) = (s.after a).bind fun t => t.after b := by
  unfold FileState.after
  rw [List.foldlM_append]
  rfl

theorem after_reads : ∀ rs : List (Nat × Option Nat), FileState.opened.after (readCalls rs) = some .opened
  | [] => rfl
  | r :: rs => after_reads rs

theorem after_processed {inp : Input} {a : Nat → Bool} {size : Nat} {ok : Bool} {t : List FileCall} (h : Processed inp a size ok t) : FileState.opened.after t = some .opened := by
  rcases h.shape with rfl | ⟨rfl, -⟩ | ⟨n, rs, -, rfl, -⟩
  · rfl
  · rfl
  · exact after_reads rs

/-- C94. Whatever happens, each call is one that may be made (the size is asked for and bytes are read only with a file open, a file is opened at most once and only closed if it is open, the object is not used before it is created and after it is freed, and not
freed twice) and no object is left, open or not. The full claim is false in two cases, which are excluded or named here: a signal that arrives while the file cannot be opened (the file is then closed though it is not open), and a failure of the third allocation
(the object is not freed). -/
theorem C94_protocol_partial (E : Environment) (C : Contexts M) (args : List (List Nat)) (W W' : WorldOf M) (x : ExitF) (e : fHmacsum E C args W = .ok (x, W')) (hat : E.arrival.atOpen = true → ∀ source, E.files source ≠ none) :
    ∃ s, FileState.absent.after x.calls = some s ∧ (s = .absent ∨ s = .closed ∧ x.calls = [.create true] ∧ x.exit.status = false) := by
  rcases fHmacsum_calls e with h | ⟨source, h⟩
  · rw [h]
    exact ⟨_, rfl, .inl rfl⟩
  cases h with
  | start hx h =>
    rcases h with h | h | h <;> rw [h]
    · exact ⟨_, rfl, .inl rfl⟩
    · exact ⟨_, rfl, .inl rfl⟩
    · exact ⟨_, rfl, .inr ⟨rfl, rfl, hx⟩⟩
  | options hx h =>
    rw [h]
    exact ⟨_, rfl, .inl rfl⟩
  | noFile hf hx h =>
    rcases h with h | ⟨ha, h⟩
    · rw [h]
      exact ⟨_, rfl, .inl rfl⟩
    · exact absurd hf (hat ha source)
  | file inp size t hf hp h =>
    have key : FileState.absent.after (.create true :: .open source true :: t) = some .opened := after_processed hp
    rcases h with ⟨-, h⟩ | ⟨h, -⟩ <;> rw [h, after_append, key]
    · exact ⟨_, rfl, .inl rfl⟩
    · refine ⟨.absent, ?_, .inl rfl⟩
      cases E.closeOk <;> rfl

/-- C94. Without exception: if the file could be opened, the last call frees the object, so that the file is closed when the program ends. -/
theorem C94_closed (E : Environment) (C : Contexts M) (args : List (List Nat)) (W W' : WorldOf M) (x : ExitF) (e : fHmacsum E C args W = .ok (x, W')) (name : List Nat) (ho : FileCall.open name true ∈ x.calls) :
    ∃ before ok, x.calls = before ++ [.free ok] ∧ FileState.absent.after before ≠ none ∧ ∀ ok', FileCall.free ok' ∉ before := by
  rcases fHmacsum_calls e with h | ⟨source, h⟩
  · rw [h] at ho
    simp at ho
  cases h with
  | start hx h => rcases h with h | h | h <;> rw [h] at ho <;> simp at ho
  | options hx h => rw [h] at ho; simp at ho
  | noFile hf hx h => rcases h with h | ⟨ha, h⟩ <;> rw [h] at ho <;> simp at ho
  | file inp size t hf hp h =>
    have key : FileState.absent.after (.create true :: .open source true :: t) = some .opened := after_processed hp
    have hfree : ∀ ok', FileCall.free ok' ∉ t := by
      intro ok' hm
      rcases hp.shape with rfl | ⟨rfl, -⟩ | ⟨n, rs, -, rfl, -⟩ <;> simp [readCalls] at hm
    rcases h with ⟨-, h⟩ | ⟨h, -⟩
    · exact ⟨_, _, h, by rw [key]; simp, by simpa using hfree⟩
    · refine ⟨.create true :: .open source true :: t ++ [.close E.closeOk], E.freeOk, by rw [h]; simp, ?_, by simpa using hfree⟩
      rw [after_append, key]
      cases E.closeOk <;> decide

theorem readsOf_append (a b : List FileCall) : readsOf (a ++ b) = readsOf a ++ readsOf b := by
  induction a with
  | nil => rfl
  | cons c a ih => cases c <;> simp [readsOf, ih]

theorem readsOf_readCalls : ∀ rs : List (Nat × Option Nat), readsOf (readCalls rs) = rs
  | [] => rfl
  | r :: rs => by
    show (r.1, r.2) :: readsOf (readCalls rs) = _
    rw [readsOf_readCalls rs]

/-- C94. Whatever happens, bytes are read only from a file whose size is known, no read asks for bytes past this size or for none, and nothing is read after a failed or an empty read. So the reads end, also if the file grows. -/
theorem C94_reads (E : Environment) (C : Contexts M) (args : List (List Nat)) (W W' : WorldOf M) (x : ExitF) (e : fHmacsum E C args W = .ok (x, W')) :
    readsOf x.calls = [] ∨ ∃ source inp n, E.files source = some inp ∧ inp.size = some n ∧ FileCall.open source true ∈ x.calls ∧ FileCall.size (some n) ∈ x.calls ∧ ReadsWithin n (readsOf x.calls) := by
  rcases fHmacsum_calls e with h | ⟨source, h⟩
  · rw [h]
    exact .inl rfl
  cases h with
  | start hx h => rcases h with h | h | h <;> rw [h] <;> exact .inl rfl
  | options hx h => rw [h]; exact .inl rfl
  | noFile hf hx h => rcases h with h | ⟨ha, h⟩ <;> rw [h] <;> exact .inl rfl
  | file inp size t hf hp h =>
    have hr : readsOf x.calls = readsOf t := by
      rcases h with ⟨-, h⟩ | ⟨h, -⟩ <;> rw [h, readsOf_append] <;> simp [readsOf]
    have hsub : ∀ c ∈ FileCall.open source true :: t, c ∈ x.calls := by
      intro c hc
      rcases h with ⟨-, h⟩ | ⟨h, -⟩ <;> rw [h] <;> simp only [List.mem_append, List.mem_cons] at hc ⊢ <;> tauto
    rw [hr]
    rcases hp.shape with rfl | ⟨rfl, -⟩ | ⟨n, rs, hn, rfl, hw, -⟩
    · exact .inl rfl
    · exact .inl rfl
    · refine .inr ⟨source, inp, n, hf, hn, hsub _ (by simp), hsub _ (by simp), ?_⟩
      show ReadsWithin n (readsOf (readCalls rs))
      rw [readsOf_readCalls]
      exact hw

theorem success_trace {source : List Nat} {x : ExitF} (h : FileTrace E source x) (hx : x.exit.status = true) :
    ∃ inp n rs, E.files source = some inp ∧ inp.size = some n ∧ ReadsWithin n rs ∧ bytesRead rs = n ∧
      x.calls = .create true :: .open source true :: .size (some n) :: rs.map (fun r => .read r.1 r.2) ++ [.close true, .free true] := by
  cases h with
  | start hx' h => rw [hx] at hx'; cases hx'
  | options hx' h => rw [hx] at hx'; cases hx'
  | noFile hf hx' h => rw [hx] at hx'; cases hx'
  | file inp size t hf hp h =>
    rcases h with ⟨hx', -⟩ | ⟨h, hs⟩
    · rw [hx] at hx'; cases hx'
    obtain ⟨h1, h2, h3⟩ := hs hx
    obtain ⟨n, rs, hn, rfl, hw, hb⟩ := hp.whole hx
    refine ⟨inp, n, rs, hf, hn, hw, ?_, by rw [h, h1, h2]; rfl⟩
    rcases hb with hb | ⟨i, hi⟩
    · exact hb
    · exfalso
      revert hi h3
      cases E.arrival <;> simp [Arrival.atRead, Arrival.atFinal]

/-- C94. Success means: no file was touched (usage or copyright), or a file was opened, asked for its size, read completely in reads of which each gave something, closed without failure, and the object freed without failure. -/
theorem C94_success (E : Environment) (C : Contexts M) (args : List (List Nat)) (W W' : WorldOf M) (x : ExitF) (e : fHmacsum E C args W = .ok (x, W')) (hx : x.exit.status = true) :
    x.calls = [] ∨ ∃ source inp n rs, E.files source = some inp ∧ inp.size = some n ∧ ReadsWithin n rs ∧ bytesRead rs = n ∧
      x.calls = .create true :: .open source true :: .size (some n) :: rs.map (fun r => .read r.1 r.2) ++ [.close true, .free true] := by
  rcases fHmacsum_calls e with h | ⟨source, h⟩
  · exact .inl h
  · exact .inr ⟨source, success_trace h hx⟩

/-- C94. On a command line that names a source, success means that it is this file that was opened, and opened once, read completely and closed. -/
theorem C94_success_source (E : Environment) (hE : EnvOk E) (C : Contexts M) (program : List Nat) (groups : List OptGroup) (source : List Nat) (rest : List (List Nat)) (hl : SourceLine groups source) (W W' : WorldOf M) (x : ExitF)
    (e : fHmacsum E C (commandLine program groups (source :: rest)) W = .ok (x, W')) (hx : x.exit.status = true) :
    ∃ inp n rs, E.files source = some inp ∧ inp.size = some n ∧ ReadsWithin n rs ∧ bytesRead rs = n ∧
      x.calls = .create true :: .open source true :: .size (some n) :: rs.map (fun r => .read r.1 r.2) ++ [.close true, .free true] := by
  have hp := parse_source E.mc program groups source rest hl
  have : fHmacsum E C (commandLine program groups (source :: rest)) W = Builds.fRunSource E C ⟨lastArgument 100 (optionsOf groups), lastArgument 112 (optionsOf groups), (optionsOf groups).any (·.1 = 118)⟩ source [.version] W := by
    simp only [fHmacsum, hE.locale, hE.output, hp]
    rfl
  rw [this] at e
  exact success_trace (Builds.fRunSource_calls e) hx

/-- A signal arrives while the file is opened. -/
def envSignal : Environment := { env1 with arrival := .opening }

theorem envSignal_ok : EnvOk envSignal := ⟨tool0_ok, env1_ok.dp, rfl, rfl⟩

/-- The third allocation of the handle fails. -/
def envShort : Environment := { env1 with tool := { tool0 with alloc := fun n => n ≠ 6 } }

/-- C94, the full claim is false: with a signal while a file that does not exist is opened, it is closed though it is not open. -/
theorem C94_close_unopened : ∃ (x : ExitF) (W' : World), fHmacsum envSignal (.builtin envSignal.tool) (commandLine (codes "hmacsum") [] [codes "nofile"]) world0 = .ok (x, W') ∧
    x.calls = [.create true, .open (codes "nofile") false, .close true, .free true] ∧ FileState.absent.after x.calls = none := by
  refine ⟨_, _, rfl, ?_, ?_⟩ <;> decide +kernel

/-- C94, the full claim is false: if the memory for the MD5 string cannot be allocated, the object is not freed. -/
theorem C94_object_left : ∃ (x : ExitF) (W' : World), fHmacsum envShort (.builtin envShort.tool) (commandLine (codes "hmacsum") [] [codes "file"]) world0 = .ok (x, W') ∧
    x.calls = [.create true] ∧ FileState.absent.after x.calls = some .closed := by
  refine ⟨_, _, rfl, ?_, ?_⟩ <;> decide +kernel

/-- The program with its calls ends whenever the one without does. -/
theorem fHmacsum_of {args : List (List Nat)} {W W' : WorldOf M} {x : Exit} (e : Builds.hmacsum E C args W = .ok (x, W')) : ∃ calls, fHmacsum E C args W = .ok (⟨x, calls⟩, W') := by
  rw [← C94_same] at e
  obtain ⟨⟨⟨y, calls⟩, V⟩, e1, e⟩ := Res.bind_eq_ok e
  cases e
  exact ⟨calls, e1⟩

/-- C94. In every build with correct libraries, on hosts of 17 to 64 bits, for every command line: the program ends, and all of the above holds of its calls. -/
theorem C94_every_build {hb : Nat} {ch : Kind → Choice} {L : Kind → Library} (E : Environment) (hE : EnvOk E) (hL : Correct ch L) (h1 : 17 ≤ hb) (h2 : hb ≤ 64) (bodies : List (List Nat)) (hne : bodies ≠ []) (h0 : ∀ b ∈ bodies, 0 ∉ b)
    (hdash : ∀ b ∈ bodies.drop 1, b ≠ [45]) (W : WorldOf (MixedMem L)) (hat : E.arrival.atOpen = true → ∀ source, E.files source ≠ none) :
    ∃ x W', fHmacsum E (.mixedHost hb ch L E.tool) (argVector bodies) W = .ok (x, W') ∧ FileState.absent.after x.calls ≠ none ∧
      (x.exit.status = true → FileState.absent.after x.calls = some .absent) := by
  obtain ⟨x, W', extra, e, -⟩ := C85_any_command_line E hE hL h1 h2 bodies hne h0 hdash W
  obtain ⟨calls, e⟩ := fHmacsum_of e
  obtain ⟨s, hs, h⟩ := C94_protocol_partial E _ _ W W' _ e hat
  refine ⟨_, W', e, by rw [hs]; simp, fun hx => ?_⟩
  rcases h with rfl | ⟨-, -, h⟩
  · exact hs
  · rw [hx] at h
    cases h

/-- A run with a file, on a 32-bit host with a library that fails now and then. -/
example : ∃ x W', fHmacsum env1 (.mixedHost 32 choice0 failingLibrary env1.tool) (argVector [codes "hmacsum", codes "-d", codes "sha224", codes "file"]) (mixed0 _) = .ok (x, W') ∧ FileState.absent.after x.calls ≠ none ∧
    (x.exit.status = true → FileState.absent.after x.calls = some .absent) :=
  C94_every_build (hb := 32) env1 env1_ok failing_correct (by decide) (by decide) [codes "hmacsum", codes "-d", codes "sha224", codes "file"] (by simp) (by decide) (by decide) (mixed0 _) (fun h => by cases h)

/-- A run that succeeds: with a file of 100000 bytes. -/
example : ∃ x W' n rs, fHmacsum env1 (.mixedHost 32 (fun _ => .crypto .evpAllocated) exactLibrary env1.tool) (commandLine (codes "hmacsum") groups0 [codes "file"]) (mixed0 _) = .ok (x, W') ∧ bytesRead rs = n ∧
    x.calls = .create true :: .open (codes "file") true :: .size (some n) :: rs.map (fun r => .read r.1 r.2) ++ [.close true, .free true] := by
  have hlen : input0.content.length = 100000 := List.length_replicate
  obtain ⟨lines, W', e, sel, hsel, hlines⟩ := C85_completes (hb := 32) env1 env1_ok (exact_right (fun _ => .crypto .evpAllocated)) (by decide) (by decide) (fun k _ => exact_reliable k) (codes "hmacsum") groups0 (codes "file") [] line1 (mixed0 _)
    input0 rfl (by rw [hlen]; rfl) (fun _ => ⟨1000, rfl, by decide⟩) (fun _ => rfl) ⟨rfl, rfl, rfl, rfl⟩ rfl
    (fun s hs => ⟨46, [1], false, 2, true, .none, rfl, by decide, by
      rw [show lastArgument 112 (optionsOf groups0) = some (codes "1M") by decide] at hs
      cases hs
      decide, by decide, by decide, by decide⟩) (.inl fun _ h => by cases h) (by rw [hlen]; decide)
  obtain ⟨calls, e'⟩ := fHmacsum_of e
  obtain ⟨inp, n, rs, -, -, -, hb, hc⟩ := C94_success_source env1 env1_ok _ _ _ _ _ line1 _ W' _ e' rfl
  exact ⟨_, W', n, rs, e', hb, hc⟩

end Props
