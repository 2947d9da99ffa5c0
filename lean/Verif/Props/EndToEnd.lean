import Verif.Props.Configure
import Verif.Props.BuildsSignal
import Verif.Props.MultiBuilds
import Verif.Props.PyText
/-! C84: from the configuration of the build to the digests that the library, hmacsum and the Python module give. -/

namespace Props

open Model Spec
open Model.Configure

/-- Configured with the options `o` on the system `S`, the build compiles the choice `ch k` for algorithm `k`. -/
def Configured (S : System) (o : BuildOptions) (ch : Kind → Choice) : Prop := ∃ s, configure S o = some s ∧ ∀ k, Matches (config S s) S.smallLong k (ch k)

/-- C84. Where configure ends well there is exactly one build; where it stops with an error there is none. -/
theorem C84_one_build (S : System) (o : BuildOptions) : ((configure S o).isSome = true ↔ ∃ ch, Configured S o ch) ∧ ∀ ch ch', Configured S o ch → Configured S o ch' → ch = ch' := by
  refine ⟨⟨fun h => ?_, fun ⟨_, _, h, _⟩ => by rw [h]; rfl⟩, ?_⟩
  · obtain ⟨s, h⟩ := Option.isSome_iff_exists.mp h
    obtain ⟨ch, hc, -⟩ := C83_coherent S o s h
    exact ⟨ch, s, h, hc⟩
  · rintro ch ch' ⟨s, h, hc⟩ ⟨s', h', hc'⟩
    rw [h] at h'
    cases h'
    obtain ⟨c, -, hu⟩ := C83_coherent S o s h
    exact funext fun k => (hu k _ (hc k)).trans (hu k _ (hc' k)).symm

/-- The build that is configured, and libraries that are right for what it takes from them. -/
theorem configured_build (S : System) (o : BuildOptions) (h : (configure S o).isSome = true) : ∃ ch, Configured S o ch := (C84_one_build S o).1.mp h

/-- C84. On every system and with all options: in the build that configure leads to, hmacsum is without undefined behaviour for any command line, and if it ends with status 0 and no help or version was asked for, it prints
the standard digests of the bytes of the file. The crypto library in use has to compute the standard functions when its calls succeed; any of its calls may fail. -/
theorem C84_hmacsum (S : System) (o : BuildOptions) (h : (configure S o).isSome = true) :
    ∃ ch, Configured S o ch ∧ ∀ L : Kind → Library, Correct ch L → ∀ E : Environment, EnvOk E → ∀ bodies : List (List Nat), bodies ≠ [] → (∀ b ∈ bodies, 0 ∉ b) → (∀ b ∈ bodies.drop 1, b ≠ [45]) →
      ∀ W : WorldOf (MixedMem L), ∃ x W', Builds.hmacsum E (.mixed ch L E.tool) (argVector bodies) W = .ok (x, W') ∧ (x.status = true → x.out = [.version, .usage] ∨ x.out = [.version, .copyright] ∨
        ∃ types source lines inp size, x.out = .version :: lines ∧ lines ≠ [] ∧ E.files source = some inp ∧ inp.size = some size ∧ size ≤ inp.content.length ∧
          (size < 2 ^ 61 → DigestLines types (inp.content.take size) lines)) := by
  obtain ⟨ch, hc⟩ := configured_build S o h
  refine ⟨ch, hc, fun L hL E hE bodies hne h0 hdash W => ?_⟩
  obtain ⟨x, W', -, e, hx, -⟩ := C73_any_command_line E hE hL bodies hne h0 hdash W
  exact ⟨x, W', e, hx⟩

/-- C84. Two builds, configured with any options on any two systems, print the same for the same file and options, if both end with status 0. -/
theorem C84_same_output (S S' : System) (o o' : BuildOptions) (h : (configure S o).isSome = true) (h' : (configure S' o').isSome = true) :
    ∃ ch ch', Configured S o ch ∧ Configured S' o' ch' ∧ ∀ L L' : Kind → Library, Correct ch L → Correct ch' L' → ∀ E E' : Environment, EnvOk E → EnvOk E' →
      ∀ (program program' : List Nat) (groups : List OptGroup) (source : List Nat) (rest rest' : List (List Nat)), SourceLine groups source →
      (∀ inp inp', E.files source = some inp → E'.files source = some inp' → inp.content = inp'.content ∧ inp.size = inp'.size ∧ inp.content.length < 2 ^ 61) →
      ∀ (W : WorldOf (MixedMem L)) (V : WorldOf (MixedMem L')), ∃ x y W' V', Builds.hmacsum E (.mixed ch L E.tool) (commandLine program groups (source :: rest)) W = .ok (x, W') ∧
        Builds.hmacsum E' (.mixed ch' L' E'.tool) (commandLine program' groups (source :: rest')) V = .ok (y, V') ∧ (x.status = true → y.status = true → x.out = y.out) := by
  obtain ⟨ch, hc⟩ := configured_build S o h
  obtain ⟨ch', hc'⟩ := configured_build S' o' h'
  refine ⟨ch, ch', hc, hc', fun L L' hL hL' E E' hE hE' program program' groups source rest rest' hl hfile W V => ?_⟩
  obtain ⟨x, W', ex, -⟩ := C73_success E hE hL program groups source rest hl W
  obtain ⟨y, V', ey, -⟩ := C73_success E' hE' hL' program' groups source rest' hl V
  exact ⟨x, y, W', V', ex, ey, fun hx hy => C73_same_output E E' hE hE' hL hL' program program' groups source rest rest' hl W V hfile x y W' V' ex ey hx hy⟩

/-- A configured choice of the direct functions has the `long` of the system. -/
theorem configured_direct {S : System} {o : BuildOptions} {ch : Kind → Choice} (hc : Configured S o ch) {k : Kind} {b : Bool} (h : ch k = .crypto (.direct b)) : b = S.smallLong := by
  obtain ⟨s, -, hm⟩ := hc
  have := hm k
  rw [h] at this
  exact this.2.2

/-- C84. hmacsum does print the digests: in the build that configure leads to, with a crypto library whose calls do not fail, memory and a file that can be read, for every buffer size, if the `long` of the system is as wide as
its `size_t`, or if OpenSSL is not used, or if it is OpenSSL 1.0 or later. -/
theorem C84_completes (S : System) (o : BuildOptions) (h : (configure S o).isSome = true)
    (hw : S.smallLong = false ∨ (o.openssl = .no ∨ o.sharedLibs = false ∨ o.staticExecutables = true) ∨ Wanted o ∧ (OpenSsl11 S ∨ OpenSsl10 S)) :
    ∃ ch, Configured S o ch ∧ ∀ L : Kind → Library, Correct ch L → (∀ k, ch k ≠ .builtin → Reliable (L k)) → ∀ E : Environment, EnvOk E → ∀ (program : List Nat) (groups : List OptGroup) (source : List Nat)
      (rest : List (List Nat)), SourceLine groups source → ∀ inp : Input, E.files source = some inp → inp.size = some inp.content.length → (∀ i, ∃ c, inp.reads i = some c ∧ 0 < c) → (∀ n, E.tool.alloc n = true) →
      E.closeOk = true ∧ E.freeOk = true ∧ E.splitOk = true ∧ E.splitFreeOk = true → E.arrival = .never → BufferArgument E.dp (lastArgument 112 (optionsOf groups)) → inp.content.length < 2 ^ 61 →
      ∀ W : WorldOf (MixedMem L), ∃ lines W', Builds.hmacsum E (.mixed ch L E.tool) (commandLine program groups (source :: rest)) W = .ok (⟨true, .version :: lines⟩, W') ∧
        DigestLines (lastArgument 100 (optionsOf groups)) inp.content lines := by
  obtain ⟨ch, hc⟩ := configured_build S o h
  have hd : ∀ k, ch k ≠ .crypto (.direct true) := by
    intro k hk
    have hu := fun c' (hc' : Configured S o c') => congrFun ((C84_one_build S o).2 _ _ hc hc') k
    rcases hw with hw | hw | ⟨hw, hv⟩
    · rw [← configured_direct hc hk] at hw
      cases hw
    · obtain ⟨s, hs, hm, -⟩ := C83_without_openssl S o hw
      have := hu (fun _ => .builtin) ⟨s, hs, hm⟩
      rw [hk] at this
      cases this
    · obtain ⟨s, hs, -, hm⟩ := C83_usual S o hw hv
      rcases hv with hv | hv
      · have := hu (fun _ => .crypto .evpAllocated) ⟨s, hs, fun k => (hm k).2.1 hv⟩
        rw [hk] at this
        cases this
      · have := hu (fun _ => .crypto .evpEmbedded) ⟨s, hs, fun k => (hm k).2.2 hv⟩
        rw [hk] at this
        cases this
  exact ⟨ch, hc, fun L hL hrel E hE program groups source rest hl inp hfile hsize hreads halloc hcalls harr hbuf hlen W =>
    C73_completes E hE hL hrel program groups source rest hl W inp hfile hsize hreads halloc hcalls harr hbuf (.inl hd) hlen⟩

/-- C84. The library itself: calls on any number of contexts of any algorithms in any order, in the build that configure leads to: no undefined behaviour, and what `finalize` delivers is the standard digest of what the context was
given. -/
theorem C84_contexts (S : System) (o : BuildOptions) (h : (configure S o).isSome = true) :
    ∃ ch, Configured S o ch ∧ ∀ L : Kind → Library, Correct ch L → ∀ T : Tool, (∀ k n, Kind.Junk k (T.scr k n)) → ∀ (kinds : Nat → Kind) (calls : List (Nat × ApiCall)), (∀ c ∈ calls, c.2.Valid) → ∀ m : MixedMem L, m.Wf →
      ∃ rs slots' m', Builds.multi (.mixed ch L T) kinds 0 calls (fun _ => none) m = .ok (rs, slots', m') ∧ rs.length = calls.length ∧
        ∀ j i out size r msg, calls[j]? = some (i, .finalize (some out) size) → rs[j]? = some r → r.code = 1 → accepted (historyOf i ((calls.zip rs).take j)) none = some msg → msg.length < 2 ^ 61 →
          r.out = some ((kinds i).std.digest msg ++ out.drop (kinds i).hashSize) := by
  obtain ⟨ch, hc⟩ := configured_build S o h
  exact ⟨ch, hc, fun L hL T hT kinds calls hv m hm => C75_no_wrong_digest hL T hT kinds calls hv m hm⟩

/-- C84. A Python program of any calls, in the build that configure leads to: no undefined behaviour, and the bytes that `finalize` returns are the standard digest of what the object was given. -/
theorem C84_python (S : System) (o : BuildOptions) (h : (configure S o).isSome = true) :
    ∃ ch, Configured S o ch ∧ ∀ L : Kind → Library, Correct ch L → ∀ (kinds : Nat → Kind) (u : Kind → Bool) (al : Nat → Bool) (prog : List (PyOp × PyEnv)), (∀ x ∈ prog, x.2.Ok) →
      ∀ st : PyState (MixedMem L), PyBuildStart st → ∃ rs st', PyBuilds.program (.mixed ch L u al) kinds prog st = .ok (rs, st') ∧ rs.length = prog.length ∧
        ∀ j i ok e d m, prog[j]? = some (.finalize i ok, e) → rs[j]? = some (.bytes d) → pyMessage i ((pyTrace prog rs).take j) = some m → m.length < 2 ^ 61 → d = (kinds i).std.digest m := by
  obtain ⟨ch, hc⟩ := configured_build S o h
  refine ⟨ch, hc, fun L hL kinds u al prog he st hs => ?_⟩
  obtain ⟨rs, st', -, e, hlen, -⟩ := C76_safe hL kinds u al prog st hs he
  exact ⟨rs, st', e, hlen, fun j i ok e' d m hj hr hm hl => (C76_no_wrong_digest hL kinds u al prog st hs he rs st' e j i ok e' hj d hr).2 m hm hl⟩

/-- C84. Interrupts at any moments, in the build that configure leads to: a digest that was printed is right. -/
theorem C84_interrupted (S : System) (o : BuildOptions) (h : (configure S o).isSome = true) :
    ∃ ch, Configured S o ch ∧ ∀ L : Kind → Library, Correct ch L → ∀ (E : Environment) (Y : SystemCalls) (I : Signals), StartOk E Y → ∀ (program : List Nat) (groups : List OptGroup) (source : List Nat) (rest : List (List Nat)),
      SourceLine groups source → ∀ (W : WorldOf (MixedMem L)) (f : Builds.Fate (MixedMem L)), Builds.sHmacsum E (.mixed ch L E.tool) Y I (commandLine program groups (source :: rest)) W = .ok f →
      ∀ k text, Line.digest k text ∈ printedOf f → ∃ inp size, E.files source = some inp ∧ inp.size = some size ∧ size ≤ inp.content.length ∧
        (size < 2 ^ 61 → Selected (lastArgument 100 (optionsOf groups)) k ∧ text = hex (k.std.digest (inp.content.take size))) := by
  obtain ⟨ch, hc⟩ := configured_build S o h
  exact ⟨ch, hc, fun L hL E Y I hE program groups source rest hl W f e k text hk => C81_no_wrong_digest E Y I hE hL program groups source rest hl W f e k text hk⟩

/-! ### Examples -/

/-- A system with 32-bit `long` and 64-bit `size_t` whose library has the functions of each algorithm only. -/
def llp64 : System := { openssl098 with smallLong := true }

theorem llp64_built : Configured llp64 noOptions (fun _ => .crypto (.direct true)) := by
  obtain ⟨s, h, -, hk⟩ := (C83_other_systems llp64 noOptions (by unfold Wanted; decide)).2 (.inr ⟨rfl, rfl⟩) (.inr ⟨rfl, rfl⟩) (by decide) (fun k => by cases k <;> exact ⟨rfl, rfl, rfl, rfl, rfl⟩)
  exact ⟨s, h, fun k => (hk k).1⟩

/-- There the condition of `C84_completes` on the system is needed: the context functions refuse an update of 4 GiB or more, whatever the library. (So does none of the other builds, C48.) -/
theorem C84_large_updates_refused : ∃ ch, Configured llp64 noOptions ch ∧ ∀ k, ∃ b, ch k = .crypto (.direct b) ∧ ∀ (L : Library) (p : Nat) (data : List Byte) (s : BSt L.State) (size : Nat), 2 ^ 32 ≤ size →
    bUpdate (.direct b) L (some p) (some data) size s = .ok (-1, s) :=
  ⟨_, llp64_built, fun _ => ⟨true, rfl, fun L p data s size h => C48_long_size L p data s size h⟩⟩

/-- Systems with OpenSSL 3, 1.0, 0.9.8: configure ends well. -/
theorem systems_configured : (configure openssl3 noOptions).isSome = true ∧ (configure openssl10 noOptions).isSome = true ∧ (configure llp64 noOptions).isSome = true :=
  ⟨by rw [cfg_configure]; decide, by rw [cfg_configure]; decide, (C84_one_build _ _).1.mpr ⟨_, llp64_built⟩⟩

/-- Libraries that are right, whatever is taken from them; calls may fail. -/
theorem failing_right (ch : Kind → Choice) : Correct ch failingLibrary := fun k _ => ⟨⟨_, failing_contract k⟩, fun _ st _ _ => ⟨k.std.digest st, std_digest_length k st, rfl⟩⟩

theorem exact_right (ch : Kind → Choice) : Correct ch exactLibrary := fun k _ => ⟨⟨_, exact_contract k⟩, exact_tame k⟩

example := (C84_hmacsum openssl3 noOptions systems_configured.1).imp fun ch h =>
  h.2 failingLibrary (failing_right ch) env1 env1_ok [codes "hmacsum", codes "-d", codes "sha224", codes "file"] (by simp) (by decide) (by decide) (mixed0 _)

example : ∃ ch, Configured openssl10 noOptions ch ∧ ∃ lines W', Builds.hmacsum env1 (.mixed ch exactLibrary env1.tool) (commandLine (codes "hmacsum") groups0 [codes "file"]) (mixed0 _) = .ok (⟨true, .version :: lines⟩, W') ∧
    DigestLines (some (codes "sha1")) input0.content lines := by
  have hlen : input0.content.length = 100000 := List.length_replicate
  obtain ⟨ch, hc, h⟩ := C84_completes openssl10 noOptions systems_configured.2.1 (.inl rfl)
  exact ⟨ch, hc, h exactLibrary (exact_right ch) (fun k _ => exact_reliable k) env1 env1_ok (codes "hmacsum") groups0 (codes "file") [] line1 input0 (by simp [env1]) (by rw [hlen]; rfl) (fun _ => ⟨1000, rfl, by decide⟩)
    (fun _ => rfl) ⟨rfl, rfl, rfl, rfl⟩ rfl ((usualSize1 (2 ^ 63) (by decide)).argument (by decide)) (by rw [hlen]; decide) (mixed0 _)⟩

example := (C84_same_output openssl3 llp64 noOptions noOptions systems_configured.1 systems_configured.2.2).imp fun ch => Exists.imp fun ch' h =>
  h.2.2 exactLibrary failingLibrary (exact_right ch) (failing_right ch') env1 env1 env1_ok env1_ok (codes "hmacsum") (codes "sum") groups0 (codes "file") [] [codes "x"] line1

example := (C84_contexts openssl3 noOptions systems_configured.1).imp fun ch h => h.2 failingLibrary (failing_right ch) tool0 tool0_ok.scr kinds1 calls2

example := (C84_python llp64 noOptions systems_configured.2.2).imp fun ch h => h.2 failingLibrary (failing_right ch) pyKinds0 (fun _ => true) (fun n => n != 3) pyProg0 pyProg0_ok (pyBuild0 _) (pyBuild0_start _)

example := (C84_interrupted openssl10 noOptions systems_configured.2.1).imp fun ch h =>
  h.2 failingLibrary (failing_right ch) env1 sysCalls1 (signalsAt [.read 3]) start1 (codes "hmacsum") groups0 (codes "file") [] line1 (mixed0 _)

end Props
