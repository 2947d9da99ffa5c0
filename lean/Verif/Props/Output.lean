import Verif.Proofs.Output
import Verif.Proofs.BackendOneShot
import Verif.Props.Signal
/-! C69: the characters that hmacsum writes on standard output, with a device that may fail. -/

namespace Props

open Model Spec

/-- The digests to tell for the file of a command line. -/
def Expected (E : Environment) (types : Option (List Nat)) (source : List Nat) (ds : List (Kind × List Byte)) : Prop :=
  ∃ inp size sel, E.files source = some inp ∧ inp.size = some size ∧ size ≤ inp.content.length ∧ (∀ k, sel k = true ↔ Selected types k) ∧
    ds = (printOrder.filter sel).map fun k => (k, k.std.digest (inp.content.take size))

/-- The file is not too long for the selected algorithms (C05). -/
def LengthsOk (E : Environment) (types : Option (List Nat)) (source : List Nat) : Prop :=
  ∀ inp size, E.files source = some inp → inp.size = some size → ∀ k, Selected types k → k.LengthOk size

/-- The lines for these digests, with the notice of an abort or without. -/
def sourceLines (ds : List (Kind × List Byte)) (ab : Bool) : List Line := .version :: (ds.map fun d => .digest d.1 (hex d.2)) ++ if ab then [.aborted] else []

/-- The lines printed for a source. -/
theorem source_lines {E : Environment} {C : SystemCalls} (hE : StartOk E C) (program : List Nat) (groups : List OptGroup) (source : List Nat) (rest : List (List Nat)) (hl : SourceLine groups source)
    (hlen : LengthsOk E (lastArgument 100 (optionsOf groups)) source) (W : World) (a : Arrival) :
    ∃ x W' ds ab, mHmacsum { E with arrival := a } C (commandLine program groups (source :: rest)) W = .ok (x, W') ∧
      x.exit.out = sourceLines ds ab ∧
      (ds = [] ∨ Expected E (lastArgument 100 (optionsOf groups)) source ds) ∧ (x.exit.status = true → ds ≠ [] ∧ ab = false) := by
  have hE' : EnvOk { E with arrival := a, outputOk := C.bufferOut && C.bufferErr } := ⟨hE.tool, hE.dp, hE.locale, by simp [hE.out, hE.err]⟩
  obtain ⟨x, W', extra, e, -, -, -, hr, -⟩ := runSource_ok hE'.tool hE'.dp
    ⟨lastArgument 100 (optionsOf groups), lastArgument 112 (optionsOf groups), (optionsOf groups).any (·.1 = 118)⟩ source [.version] W.blocks W (noneInv_start W)
  rw [← hmacsum_run hE' (parse_source E.mc program groups source rest hl)] at e
  have e' := C59_same_program { E with arrival := a } C (commandLine program groups (source :: rest)) W
  rw [e] at e'
  obtain ⟨⟨y, V⟩, e1, e2⟩ := Res.bind_eq_ok e'
  cases e2
  obtain ⟨ls, h1, h2, -, h4⟩ := hr.lines
  have hds : ∃ ds : List (Kind × List Byte), ls = (ds.map fun d => .digest d.1 (hex d.2)) ∧ (ds = [] ∨ Expected E (lastArgument 100 (optionsOf groups)) source ds) := by
    by_cases hn : ls = []
    · exact ⟨[], by simp [hn], .inl rfl⟩
    · obtain ⟨inp, size, h5, h6, h7, h8⟩ := h4 hn
      obtain ⟨sel, hsel, rfl⟩ := h8 (hlen inp size h5 h6)
      exact ⟨_, by rw [List.map_map]; rfl, .inr ⟨inp, size, sel, h5, h6, h7, hsel, rfl⟩⟩
  obtain ⟨ds, rfl, hds⟩ := hds
  rcases h1 with h1 | ⟨h1, h3, -⟩
  · exact ⟨y, V, ds, false, e1, by rw [h1]; simp [sourceLines], hds, fun h => ⟨fun hn => (h2 h).1 (by rw [hn]; rfl), rfl⟩⟩
  · exact ⟨y, V, ds, true, e1, by rw [h1]; simp [sourceLines], hds, fun h => absurd (h3.symm.trans h) (by decide)⟩

theorem texts_of (version : List Nat) (ds : List (Kind × List Byte)) (ab : Bool) :
    (sourceLines ds ab).map (lineText version) = (codes "hmacsum " ++ version ++ [10] ++ [10]) :: tailTexts ds ab := by
  cases ab <;> simp [sourceLines, lineText, tailTexts]

theorem simple_of (ds : List (Kind × List Byte)) (ab : Bool) : ∀ l ∈ sourceLines ds ab, Simple l := by
  intro l hl
  simp only [sourceLines, List.cons_append, List.mem_cons, List.mem_append, List.mem_map] at hl
  rcases hl with rfl | ⟨d, -, rfl⟩ | hl
  · trivial
  · trivial
  · cases ab
    · cases hl
    · have : l = .aborted := by simpa using hl
      rw [this]
      trivial

/-! ### When nothing is lost -/

/-- C69. Exit status 0 and a device that takes everything: the output is the version line, an empty line, and one line for each selected digest with its name and the digest of the file in hexadecimal, to the character. -/
theorem C69_output (E : Environment) (C : SystemCalls) (hE : StartOk E C) (T : Texts) (device : Nat → Option Nat) (hd : ∀ n, device n = none) (program : List Nat) (groups : List OptGroup) (source : List Nat)
    (rest : List (List Nat)) (hl : SourceLine groups source) (hlen : LengthsOk E (lastArgument 100 (optionsOf groups)) source) (W : World) (x : ExitM) (s : Stream) (W' : World)
    (h : bHmacsum E C T device (commandLine program groups (source :: rest)) W = .ok (x, s, W')) (hx : x.exit.status = true) :
    ∃ ds, Expected E (lastArgument 100 (optionsOf groups)) source ds ∧ s.written = outputText T.version ds := by
  obtain ⟨x', V, ds, ab, e, ho, hds, hs⟩ := source_lines hE program groups source rest hl hlen W E.arrival
  obtain ⟨⟨y, V'⟩, e1, h⟩ := Res.bind_eq_ok h
  obtain ⟨s', e2, h⟩ := Res.bind_eq_ok h
  cases h
  rw [e] at e1
  cases e1
  obtain ⟨hne, rfl⟩ := hs hx
  obtain ⟨s2, w, e3, hw, -, hall, -⟩ := printTexts_simple (T := T) device x.exit.out (by rw [ho]; exact simple_of ds false) ⟨[], 0⟩
  rw [show standardOutput T device x.exit.out = _ from e3] at e2
  cases e2
  refine ⟨ds, hds.resolve_left hne, ?_⟩
  rw [hw, hall hd, ho, texts_of]
  simp [outputText, tailTexts, List.flatMap_def]

/-- C69. So a reader finds exactly the selected digests, in the order MD5, SHA1, SHA224, SHA256, SHA512. -/
theorem C69_read (E : Environment) (C : SystemCalls) (hE : StartOk E C) (T : Texts) (hv : 10 ∉ T.version) (device : Nat → Option Nat) (hd : ∀ n, device n = none) (program : List Nat) (groups : List OptGroup)
    (source : List Nat) (rest : List (List Nat)) (hl : SourceLine groups source) (hlen : LengthsOk E (lastArgument 100 (optionsOf groups)) source) (W : World) (x : ExitM) (s : Stream) (W' : World)
    (h : bHmacsum E C T device (commandLine program groups (source :: rest)) W = .ok (x, s, W')) (hx : x.exit.status = true) :
    Expected E (lastArgument 100 (optionsOf groups)) source (readDigests s.written) := by
  obtain ⟨ds, h1, h2⟩ := C69_output E C hE T device hd program groups source rest hl hlen W x s W' h hx
  rw [h2, read_output hv]
  · exact h1
  · obtain ⟨inp, size, sel, -, -, -, -, rfl⟩ := h1
    intro d hd
    obtain ⟨k, -, rfl⟩ := List.mem_map.mp hd
    exact std_digest_length k _

/-- C69. The output does not depend on the name of the file, on the buffer size or on the other arguments: two successful runs that select the same digests on the same file write the same. -/
theorem C69_name (E : Environment) (C : SystemCalls) (hE : StartOk E C) (T : Texts) (device : Nat → Option Nat) (hd : ∀ n, device n = none) (program program' : List Nat) (groups groups' : List OptGroup)
    (source source' : List Nat) (rest rest' : List (List Nat)) (hl : SourceLine groups source) (hl' : SourceLine groups' source') (hlen : LengthsOk E (lastArgument 100 (optionsOf groups)) source)
    (hfile : E.files source = E.files source') (hsel : ∀ k, Selected (lastArgument 100 (optionsOf groups)) k ↔ Selected (lastArgument 100 (optionsOf groups')) k) (W V : World) (x x' : ExitM) (s s' : Stream) (W' V' : World)
    (h : bHmacsum E C T device (commandLine program groups (source :: rest)) W = .ok (x, s, W')) (hx : x.exit.status = true)
    (h' : bHmacsum E C T device (commandLine program' groups' (source' :: rest')) V = .ok (x', s', V')) (hx' : x'.exit.status = true) : s.written = s'.written := by
  obtain ⟨ds, ⟨inp, size, sel, a1, a2, -, a4, rfl⟩, h2⟩ := C69_output E C hE T device hd program groups source rest hl hlen W x s W' h hx
  have hlen' : LengthsOk E (lastArgument 100 (optionsOf groups')) source' := fun i z h1 h2 k hk => hlen i z (hfile.trans h1) h2 k ((hsel k).mpr hk)
  obtain ⟨ds, ⟨inp', size', sel', b1, b2, -, b4, rfl⟩, h2'⟩ := C69_output E C hE T device hd program' groups' source' rest' hl' hlen' V x' s' V' h' hx'
  rw [hfile, b1] at a1
  cases a1
  rw [b2] at a2
  cases a2
  have : sel = sel' := by
    funext k
    rw [Bool.eq_iff_iff, a4, b4, hsel]
  rw [h2, h2', this]

/-! ### Whatever is lost -/

/-- C69. However much of each write is lost, whatever signals arrive, and however the program ends: the digests that a reader finds in the output are right. They are some of the selected ones, in their order, and they are the
digests of the file. -/
theorem C69_trust (E : Environment) (C : SystemCalls) (hE : StartOk E C) (S : Signals) (T : Texts) (hv : 10 ∉ T.version) (device : Nat → Option Nat) (program : List Nat) (groups : List OptGroup) (source : List Nat)
    (rest : List (List Nat)) (hl : SourceLine groups source) (hlen : LengthsOk E (lastArgument 100 (optionsOf groups)) source) (W : World) (f : Fate) (s : Stream)
    (h : bsHmacsum E C S T device (commandLine program groups (source :: rest)) W = .ok (f, s)) (hr : readDigests s.written ≠ []) :
    ∃ ds, Expected E (lastArgument 100 (optionsOf groups)) source ds ∧ (readDigests s.written).Sublist ds := by
  obtain ⟨f', e, h⟩ := Res.bind_eq_ok h
  obtain ⟨s', e2, h⟩ := Res.bind_eq_ok h
  cases h
  have key : ∃ ds ab, f.lines <+: sourceLines ds ab ∧
      (ds = [] ∨ Expected E (lastArgument 100 (optionsOf groups)) source ds) := by
    cases f with
    | exited x q =>
      obtain ⟨a, ha⟩ := C68_outcome E C S _ W x q e
      obtain ⟨x', V, ds, ab, e1, ho, hds, -⟩ := source_lines hE program groups source rest hl hlen W a
      rw [ha] at e1
      cases e1
      exact ⟨ds, ab, by rw [← ho]; exact List.prefix_refl _, hds⟩
    | killed q =>
      obtain ⟨-, a, ha⟩ := C68_killed E C S _ W q e
      obtain ⟨x', V, ds, ab, e1, ho, hds, -⟩ := source_lines hE program groups source rest hl hlen W a
      exact ⟨ds, ab, by rw [← ho]; exact (ha x' V e1).1, hds⟩
  obtain ⟨ds, ab, ⟨more, hp⟩, hds⟩ := key
  obtain ⟨s2, w, e3, hw, hc, -⟩ := printTexts_simple (T := T) device f.lines (fun l hl => simple_of ds ab l (by rw [← hp]; simp [hl])) ⟨[], 0⟩
  rw [show standardOutput T device f.lines = _ from e3] at e2
  cases e2
  have hc := hc.extend (more.map (lineText T.version))
  rw [← List.map_append, hp, texts_of] at hc
  have hsub := read_cut hv ds hc
  rw [show s.written = w by rw [hw]; rfl] at hr ⊢
  refine ⟨ds, hds.resolve_left fun hn => hr ?_, hsub⟩
  rw [hn] at hsub
  exact List.sublist_nil.mp hsub

/-! ### Exit status and lost output -/

/-- C69, as a user would want it: exit status 0 means that the digests have been written. -/
def C69Statement : Prop := ∀ (E : Environment) (C : SystemCalls), StartOk E C → ∀ (T : Texts), 10 ∉ T.version → ∀ (device : Nat → Option Nat) (program : List Nat) (groups : List OptGroup) (source : List Nat)
  (rest : List (List Nat)), SourceLine groups source → LengthsOk E (lastArgument 100 (optionsOf groups)) source → ∀ (W : World) (x : ExitM) (s : Stream) (W' : World),
  bHmacsum E C T device (commandLine program groups (source :: rest)) W = .ok (x, s, W') → x.exit.status = true → Expected E (lastArgument 100 (optionsOf groups)) source (readDigests s.written)

/-- With a device that is full every run on a source that would succeed succeeds, and nothing is written: as with `hmacsum file > /dev/full`. -/
theorem C69_lost (E : Environment) (C : SystemCalls) (hE : StartOk E C) (T : Texts) (program : List Nat) (groups : List OptGroup) (source : List Nat) (rest : List (List Nat)) (hl : SourceLine groups source)
    (hlen : LengthsOk E (lastArgument 100 (optionsOf groups)) source) (W : World) (x : ExitM) (W' : World) (h : mHmacsum E C (commandLine program groups (source :: rest)) W = .ok (x, W')) :
    ∃ s, bHmacsum E C T (fun _ => some 0) (commandLine program groups (source :: rest)) W = .ok (x, s, W') ∧ s.written = [] := by
  obtain ⟨x', V, ds, ab, e, ho, -, -⟩ := source_lines hE program groups source rest hl hlen W E.arrival
  rw [show mHmacsum { E with arrival := E.arrival } C _ W = _ from h] at e
  cases e
  obtain ⟨s, w, e3, hw, -, -, h0⟩ := printTexts_simple (T := T) (fun _ => some 0) x.exit.out (by rw [ho]; exact simple_of ds ab) ⟨[], 0⟩
  refine ⟨s, ?_, by rw [hw, h0 fun _ => rfl]; rfl⟩
  unfold bHmacsum
  rw [h, Res.ok_bind]
  dsimp only
  rw [show standardOutput T _ x.exit.out = _ from e3]
  rfl

/-- Texts for the examples. -/
def texts1 : Texts := ⟨codes "20241028", codes "joachim.metz@gmail.com", id⟩

theorem lengths1 : LengthsOk env1 (lastArgument 100 (optionsOf groups0)) (codes "file") := by
  intro inp size h1 h2 k _
  have hlen : input0.content.length = 100000 := List.length_replicate
  have : inp = input0 := by
    have h3 : env1.files (codes "file") = some input0 := by simp [env1]
    rw [h3] at h1
    exact (Option.some.inj h1).symm
  subst this
  have : size = 100000 := by
    have h3 : input0.size = some 100000 := rfl
    rw [h3] at h2
    exact (Option.some.inj h2).symm
  subst this
  cases k <;> decide

theorem success1 : ∃ x W', mHmacsum env1 sysCalls1 (commandLine (codes "hmacsum") groups0 [codes "file"]) world0 = .ok (x, W') ∧ x.exit.status = true := by
  have hlen : input0.content.length = 100000 := List.length_replicate
  obtain ⟨lines, W', e, -⟩ := C59_silent env1 sysCalls1 start1 (codes "hmacsum") groups0 (codes "file") [] line1 world0 input0 (by simp [env1]) (by rw [hlen]; rfl) (fun _ => ⟨1000, rfl, by decide⟩)
    (fun _ => rfl) ⟨rfl, rfl, rfl, rfl⟩ ⟨rfl, rfl⟩ rfl usual1 (fun k _ => by rw [hlen]; cases k <;> decide)
  exact ⟨_, _, e, rfl⟩

theorem C69_statement_false : ¬ C69Statement := by
  intro h
  obtain ⟨x, W', e, hx⟩ := success1
  obtain ⟨s, e1, e2⟩ := C69_lost env1 sysCalls1 start1 texts1 (codes "hmacsum") groups0 (codes "file") [] line1 lengths1 world0 x W' e
  obtain ⟨inp, size, sel, -, -, -, h4, h5⟩ := h env1 sysCalls1 start1 texts1 (by decide) _ _ groups0 _ [] line1 lengths1 world0 x s W' e1 hx
  rw [e2] at h5
  have hm : (Kind.md5, Kind.md5.std.digest (inp.content.take size)) ∈ (printOrder.filter sel).map fun k => (k, k.std.digest (inp.content.take size)) :=
    List.mem_map.mpr ⟨.md5, List.mem_filter.mpr ⟨by decide, (h4 .md5).mpr (.inl rfl)⟩, rfl⟩
  rw [← h5] at hm
  cases hm

/-- What holds: if the device takes everything, exit status 0 means that a reader finds all digests. Missing: a device that fails; the program does not look at the results of its writes. -/
theorem C69_status_partial (E : Environment) (C : SystemCalls) (hE : StartOk E C) (T : Texts) (hv : 10 ∉ T.version) (device : Nat → Option Nat) (hd : ∀ n, device n = none) (program : List Nat) (groups : List OptGroup)
    (source : List Nat) (rest : List (List Nat)) (hl : SourceLine groups source) (hlen : LengthsOk E (lastArgument 100 (optionsOf groups)) source) (W : World) (x : ExitM) (s : Stream) (W' : World)
    (h : bHmacsum E C T device (commandLine program groups (source :: rest)) W = .ok (x, s, W')) (hx : x.exit.status = true) :
    ∀ k, Selected (lastArgument 100 (optionsOf groups)) k → ∃ d, (k, d) ∈ readDigests s.written := by
  obtain ⟨inp, size, sel, -, -, -, h4, h5⟩ := C69_read E C hE T hv device hd program groups source rest hl hlen W x s W' h hx
  intro k hk
  rw [h5]
  exact ⟨_, List.mem_map.mpr ⟨k, List.mem_filter.mpr ⟨by cases k <;> decide, (h4 k).mpr hk⟩, rfl⟩⟩

/-! ### The help text -/

theorem printText_plain (f : List Nat) (hf : 37 ∉ f) (s : Stream) : printText (fun _ => none) f [] s = .ok ((f.length : Int), ⟨s.written ++ f, s.calls + 1⟩) := by
  have : ∀ f, 37 ∉ f → formatText f [] = .ok f := fun f => by
    induction f with
    | nil => intro _; rfl
    | cons c f ih =>
      intro h
      unfold formatText
      rw [if_pos (fun e => h (by simp [e])), ih fun m => h (by simp [m])]
      rfl
  unfold printText
  rw [this f hf]
  rfl

theorem printTexts_plain (cs : List (List Nat × List (List Nat))) (h : ∀ c ∈ cs, c.2 = [] ∧ 37 ∉ c.1) (s : Stream) :
    printTexts (fun _ => none) cs s = .ok ⟨s.written ++ (cs.flatMap (·.1)), s.calls + cs.length⟩ := by
  induction cs generalizing s with
  | nil => simp [printTexts]
  | cons c cs ih =>
    obtain ⟨f, args⟩ := c
    obtain ⟨rfl, hf⟩ := h (f, args) (by simp)
    rw [printTexts, printText_plain f hf s, Res.ok_bind]
    dsimp only
    rw [ih (fun c hc => h c (by simp [hc]))]
    simp only [List.flatMap_cons, List.append_assoc, List.length_cons]
    rw [show s.calls + 1 + cs.length = s.calls + (cs.length + 1) by omega]

theorem usage_plain : ∀ c ∈ usageCalls, c.2 = [] ∧ 37 ∉ c.1 := by decide +kernel

/-- The complete lines of the help text. -/
def usageLines : List (List Nat) := completeLines [] (usageCalls.flatMap (·.1))

theorem helpOutput (T : Texts) : standardOutput T (fun _ => none) [.version, .usage] = .ok ⟨codes "hmacsum " ++ T.version ++ [10] ++ [10] ++ usageCalls.flatMap (·.1), 0 + 1 + usageCalls.length⟩ := by
  have hp := usage_plain
  unfold standardOutput
  simp only [List.flatMap_cons, List.flatMap_nil, List.append_nil, lineCalls]
  generalize usageCalls = u at hp ⊢
  simp only [versionCalls, List.singleton_append, printTexts]
  unfold printText
  rw [format_version, Res.ok_bind]
  exact printTexts_plain u hp _

theorem options_taken (c : Nat) : (∃ b, optionKind (codes "d:hp:vV") c = some b) ↔ c ∈ [100, 104, 112, 118, 86] := by
  have : codes "d:hp:vV" = [100, 58, 104, 112, 58, 118, 86] := by decide
  rw [this]
  simp only [optionKind, List.mem_cons, List.not_mem_nil, or_false]
  constructor
  · rintro ⟨b, h⟩
    repeat' (split at h)
    all_goals first | omega | cases h
  · rintro (rfl | rfl | rfl | rfl | rfl) <;> exact ⟨_, rfl⟩

theorem usage_options : (∀ line ∈ usageLines, [9, 45] <+: line → ∃ c ∈ [100, 104, 112, 118, 86], line[2]? = some c) ∧ ∀ c ∈ [100, 104, 112, 118, 86], ∃ line ∈ usageLines, [9, 45, c, 58] <+: line := by
  decide +kernel

/-- C69. The help text tells the options that the program takes, and no others: it has a line that begins with a tab, '-', the character and ':' exactly for the characters of the option string. -/
theorem C69_help (E : Environment) (C : SystemCalls) (hE : StartOk E C) (T : Texts) (hv : 10 ∉ T.version) (program : List Nat) (groups : List OptGroup) (hg : ∀ g ∈ groups, g.Ok (codes "d:hp:vV")) (rest : List (List Nat))
    (pre post : List (Nat × Option (List Nat))) (ho : optionsOf groups = pre ++ (104, none) :: post) (hpre : ∀ x ∈ pre, x.1 ≠ 104 ∧ x.1 ≠ 86) (W : World) :
    ∃ x s, bHmacsum E C T (fun _ => none) (commandLine program groups rest) W = .ok (x, s, W) ∧ x.exit.status = true ∧
      ∀ c, (∃ b, optionKind (codes "d:hp:vV") c = some b) ↔ ∃ line ∈ completeLines [] s.written, [9, 45, c, 58] <+: line := by
  have e := C50_help _ hE.envOk program groups hg rest pre post 104 ho hpre (.inl rfl) W
  have e' := C59_same_program E C (commandLine program groups rest) W
  rw [e] at e'
  obtain ⟨⟨y, V⟩, e1, e2⟩ := Res.bind_eq_ok e'
  have hy : y.exit = ⟨true, [.version, .usage]⟩ := congrArg (fun z => z.1) (Res.ok.inj e2)
  have hV : V = W := congrArg (fun z => z.2) (Res.ok.inj e2)
  subst hV
  have e3 : standardOutput T (fun _ => none) y.exit.out = .ok ⟨codes "hmacsum " ++ T.version ++ [10] ++ [10] ++ usageCalls.flatMap (·.1), 0 + 1 + usageCalls.length⟩ := by
    rw [hy]
    exact helpOutput T
  generalize hu : usageCalls.flatMap (·.1) = text at e3
  refine ⟨y, _, by unfold bHmacsum; rw [e1, Res.ok_bind]; dsimp only; rw [e3]; rfl, by rw [hy], fun c => ?_⟩
  dsimp only
  have hb : 10 ∉ codes "hmacsum " ++ T.version := by
    simp only [List.mem_append, not_or]
    exact ⟨by decide, hv⟩
  rw [show ∀ w, codes "hmacsum " ++ T.version ++ [10] ++ [10] ++ w = (codes "hmacsum " ++ T.version) ++ (10 :: 10 :: w) by simp, completeLines_append _ _ [] hb, completeLines, if_pos rfl, completeLines, if_pos rfl]
  obtain ⟨h2, h3⟩ := usage_options
  unfold usageLines at h2 h3
  rw [hu] at h2 h3
  rw [options_taken]
  constructor
  · intro hc
    obtain ⟨line, hl, hp⟩ := h3 c hc
    exact ⟨line, by simp only [List.mem_cons]; exact .inr (.inr hl), hp⟩
  · rintro ⟨line, hl, hp⟩
    simp only [List.mem_cons] at hl
    rcases hl with rfl | rfl | hl
    · exact absurd hp (by simp [codes])
    · exact absurd hp (by simp)
    · obtain ⟨c', hc', h4⟩ := h2 line hl (List.IsPrefix.trans (⟨[c, 58], rfl⟩ : [9, 45] <+: [9, 45, c, 58]) hp)
      obtain ⟨t, rfl⟩ := hp
      cases h4
      exact hc'

/-- The hypotheses of `C69_help` are met: `hmacsum -vh`. -/
example := C69_help env1 sysCalls1 start1 texts1 (by decide) (codes "hmacsum") [⟨[118, 104], none⟩] (by
  intro g hg
  rw [List.mem_singleton.mp hg]
  exact ⟨by simp, by decide, by simp⟩) [] [(118, none)] [] rfl (by decide) world0

/-! ### Examples -/

theorem successOutput1 (device : Nat → Option Nat) : ∃ x s W', bHmacsum env1 sysCalls1 texts1 device (commandLine (codes "hmacsum") groups0 [codes "file"]) world0 = .ok (x, s, W') ∧ x.exit.status = true := by
  obtain ⟨x, W', e, hx⟩ := success1
  obtain ⟨x', V, ds, ab, e', ho, -, -⟩ := source_lines start1 (codes "hmacsum") groups0 (codes "file") [] line1 lengths1 world0 env1.arrival
  rw [show mHmacsum { env1 with arrival := env1.arrival } _ _ _ = _ from e] at e'
  cases e'
  obtain ⟨s, w, e3, -⟩ := printTexts_simple (T := texts1) device x.exit.out (by rw [ho]; exact simple_of ds ab) ⟨[], 0⟩
  refine ⟨x, s, W', ?_, hx⟩
  unfold bHmacsum
  rw [e, Res.ok_bind]
  dsimp only
  rw [show standardOutput texts1 _ x.exit.out = _ from e3]
  rfl

/-- The hypotheses of `C69_output`, `C69_read` and `C69_status_partial` are met. -/
example := (successOutput1 fun _ => none).imp fun x => Exists.imp fun s => Exists.imp fun W' h =>
  And.intro (C69_output env1 sysCalls1 start1 texts1 _ (fun _ => rfl) (codes "hmacsum") groups0 (codes "file") [] line1 lengths1 world0 x s W' h.1 h.2)
    (C69_read env1 sysCalls1 start1 texts1 (by decide) _ (fun _ => rfl) (codes "hmacsum") groups0 (codes "file") [] line1 lengths1 world0 x s W' h.1 h.2)

/-- The hypotheses of `C69_trust` are met: the second line of the output is cut after 40 characters, and a signal arrives after the first read. The reader finds digests in texts that are cut like this. -/
example := fun f s => C69_trust env1 sysCalls1 start1 (signalsAt [.read 1]) texts1 (by decide) (fun n => if n = 1 then some 40 else none) (codes "hmacsum") groups0 (codes "file") [] line1 lengths1 world0 f s

example : readDigests (codes "hmacsum 20241028\n\nMD5 hash calculated over data:\t\t00112233SHA1 hash calculated over data:\t\t00112233445566778899aabbccddeeff00112233\nSHA1 hash calculated over data:\t\t00112233445566778899aabbccddeeff00112233\n") =
    [(.sha1, [0x00, 0x11, 0x22, 0x33, 0x44, 0x55, 0x66, 0x77, 0x88, 0x99, 0xaa, 0xbb, 0xcc, 0xdd, 0xee, 0xff, 0x00, 0x11, 0x22, 0x33])] := by decide +kernel

end Props
