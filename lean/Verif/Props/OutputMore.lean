import Verif.Props.Output
/-! C69: what is written by a program that is disturbed by signals, and the text of -V. -/

namespace Props

open Model Spec

/-- A beginning of the lines for a source. -/
theorem sourceLines_prefix {l : List Line} {ds : List (Kind × List Byte)} {ab : Bool} (h : l <+: sourceLines ds ab) :
    l = [] ∨ ∃ ds' ab', l = sourceLines ds' ab' ∧ ds' <+: ds ∧ (ab' = true → ab = true) := by
  cases l with
  | nil => exact .inl rfl
  | cons a l =>
    right
    have hs : sourceLines ds ab = .version :: ((ds.map fun d => .digest d.1 (hex d.2)) ++ if ab then [.aborted] else []) := rfl
    rw [hs, List.cons_prefix_cons] at h
    obtain ⟨rfl, h⟩ := h
    have key : ∀ (ds : List (Kind × List Byte)) (l : List Line), l <+: ((ds.map fun d => Line.digest d.1 (hex d.2)) ++ if ab then [.aborted] else []) →
        ∃ ds' ab', l = ((ds'.map fun d => Line.digest d.1 (hex d.2)) ++ if ab' then [.aborted] else []) ∧ ds' <+: ds ∧ (ab' = true → ab = true) := by
      intro ds
      induction ds with
      | nil =>
        intro l h
        cases l with
        | nil => exact ⟨[], false, rfl, List.prefix_refl _, fun h => by cases h⟩
        | cons a l =>
          cases hab : ab with
          | false =>
            rw [hab] at h
            exact absurd (List.prefix_nil.mp h) (by simp)
          | true =>
            rw [hab] at h
            obtain ⟨rfl, h'⟩ := List.cons_prefix_cons.mp (show a :: l <+: [Line.aborted] from h)
            cases List.prefix_nil.mp h'
            exact ⟨[], true, rfl, List.prefix_refl _, fun _ => rfl⟩
      | cons d ds ih =>
        intro l h
        cases l with
        | nil => exact ⟨[], false, rfl, List.nil_prefix, fun h => by cases h⟩
        | cons a l =>
          rw [List.map_cons, List.cons_append, List.cons_prefix_cons] at h
          obtain ⟨rfl, h⟩ := h
          obtain ⟨ds', ab', rfl, h2, h3⟩ := ih l h
          exact ⟨d :: ds', ab', rfl, List.cons_prefix_cons.mpr ⟨rfl, h2⟩, h3⟩
    obtain ⟨ds', ab', rfl, h2, h3⟩ := key ds l h
    exact ⟨ds', ab', rfl, h2, h3⟩

/-- The lines that a program prints for a source are a beginning of those of a regular run. -/
theorem fate_lines {E : Environment} {C : SystemCalls} (hE : StartOk E C) {S : Signals} {program : List Nat} {groups : List OptGroup} {source : List Nat} {rest : List (List Nat)} (hl : SourceLine groups source)
    (hlen : LengthsOk E (lastArgument 100 (optionsOf groups)) source) {W : World} {f : Fate} (e : sHmacsum E C S (commandLine program groups (source :: rest)) W = .ok f) :
    ∃ ds ab, f.lines <+: sourceLines ds ab ∧ (ds = [] ∨ Expected E (lastArgument 100 (optionsOf groups)) source ds) := by
  cases f with
  | exited x q =>
    obtain ⟨a, ha⟩ := C68_outcome E C S _ W x q e
    obtain ⟨x', V, ds, ab, e1, ho, hds, -⟩ := source_lines hE program groups source rest hl hlen W a
    rw [ha] at e1
    cases e1
    exact ⟨ds, ab, by rw [← ho]; exact List.prefix_refl _, hds⟩
  | killed q =>
    obtain ⟨-, a, ha⟩ := C68_killed E C S _ W q e
    obtain ⟨x', V, ds, ab, e1, ho, hds, -⟩ := source_lines hE program groups source rest hl hlen W a
    exact ⟨ds, ab, by rw [← ho]; exact (ha x' V e1).1, hds⟩

/-- C69. Printing ends without undefined behaviour, whatever the device does, and does not change how the program ends. -/
theorem C69_printing (E : Environment) (C : SystemCalls) (hE : StartOk E C) (S : Signals) (T : Texts) (device : Nat → Option Nat) (program : List Nat) (groups : List OptGroup) (source : List Nat)
    (rest : List (List Nat)) (hl : SourceLine groups source) (hlen : LengthsOk E (lastArgument 100 (optionsOf groups)) source) (W : World) (f : Fate)
    (h : sHmacsum E C S (commandLine program groups (source :: rest)) W = .ok f) : ∃ s, bsHmacsum E C S T device (commandLine program groups (source :: rest)) W = .ok (f, s) := by
  obtain ⟨ds, ab, ⟨more, hp⟩, -⟩ := fate_lines hE hl hlen h
  obtain ⟨s, w, e3, -⟩ := printTexts_simple (T := T) device f.lines (fun l hl => simple_of ds ab l (by rw [← hp]; simp [hl])) ⟨[], 0⟩
  refine ⟨s, ?_⟩
  unfold bsHmacsum
  rw [h, Res.ok_bind, show standardOutput T device f.lines = _ from e3]
  rfl

/-- C69. Whatever signals arrive: a program that is given a source and whose device takes everything has written nothing (it was killed before), or the version line, an empty line, the lines of the first of the selected
digests of the file (of none, of some, or of all), and after them, if the program was aborted, the notice; just the lines that were printed. -/
theorem C69_printed (E : Environment) (C : SystemCalls) (hE : StartOk E C) (S : Signals) (T : Texts) (device : Nat → Option Nat) (hd : ∀ n, device n = none) (program : List Nat) (groups : List OptGroup)
    (source : List Nat) (rest : List (List Nat)) (hl : SourceLine groups source) (hlen : LengthsOk E (lastArgument 100 (optionsOf groups)) source) (W : World) (f : Fate) (s : Stream)
    (h : bsHmacsum E C S T device (commandLine program groups (source :: rest)) W = .ok (f, s)) :
    (printed f = [] ∧ s.written = []) ∨ ∃ ds ab, printed f = sourceLines ds ab ∧ s.written = outputText T.version ds ++ (if ab then codes "hmacsum: ABORTED\n" else []) ∧
      (ds = [] ∨ ∃ all, Expected E (lastArgument 100 (optionsOf groups)) source all ∧ ds <+: all) := by
  obtain ⟨f', e, h⟩ := Res.bind_eq_ok h
  obtain ⟨s', e2, h⟩ := Res.bind_eq_ok h
  cases h
  have hpr : printed f = f.lines := by cases f <;> rfl
  obtain ⟨ds, ab, hp, hds⟩ := fate_lines hE hl hlen e
  rw [hpr]
  rcases sourceLines_prefix hp with h0 | ⟨ds', ab', h1, h2, h3⟩
  · left
    rw [h0] at e2
    cases e2
    exact ⟨h0, rfl⟩
  · right
    obtain ⟨s2, w, e3, hw, -, hall, -⟩ := printTexts_simple (T := T) device f.lines (by rw [h1]; exact simple_of ds' ab') ⟨[], 0⟩
    rw [show standardOutput T device f.lines = _ from e3] at e2
    cases e2
    refine ⟨ds', ab', h1, ?_, ?_⟩
    · rw [hw, hall hd, h1, texts_of]
      cases ab' <;> simp [outputText, tailTexts, List.flatMap_def, codes]
    · rcases hds with rfl | hds
      · exact .inl (List.prefix_nil.mp h2)
      · exact .inr ⟨ds, hds, h2⟩

/-- The last two characters before the notice of an abort could stand. -/
theorem not_aborted_text (version : List Nat) (ds : List (Kind × List Byte)) (hds : ∀ d ∈ ds, d.2 ≠ []) : ¬ codes "hmacsum: ABORTED\n" <:+ outputText version ds := by
  rintro ⟨t, ht⟩
  have h1 : (outputText version ds).reverse[1]? = some 68 := by
    rw [← ht]
    have : (codes "hmacsum: ABORTED\n").reverse = 10 :: 68 :: (codes "hmacsum: ABORTE").reverse := by decide
    rw [List.reverse_append, this]
    rfl
  rcases List.eq_nil_or_concat' ds with rfl | ⟨ds', d, rfl⟩
  · simp [outputText, List.reverse_append] at h1
  · have hd : d.2 ≠ [] := hds d (by simp)
    have hx : ∃ x t, (hex d.2).reverse = x :: t ∧ x ∈ hex d.2 := by
      cases hr : (hex d.2).reverse with
      | nil =>
        have := congrArg List.length hr
        rw [List.length_reverse, hex_length] at this
        have : d.2.length = 0 := by simpa using this
        exact absurd (List.length_eq_zero_iff.mp this) hd
      | cons x t => exact ⟨x, t, rfl, List.mem_reverse.mp (by rw [hr]; simp)⟩
    obtain ⟨x, t', hx, hm⟩ := hx
    rw [show outputText version (ds' ++ [d]) = (codes "hmacsum " ++ version ++ [10, 10] ++ ds'.flatMap fun d => d.1.label ++ hex d.2 ++ [10]) ++ d.1.label ++ hex d.2 ++ [10] by
      simp [outputText]] at h1
    rw [List.reverse_append, List.reverse_append, hx] at h1
    have : x = 68 := by simpa using h1
    exact absurd (mem_hex d.2 x hm) (by rw [this]; decide)

/-- C69. If nothing is lost, the output of a program that exits ends in the line "hmacsum: ABORTED" exactly if the program was aborted, and then the exit status is failure. -/
theorem C69_aborted (E : Environment) (C : SystemCalls) (hE : StartOk E C) (S : Signals) (T : Texts) (device : Nat → Option Nat) (hd : ∀ n, device n = none) (program : List Nat) (groups : List OptGroup)
    (source : List Nat) (rest : List (List Nat)) (hl : SourceLine groups source) (hlen : LengthsOk E (lastArgument 100 (optionsOf groups)) source) (W : World) (x : ExitM) (q : Proc) (s : Stream)
    (h : bsHmacsum E C S T device (commandLine program groups (source :: rest)) W = .ok (.exited x q, s)) :
    (codes "hmacsum: ABORTED\n" <:+ s.written ↔ x.exit.out.getLast? = some .aborted) ∧ (codes "hmacsum: ABORTED\n" <:+ s.written → x.exit.status = false) := by
  have hst : x.exit.out.getLast? = some .aborted → x.exit.status = false := fun hlast => by
    obtain ⟨f', e, h'⟩ := Res.bind_eq_ok h
    obtain ⟨s', e2, h'⟩ := Res.bind_eq_ok h'
    cases h'
    obtain ⟨a, ha⟩ := C68_outcome E C S _ W x q e
    obtain ⟨x', V, ds, ab, e1, ho, -, hs⟩ := source_lines hE program groups source rest hl hlen W a
    rw [ha] at e1
    cases e1
    by_contra hx
    obtain ⟨hne, rfl⟩ := hs (by simpa using hx)
    rw [ho] at hlast
    rcases List.eq_nil_or_concat' ds with h0 | ⟨ds', d, rfl⟩
    · exact hne h0
    · rw [show sourceLines (ds' ++ [d]) false = (.version :: ds'.map fun d => .digest d.1 (hex d.2)) ++ [.digest d.1 (hex d.2)] by simp [sourceLines], List.getLast?_concat] at hlast
      cases hlast
  have key : codes "hmacsum: ABORTED\n" <:+ s.written ↔ x.exit.out.getLast? = some .aborted := by
    rcases C69_printed E C hE S T device hd program groups source rest hl hlen W _ s h with ⟨h1, h2⟩ | ⟨ds, ab, h1, h2, h3⟩
    · rw [h2, show x.exit.out = [] from h1]
      refine ⟨fun h => absurd (List.suffix_nil.mp h) (by decide), fun h => by cases h⟩
    · rw [h2, show x.exit.out = _ from h1]
      cases ab with
      | true =>
        refine ⟨fun _ => ?_, fun _ => List.suffix_append _ _⟩
        rw [show sourceLines ds true = (.version :: ds.map fun d => .digest d.1 (hex d.2)) ++ [.aborted] by simp [sourceLines], List.getLast?_concat]
      | false =>
        have hds : ∀ d ∈ ds, d.2 ≠ [] := fun d hd hn => by
          rcases h3 with rfl | ⟨all, ⟨inp, size, sel, -, -, -, -, rfl⟩, hp⟩
          · cases hd
          · obtain ⟨k, -, rfl⟩ := List.mem_map.mp (hp.subset hd)
            have := std_digest_length k (inp.content.take size)
            rw [show k.std.digest (inp.content.take size) = [] from hn] at this
            cases k <;> exact absurd this (by decide)
        refine ⟨fun h => ?_, fun h => ?_⟩
        · rw [if_neg (by decide), List.append_nil] at h
          exact absurd h (not_aborted_text T.version ds hds)
        · exfalso
          rcases List.eq_nil_or_concat' ds with rfl | ⟨ds', d, rfl⟩
          · simp [sourceLines] at h
          · rw [show sourceLines (ds' ++ [d]) false = (.version :: ds'.map fun d => .digest d.1 (hex d.2)) ++ [.digest d.1 (hex d.2)] by simp [sourceLines], List.getLast?_concat] at h
            cases h
  exact ⟨key, fun h => hst (key.mp h)⟩

/-- The hypotheses of `C69_printing`, `C69_printed` and `C69_aborted` are met: a signal before the first read of the file, and another one. -/
example : ∃ x q s, bsHmacsum env1 sysCalls1 (signalsAt [.read 0, .read 1]) texts1 (fun _ => none) (commandLine (codes "hmacsum") groups0 [codes "file"]) world0 = .ok (.exited x q, s) ∧ x.exit.status = false ∧
    (codes "hmacsum: ABORTED\n" <:+ s.written ↔ x.exit.out.getLast? = some .aborted) := by
  obtain ⟨x, q, e, hx, -⟩ := C68_interrupted env1 sysCalls1 (signalsAt [.read 0, .read 1]) start1 rfl rfl (fun pt h => by
    cases pt <;> first | (exact .inr (.inl ⟨_, rfl⟩)) | (exact .inr (.inr (.inr (.inl ⟨_, rfl⟩)))) | (exact absurd h (by decide))) (codes "hmacsum") groups0 (codes "file") [] line1 world0 (.inr (.inl (by decide)))
  obtain ⟨s, e'⟩ := C69_printing env1 sysCalls1 start1 _ texts1 (fun _ => none) (codes "hmacsum") groups0 (codes "file") [] line1 lengths1 world0 _ e
  exact ⟨x, q, s, e', hx, (C69_aborted env1 sysCalls1 start1 _ texts1 (fun _ => none) (fun _ => rfl) (codes "hmacsum") groups0 (codes "file") [] line1 lengths1 world0 x q s e').1⟩

/-! ### The text of -V -/

/-- What -V tells, without a translation. -/
def versionText (version bugReport : List Nat) : List Nat :=
  codes "hmacsum " ++ version ++ codes "\n\nCopyright (C) 2011-2024, Joachim Metz.\nThis is free software; see the source for copying conditions. There is NO\nwarranty; not even for MERCHANTABILITY or FITNESS FOR A PARTICULAR PURPOSE.\nReport bugs to <" ++
    bugReport ++ codes ">.\n"

theorem format_copyright : formatText (codes "Copyright (C) 2011-2024, %s.\n") [codes "Joachim Metz"] = .ok (codes "Copyright (C) 2011-2024, Joachim Metz.\n") := by
  simp [codes, formatText, Res.ok_bind, Res.pure_eq]

theorem format_report (a : List Nat) : formatText (codes "Report bugs to <%s>.\n") [a] = .ok (codes "Report bugs to <" ++ a ++ codes ">.\n") := by
  simp [codes, formatText, Res.ok_bind, Res.pure_eq]

theorem copyrightOutput (T : Texts) (ht : ∀ t, T.translate t = t) : standardOutput T (fun _ => none) [.version, .copyright] = .ok ⟨versionText T.version T.bugReport, 4⟩ := by
  have h1 : 37 ∉ codes "This is free software; see the source for copying conditions. There is NO\nwarranty; not even for MERCHANTABILITY or FITNESS FOR A PARTICULAR PURPOSE.\n" := by decide +kernel
  have h2 : codes "\n\nCopyright (C) 2011-2024, Joachim Metz.\nThis is free software; see the source for copying conditions. There is NO\nwarranty; not even for MERCHANTABILITY or FITNESS FOR A PARTICULAR PURPOSE.\nReport bugs to <" =
    [10] ++ [10] ++ codes "Copyright (C) 2011-2024, Joachim Metz.\n" ++
      codes "This is free software; see the source for copying conditions. There is NO\nwarranty; not even for MERCHANTABILITY or FITNESS FOR A PARTICULAR PURPOSE.\n" ++ codes "Report bugs to <" := by decide +kernel
  unfold standardOutput versionText
  rw [h2]
  simp only [List.flatMap_cons, List.flatMap_nil, List.append_nil, lineCalls, copyrightCalls, ht]
  generalize codes "This is free software; see the source for copying conditions. There is NO\nwarranty; not even for MERCHANTABILITY or FITNESS FOR A PARTICULAR PURPOSE.\n" = free at h1 ⊢
  simp only [versionCalls, List.singleton_append, printTexts]
  rw [printText, format_version, Res.ok_bind]
  dsimp only
  rw [Res.pure_eq, Res.ok_bind]
  dsimp only
  rw [printText, format_copyright, Res.ok_bind]
  dsimp only
  rw [Res.pure_eq, Res.ok_bind]
  dsimp only
  rw [printText_plain free h1, Res.ok_bind]
  dsimp only
  rw [printText, format_report, Res.ok_bind]
  dsimp only
  rw [Res.pure_eq, Res.ok_bind]
  simp only [List.nil_append, List.append_assoc, Nat.reduceAdd]
  rfl

/-- C69. -V tells the version, the copyright, that there is no warranty, and where to report bugs (here without a translation), and succeeds. -/
theorem C69_version (E : Environment) (C : SystemCalls) (hE : StartOk E C) (T : Texts) (ht : ∀ t, T.translate t = t) (program : List Nat) (groups : List OptGroup) (hg : ∀ g ∈ groups, g.Ok (codes "d:hp:vV"))
    (rest : List (List Nat)) (pre post : List (Nat × Option (List Nat))) (ho : optionsOf groups = pre ++ (86, none) :: post) (hpre : ∀ x ∈ pre, x.1 ≠ 104 ∧ x.1 ≠ 86) (W : World) :
    ∃ x s, bHmacsum E C T (fun _ => none) (commandLine program groups rest) W = .ok (x, s, W) ∧ x.exit.status = true ∧ s.written = versionText T.version T.bugReport := by
  have e := C50_help _ hE.envOk program groups hg rest pre post 86 ho hpre (.inr rfl) W
  have e' := C59_same_program E C (commandLine program groups rest) W
  rw [e] at e'
  obtain ⟨⟨y, V⟩, e1, e2⟩ := Res.bind_eq_ok e'
  have hy : y.exit = ⟨true, [.version, .copyright]⟩ := congrArg (fun z => z.1) (Res.ok.inj e2)
  have hV : V = W := congrArg (fun z => z.2) (Res.ok.inj e2)
  subst hV
  have e3 : standardOutput T (fun _ => none) y.exit.out = .ok ⟨versionText T.version T.bugReport, 4⟩ := by
    rw [hy]
    exact copyrightOutput T ht
  generalize versionText T.version T.bugReport = text at e3 ⊢
  exact ⟨y, ⟨text, 4⟩, by unfold bHmacsum; rw [e1, Res.ok_bind]; dsimp only; rw [e3]; rfl, by rw [hy], rfl⟩

/-- The hypotheses of `C69_version` are met: `hmacsum -vV`. -/
example := C69_version env1 sysCalls1 start1 texts1 (fun _ => rfl) (codes "hmacsum") [⟨[118, 86], none⟩] (by
  intro g hg
  rw [List.mem_singleton.mp hg]
  exact ⟨by simp, by decide, by simp⟩) [] [(118, none)] [] rfl (by decide) world0

end Props
