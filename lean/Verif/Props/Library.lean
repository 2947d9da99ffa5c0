import Verif.Proofs.Library
import Verif.Props.Hmacsum
/-! C72: hmacsum with the getopt of the C library. -/

namespace Props

open Model Spec

/-- The option string of hmacsum. -/
def hmacsumOptions : List Nat := codes "d:hp:vV"

/-- The option loop, given what getopt delivers. -/
theorem library_run (L : Library) (args : List (List Nat)) (os : List (Nat × Option (List Nat))) (s' : L.State) (hd : L.Delivers (L.start args) os s') (h1 : ∀ x ∈ os, x.1 = 100 ∨ x.1 = 112 ∨ x.1 = 118)
    (h2 : ∀ x ∈ os, x.1 ≠ 118 → x.2 ≠ none) (source : List Nat) (hne : L.optind s' ≠ args.length) (hs : (L.argv s')[L.optind s']? = some source) (fuel : Nat) (hf : os.length < fuel) :
    parseLibrary L args.length fuel ⟨none, none, false⟩ (L.start args) = .ok (.run ⟨lastArgument 100 os, lastArgument 112 os, os.any (·.1 = 118)⟩ source) := by
  obtain ⟨s1, hg, hn⟩ := hd
  obtain ⟨extra, rfl⟩ : ∃ extra, fuel = os.length + (extra + 1) := ⟨fuel - os.length - 1, by omega⟩
  rw [library_steps hg ⟨none, none, false⟩ (extra + 1) h1 h2, foldl_apply _ _ h1 h2, parseLibrary, hn]
  dsimp only
  rw [if_neg hne, hs]
  simp

theorem optionsOf_run {groups : List OptGroup} (h : ∀ g ∈ groups, g.Ok (codes "d:hp:vV")) (hrun : ∀ x ∈ optionsOf groups, x.1 ≠ 104 ∧ x.1 ≠ 86) :
    (∀ x ∈ optionsOf groups, x.1 = 100 ∨ x.1 = 112 ∨ x.1 = 118) ∧ ∀ x ∈ optionsOf groups, x.1 ≠ 118 → x.2 ≠ none := by
  have hk := optionsOf_kinds h
  refine ⟨fun x hx => ?_, fun x hx hne => ?_⟩
  · have := hrun x hx
    rcases hk x hx with h' | h' <;> omega
  · have := hrun x hx
    rcases hk x hx with ⟨h', -⟩ | ⟨-, h'⟩
    · omega
    · exact h'

/-! ### C72 -/

/-- C72. With any getopt that keeps the promises of POSIX, the program does on a well-formed command line what it does with the option parser of /repo (C50 and so on). -/
theorem C72_posix (E : Environment) (L : Library) (hL : L.Posix hmacsumOptions) (program : List Nat) (groups : List OptGroup) (source : List Nat) (rest : List (List Nat)) (hl : SourceLine groups source)
    (hrest : ∀ b ∈ rest, 0 ∉ b) (W : World) (fuel : Nat) (hf : (optionsOf groups).length < fuel) :
    hmacsumLibrary E L fuel (program :: (groups.flatMap OptGroup.args ++ source :: rest)) W = hmacsum E (commandLine program groups (source :: rest)) W := by
  obtain ⟨s', hd, ha, hi⟩ := hL program groups (source :: rest) hl.options (fun a h => by cases h; exact hl.operand) (fun b hb => by
    rcases List.mem_cons.mp hb with rfl | hb
    · exact hl.text
    · exact hrest b hb)
  obtain ⟨h1, h2⟩ := optionsOf_run hl.options hl.run
  have := library_run L _ (optionsOf groups) s' hd h1 h2 source (by rw [hi]; simp; omega) (by rw [ha, hi, Nat.add_comm, List.getElem?_cons_succ]; simp) fuel hf
  rw [hmacsumLibrary, hmacsum, this, parse_source E.mc program groups source rest hl]
  rfl

/-- C72. With any getopt that keeps the promises of GNU, options and operands may be mixed: the program does what it does with the option parser of /repo when the options come first. -/
theorem C72_gnu (E : Environment) (L : Library) (hL : L.Gnu hmacsumOptions) (program : List Nat) (items : List Item) (hok : ∀ i ∈ items, i.Ok hmacsumOptions) (source : List Nat) (rest : List (List Nat))
    (hops : items.filterMap Item.operand? = source :: rest) (hrun : ∀ x ∈ optionsOf (items.filterMap Item.group?), x.1 ≠ 104 ∧ x.1 ≠ 86) (W : World) (fuel : Nat)
    (hf : (optionsOf (items.filterMap Item.group?)).length < fuel) :
    hmacsumLibrary E L fuel (program :: items.flatMap Item.args) W = hmacsum E (commandLine program (items.filterMap Item.group?) (source :: rest)) W := by
  obtain ⟨s', hd, hp, hdrop, hi⟩ := hL program items hok
  have hg : ∀ g ∈ items.filterMap Item.group?, g.Ok (codes "d:hp:vV") := fun g hg => by
    obtain ⟨i, hi, he⟩ := List.mem_filterMap.mp hg
    cases i with
    | options g' =>
      cases he
      exact hok _ hi
    | operand a => cases he
  have hsrc : source.head? ≠ some 45 ∧ 0 ∉ source := by
    obtain ⟨i, hi, he⟩ := List.mem_filterMap.mp (hops ▸ List.mem_cons_self : source ∈ items.filterMap Item.operand?)
    cases i with
    | options g' => cases he
    | operand a =>
      cases he
      exact hok _ hi
  obtain ⟨h1, h2⟩ := optionsOf_run hg hrun
  rw [hops] at hdrop
  have hget : (L.argv s')[L.optind s']? = some source := by
    have := congrArg (fun l => l[0]?) hdrop
    simpa [List.getElem?_drop] using this
  have hlt : L.optind s' < (L.argv s').length := (List.getElem?_eq_some_iff.mp hget).1
  have := library_run L _ (optionsOf (items.filterMap Item.group?)) s' hd h1 h2 source (by rw [← hp.length_eq]; omega) hget fuel hf
  rw [hmacsumLibrary, hmacsum, this, parse_source E.mc program _ source rest ⟨hg, hrun, hsrc.1, hsrc.2⟩]
  rfl

/-- C72. In particular the digests: with a GNU getopt, exit status 0 means that the version line and the digests named by the last -d, wherever it stands, of the first operand were printed. -/
theorem C72_gnu_digests (E : Environment) (hE : EnvOk E) (L : Library) (hL : L.Gnu hmacsumOptions) (program : List Nat) (items : List Item) (hok : ∀ i ∈ items, i.Ok hmacsumOptions) (source : List Nat)
    (rest : List (List Nat)) (hops : items.filterMap Item.operand? = source :: rest) (hrun : ∀ x ∈ optionsOf (items.filterMap Item.group?), x.1 ≠ 104 ∧ x.1 ≠ 86) (W : World) (fuel : Nat)
    (hf : (optionsOf (items.filterMap Item.group?)).length < fuel) :
    ∃ x W', hmacsumLibrary E L fuel (program :: items.flatMap Item.args) W = .ok (x, W') ∧ (x.status = true →
      ∃ lines inp size, x.out = .version :: lines ∧ lines ≠ [] ∧ E.files source = some inp ∧ inp.size = some size ∧ size ≤ inp.content.length ∧
        ((∀ k, Selected (lastArgument 100 (optionsOf (items.filterMap Item.group?))) k → k.LengthOk size) →
          DigestLines (lastArgument 100 (optionsOf (items.filterMap Item.group?))) (inp.content.take size) lines)) := by
  rw [C72_gnu E L hL program items hok source rest hops hrun W fuel hf]
  have hg : ∀ g ∈ items.filterMap Item.group?, g.Ok (codes "d:hp:vV") := fun g hg => by
    obtain ⟨i, hi, he⟩ := List.mem_filterMap.mp hg
    cases i with
    | options g' =>
      cases he
      exact hok _ hi
    | operand a => cases he
  have hsrc : source.head? ≠ some 45 ∧ 0 ∉ source := by
    obtain ⟨i, hi, he⟩ := List.mem_filterMap.mp (hops ▸ List.mem_cons_self : source ∈ items.filterMap Item.operand?)
    cases i with
    | options g' => cases he
    | operand a =>
      cases he
      exact hok _ hi
  exact C50_success E hE program _ source rest ⟨hg, hrun, hsrc.1, hsrc.2⟩ W

/-- C72. Whatever getopt the program is built with and whatever the command line: if getopt stays within the vector and the options come to an end, the program ends without undefined behaviour, and exit status 0 means that the usage
text was shown, the copyright text was shown, or the digests of a file that is named by one of the arguments were printed. -/
theorem C72_any_library (E : Environment) (hE : EnvOk E) (L : Library) (hb : L.InBounds) (hends : L.Ends hmacsumOptions) (args : List (List Nat)) (hne : args ≠ []) (W : World) :
    ∃ calls, ∀ fuel, calls ≤ fuel → ∃ x W', hmacsumLibrary E L fuel args W = .ok (x, W') ∧ (x.status = true → x.out = [.version, .usage] ∨ x.out = [.version, .copyright] ∨
      ∃ types source lines inp size, source ∈ args ∧ x.out = .version :: lines ∧ lines ≠ [] ∧ E.files source = some inp ∧ inp.size = some size ∧ size ≤ inp.content.length ∧
        ((∀ k, Selected types k → k.LengthOk size) → DigestLines types (inp.content.take size) lines)) := by
  obtain ⟨n, hn⟩ := hends args hne
  refine ⟨n, fun fuel hfuel => ?_⟩
  obtain ⟨hub, hmem⟩ := parseLibrary_ok hne hb fuel ⟨none, none, false⟩ (L.start args) .start
  have hdiv : parseLibrary L args.length fuel ⟨none, none, false⟩ (L.start args) ≠ .diverge := fun hd => by
    obtain ⟨os, s', hl, hg, hos⟩ := parseLibrary_diverge fuel _ _ hd
    rw [← List.take_append_drop n os] at hg
    obtain ⟨s1, hg1, -⟩ := Library.Gives.split hg
    obtain ⟨x, hx, hk⟩ := hn (os.take n) s1 (by rw [List.length_take]; omega) hg1
    rcases hos x (List.mem_of_mem_take hx) with h | h | h <;> rw [h] at hk <;> revert hk <;> decide
  cases hp : parseLibrary L args.length fuel ⟨none, none, false⟩ (L.start args) with
  | ub => exact absurd hp hub
  | diverge => exact absurd hp hdiv
  | ok p =>
    cases p with
    | run o source =>
      obtain ⟨x, W', extra, e, -, -, -, hr, -⟩ := runSource_ok hE.tool hE.dp o source [.version] W.blocks W (noneInv_start W)
      refine ⟨x, W', by simp [hmacsumLibrary, hE.locale, hE.output, hp, e], fun hx => .inr (.inr ?_)⟩
      obtain ⟨ds, -, h2, -, h4⟩ := hr.lines
      obtain ⟨hne, -, hout⟩ := h2 hx
      obtain ⟨inp, size, h5, h6, h7, h8⟩ := h4 hne
      exact ⟨o.digests, source, ds, inp, size, hmem o source hp, hout, hne, h5, h6, h7, h8⟩
    | help => exact ⟨⟨true, [.version, .usage]⟩, W, by simp [hmacsumLibrary, hE.locale, hE.output, hp], fun _ => .inl rfl⟩
    | version => exact ⟨⟨true, [.version, .copyright]⟩, W, by simp [hmacsumLibrary, hE.locale, hE.output, hp], fun _ => .inr (.inl rfl)⟩
    | invalid => exact ⟨⟨false, [.version, .usage]⟩, W, by simp [hmacsumLibrary, hE.locale, hE.output, hp, onError, sumFree], fun h => by cases h⟩
    | missing => exact ⟨⟨false, [.version, .usage]⟩, W, by simp [hmacsumLibrary, hE.locale, hE.output, hp, onError, sumFree], fun h => by cases h⟩

/-- C72. What the program does with the first option that ends the loop: -h shows the usage text, -V the copyright text, with exit status 0; a character that is no option of the program ('?', ':' or anything else) shows the usage
text and fails. No file is opened. -/
theorem C72_stops (E : Environment) (hE : EnvOk E) (L : Library) (hb : L.InBounds) (args : List (List Nat)) (hne : args ≠ []) (os : List (Nat × Option (List Nat))) (s s' : L.State)
    (hg : L.Gives (L.start args) os s) (h1 : ∀ x ∈ os, x.1 = 100 ∧ x.2 ≠ none ∨ x.1 = 112 ∧ x.2 ≠ none ∨ x.1 = 118) (c : Nat) (hn : L.next s = (some c, s')) (hc : c ≠ 100 ∧ c ≠ 112 ∧ c ≠ 118) (W : World) (fuel : Nat)
    (hf : os.length < fuel) :
    hmacsumLibrary E L fuel args W = .ok (if c = 104 then ⟨true, [.version, .usage]⟩ else if c = 86 then ⟨true, [.version, .copyright]⟩ else ⟨false, [.version, .usage]⟩, W) := by
  obtain ⟨extra, rfl⟩ : ∃ extra, fuel = os.length + (extra + 1) := ⟨fuel - os.length - 1, by omega⟩
  have hreach : ∀ (os : List (Nat × Option (List Nat))) (s1 : L.State), L.Reach args s1 → L.Gives s1 os s → L.Reach args s := fun os => by
    induction os with
    | nil => intro s1 hr h; cases h; exact hr
    | cons x os ih =>
      intro s1 hr h
      cases h with
      | cons _ s2 _ c a _ h ha hs =>
        have := Library.Reach.next s1 hr
        rw [h] at this
        exact ih s2 this hs
  obtain ⟨hp, hi1, hi2⟩ := hb args hne s (hreach os _ .start hg)
  rw [hn] at hp hi1 hi2
  have hl := hp.length_eq
  have key : parseLibrary L args.length (os.length + (extra + 1)) ⟨none, none, false⟩ (L.start args) = .ok (if c = 104 then .help else if c = 86 then .version else .invalid) := by
    rw [library_steps hg ⟨none, none, false⟩ (extra + 1) (fun x hx => by have := h1 x hx; omega) (fun x hx hne => by
      rcases h1 x hx with h | h | h
      · exact h.2
      · exact h.2
      · exact absurd h hne), parseLibrary, hn]
    dsimp only at hi1 hi2 hl ⊢
    rw [if_neg hc.1]
    split
    · rfl
    · rw [if_neg hc.2.1, if_neg hc.2.2]
      split
      · rfl
      · rw [if_neg (by omega), List.getElem?_eq_getElem (by omega)]
  rw [hmacsumLibrary, key]
  by_cases h104 : c = 104
  · simp [hE.locale, hE.output, h104]
  · by_cases h86 : c = 86
    · simp [hE.locale, hE.output, h86]
    · simp [hE.locale, hE.output, h104, h86, onError, sumFree]

/-- C72. Without an operand the usage text is shown and the exit status is failure. -/
theorem C72_missing_source (E : Environment) (hE : EnvOk E) (L : Library) (args : List (List Nat)) (os : List (Nat × Option (List Nat))) (s' : L.State) (hd : L.Delivers (L.start args) os s')
    (h1 : ∀ x ∈ os, x.1 = 100 ∧ x.2 ≠ none ∨ x.1 = 112 ∧ x.2 ≠ none ∨ x.1 = 118) (hend : L.optind s' = args.length) (W : World) (fuel : Nat) (hf : os.length < fuel) :
    hmacsumLibrary E L fuel args W = .ok (⟨false, [.version, .usage]⟩, W) := by
  obtain ⟨s1, hg, hn⟩ := hd
  obtain ⟨extra, rfl⟩ : ∃ extra, fuel = os.length + (extra + 1) := ⟨fuel - os.length - 1, by omega⟩
  rw [hmacsumLibrary, library_steps hg ⟨none, none, false⟩ (extra + 1) (fun x hx => by have := h1 x hx; omega) (fun x hx hne => by
      rcases h1 x hx with h | h | h
      · exact h.2
      · exact h.2
      · exact absurd h hne), parseLibrary, hn]
  simp [hE.locale, hE.output, hend, onError, sumFree]

/-! ### Cases -/

example := C72_posix env1 (fallbackLibrary true hmacsumOptions) (fallback_posix true hmacsumOptions) (codes "hmacsum") groups0 (codes "file") [codes "other"] line1 (by decide) world0 20 (by decide)

/-- "file -d sha1" -/
def items0 : List Item := [.operand (codes "file"), .options ⟨[], some (100, codes "sha1", false)⟩]

theorem items0_ok : ∀ i ∈ items0, i.Ok hmacsumOptions := by
  intro i hi
  simp only [items0, List.mem_cons, List.not_mem_nil, or_false] at hi
  rcases hi with rfl | rfl
  · exact ⟨by decide, by decide⟩
  · exact ⟨by simp, by decide, fun o v a h => by cases h; decide⟩

example := C72_gnu_digests env1 env1_ok (gnuLibrary hmacsumOptions) (gnu_gnu hmacsumOptions) (codes "hmacsum") items0 items0_ok (codes "file") [] (by decide) (by decide) world0 20 (by decide)

example := C72_any_library env1 env1_ok (gnuLibrary hmacsumOptions) (gnu_inBounds hmacsumOptions) (gnu_ends hmacsumOptions) [codes "hmacsum", codes "-vx", codes "-d"] (by simp) world0

/-- "-v -q": '?' ends the loop. -/
example : hmacsumLibrary env1 (gnuLibrary hmacsumOptions) 9 [codes "hmacsum", codes "-vq"] world0 = .ok (⟨false, [.version, .usage]⟩, world0) :=
  C72_stops env1 env1_ok (gnuLibrary hmacsumOptions) (gnu_inBounds hmacsumOptions) [codes "hmacsum", codes "-vq"] (by simp) [(118, none)] ⟨[(63, none)], none, [codes "hmacsum", codes "-vq"], 2⟩
    ⟨[], none, [codes "hmacsum", codes "-vq"], 2⟩ (.cons _ _ _ 118 none [] (by rfl) (.inl rfl) (.nil _)) (by decide) 63 rfl (by decide) world0 9 (by decide)

/-- C72. The order matters: of the same command line "hmacsum file -d sha1" a build with the option parser of /repo prints the MD5 only, and a build with a GNU getopt prints MD5 and SHA-1, both with exit status 0. -/
theorem C72_order (W : World) : ∃ lines lines' W1 W2,
    hmacsum env1 (argVector [codes "hmacsum", codes "file", codes "-d", codes "sha1"]) W = .ok (⟨true, .version :: lines⟩, W1) ∧ DigestLines none input0.content lines ∧
    hmacsumLibrary env1 (gnuLibrary hmacsumOptions) 9 [codes "hmacsum", codes "file", codes "-d", codes "sha1"] W = .ok (⟨true, .version :: lines'⟩, W2) ∧ DigestLines (some (codes "sha1")) input0.content lines' ∧
    lines.length = 1 ∧ lines'.length = 2 := by
  have hlen : input0.content.length = 100000 := List.length_replicate
  have line2 : SourceLine [] (codes "file") := ⟨by simp, by simp [optionsOf], by decide, by decide⟩
  have hk : ∀ k : Kind, k.LengthOk input0.content.length := fun k => by rw [hlen]; cases k <;> decide
  obtain ⟨lines, W1, e1, d1⟩ := C50_completes env1 env1_ok (codes "hmacsum") [] (codes "file") [codes "-d", codes "sha1"] line2 W input0 (by simp [env1]) (by rw [hlen]; rfl) (fun _ => ⟨1000, rfl, by decide⟩) (fun _ => rfl)
    ⟨rfl, rfl, rfl, rfl⟩ rfl (fun s hs => by cases hs) fun k _ => hk k
  have e2 := C72_gnu env1 (gnuLibrary hmacsumOptions) (gnu_gnu hmacsumOptions) (codes "hmacsum") items0 items0_ok (codes "file") [] (by decide) (by decide) W 9 (by decide)
  have line3 : SourceLine (items0.filterMap Item.group?) (codes "file") := ⟨fun g hg => by
    simp only [items0, List.filterMap_cons, Item.group?, List.filterMap_nil, List.mem_cons, List.not_mem_nil, or_false] at hg
    subst hg
    exact ⟨by simp, by decide, fun o v a h => by cases h; decide⟩, by decide, by decide, by decide⟩
  obtain ⟨lines', W2, e3, d3⟩ := C50_completes env1 env1_ok (codes "hmacsum") (items0.filterMap Item.group?) (codes "file") [] line3 W input0 (by simp [env1]) (by rw [hlen]; rfl) (fun _ => ⟨1000, rfl, by decide⟩) (fun _ => rfl)
    ⟨rfl, rfl, rfl, rfl⟩ rfl (fun s hs => by
      rw [show lastArgument 112 (optionsOf (items0.filterMap Item.group?)) = none by decide] at hs
      cases hs) fun k _ => hk k
  rw [e3] at e2
  have count : ∀ (types : Option (List Nat)) (lines : List Line) (p : Kind → Bool), (∀ k, p k = true ↔ Selected types k) → DigestLines types input0.content lines → lines.length = (printOrder.filter p).length :=
    fun types lines p hp ⟨sel, hsel, hl⟩ => by
      have : sel = p := funext fun k => by
        rw [Bool.eq_iff_iff, hsel, hp]
      rw [hl, List.length_map, this]
  have d1 : DigestLines none input0.content lines := d1
  have d3 : DigestLines (some (codes "sha1")) input0.content lines' := d3
  refine ⟨lines, lines', W1, W2, e1, d1, e2, d3, ?_, ?_⟩
  · rw [count none lines (fun k => k = .md5) (fun k => by simp [Selected]) d1]
    decide
  · rw [count (some (codes "sha1")) lines' (fun k => k = .md5 ∨ k = .sha1) (fun k => by
      have h : k.Named (codes "sha1") ↔ ∃ name ∈ k.names, name ∈ splitAt 44 (codes "sha1") := by simp [Kind.Named, mem_splitAt]
      simp only [Selected, Option.some.injEq, exists_eq_left', h, decide_eq_true_eq]
      cases k <;> decide) d3]
    decide

end Props
