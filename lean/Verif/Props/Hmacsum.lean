import Verif.Proofs.Hmacsum
import Verif.Props.SumHandle
import Verif.Props.Getopt
/-! The program hmacsum. -/

namespace Props

open Model Spec

/-- The command line: program name, groups of options, operands. -/
def commandLine (program : List Nat) (groups : List OptGroup) (operands : List (List Nat)) : List (List Nat) := argVector (program :: (groups.flatMap OptGroup.args ++ operands))

/-- The options of the groups. -/
def optionsOf (groups : List OptGroup) : List (Nat × Option (List Nat)) := groups.flatMap OptGroup.options

/-- A well-formed command line of hmacsum for a source: known options, neither -h nor -V, and the source does not begin with '-'. -/
structure SourceLine (groups : List OptGroup) (source : List Nat) : Prop where
  options : ∀ g ∈ groups, g.Ok (codes "d:hp:vV")
  run : ∀ x ∈ optionsOf groups, x.1 ≠ 104 ∧ x.1 ≠ 86
  operand : source.head? ≠ some 45
  text : 0 ∉ source

theorem optionKind_false {c : Nat} (h : optionKind (codes "d:hp:vV") c = some false) : c = 104 ∨ c = 118 ∨ c = 86 := by
  have e : codes "d:hp:vV" = [100, 58, 104, 112, 58, 118, 86] := by decide
  rw [e] at h
  by_contra hc
  have h1 : ¬ (104 = c ∧ c ≠ 58) := by omega
  have h2 : ¬ (118 = c ∧ c ≠ 58) := by omega
  have h3 : ¬ (86 = c ∧ c ≠ 58) := by omega
  have h4 : ¬ (58 = c ∧ c ≠ 58) := by omega
  simp only [optionKind, if_neg h1, if_neg h2, if_neg h3, if_neg h4] at h
  split at h
  · simp at h
  split at h
  · simp at h
  · cases h

theorem optionKind_true {c : Nat} (h : optionKind (codes "d:hp:vV") c = some true) : c = 100 ∨ c = 112 := by
  have e : codes "d:hp:vV" = [100, 58, 104, 112, 58, 118, 86] := by decide
  rw [e] at h
  by_contra hc
  have h1 : ¬ (100 = c ∧ c ≠ 58) := by omega
  have h2 : ¬ (112 = c ∧ c ≠ 58) := by omega
  have h4 : ¬ (58 = c ∧ c ≠ 58) := by omega
  simp only [optionKind, if_neg h1, if_neg h2, if_neg h4] at h
  split at h
  · simp at h
  split at h
  · simp at h
  split at h
  · simp at h
  · cases h

theorem optionsOf_kinds {groups : List OptGroup} (h : ∀ g ∈ groups, g.Ok (codes "d:hp:vV")) :
    ∀ x ∈ optionsOf groups, (x.1 = 104 ∨ x.1 = 118 ∨ x.1 = 86) ∧ x.2 = none ∨ (x.1 = 100 ∨ x.1 = 112) ∧ x.2 ≠ none := by
  intro x hx
  obtain ⟨g, hg, hx⟩ := List.mem_flatMap.mp hx
  simp only [OptGroup.options, List.mem_append, List.mem_map] at hx
  rcases hx with ⟨f, hf, rfl⟩ | ⟨l, hl, rfl⟩
  · exact .inl ⟨optionKind_false ((h g hg).flags f hf).1, rfl⟩
  · obtain ⟨a, b, c⟩ := l
    exact .inr ⟨optionKind_true ((h g hg).last a b c (by simpa using hl)).1, by simp⟩

theorem args_no_nul {g : OptGroup} {opts : List Nat} (h : g.Ok opts) : ∀ b ∈ g.args, 0 ∉ b := by
  obtain ⟨flags, last⟩ := g
  have hf : 0 ∉ flags := fun h0 => (h.flags 0 h0).2.1 rfl
  rcases last with _ | ⟨o, v, _ | _⟩
  · simpa [OptGroup.args] using hf
  · obtain ⟨-, h1, -, h2, -⟩ := h.last o v false rfl
    intro b hb
    simp only [OptGroup.args, List.mem_cons, List.not_mem_nil, or_false] at hb
    rcases hb with rfl | rfl
    · simp [hf, Ne.symm h1]
    · exact h2
  · obtain ⟨-, h1, -, h2, -⟩ := h.last o v true rfl
    simp [OptGroup.args, hf, Ne.symm h1, h2]

/-- The parser has enough steps. -/
theorem options_length (groups : List OptGroup) (h : ∀ g ∈ groups, g.Ok (codes "d:hp:vV")) : (optionsOf groups).length ≤ ((groups.flatMap OptGroup.args).map fun b => b.length + 1).sum := by
  induction groups with
  | nil => simp [optionsOf]
  | cons g groups ih =>
    have ih := ih fun g' hg' => h g' (by simp [hg'])
    have hg : g.options.length ≤ (g.args.map fun b => b.length + 1).sum := by
      obtain ⟨flags, last⟩ := g
      rcases last with _ | ⟨o, v, _ | _⟩ <;> simp [OptGroup.options, OptGroup.args] <;> omega
    simp only [optionsOf, List.flatMap_cons, List.length_append, List.map_append, List.sum_append] at ih ⊢
    omega

theorem commandLine_size (program : List Nat) (groups : List OptGroup) (operands : List (List Nat)) (h : ∀ g ∈ groups, g.Ok (codes "d:hp:vV")) :
    ∃ extra, ((commandLine program groups operands).map List.length).sum + 1 = (optionsOf groups).length + (extra + 1) := by
  have h1 := options_length groups h
  have : ((commandLine program groups operands).map List.length).sum = program.length + 1 + (((groups.flatMap OptGroup.args).map fun b => b.length + 1).sum + (operands.map fun b => b.length + 1).sum) := by
    simp only [commandLine, argVector, List.map_map, List.map_cons, List.map_append, List.sum_cons, List.sum_append]
    simp [Function.comp_def]
  exact ⟨program.length + 1 + (((groups.flatMap OptGroup.args).map fun b => b.length + 1).sum + (operands.map fun b => b.length + 1).sum) - (optionsOf groups).length, by omega⟩

/-- What the option loop finds on such a command line. -/
theorem parse_source (mc : Bool) (program : List Nat) (groups : List OptGroup) (source : List Nat) (rest : List (List Nat)) (h : SourceLine groups source) :
    parseOptions mc (commandLine program groups (source :: rest)) (((commandLine program groups (source :: rest)).map List.length).sum + 1) ⟨none, none, false⟩ optInit =
      .ok (.run ⟨lastArgument 100 (optionsOf groups), lastArgument 112 (optionsOf groups), (optionsOf groups).any (·.1 = 118)⟩ source) := by
  obtain ⟨oa, hs⟩ := groups_steps mc (codes "d:hp:vV") (source :: rest) groups [program] none h.options
  have hend := getopt_operands mc (codes "d:hp:vV") ([program] ++ groups.flatMap OptGroup.args) (source :: rest) oa (fun a ha => by cases ha; exact h.operand)
  rw [List.append_assoc] at hend
  obtain ⟨extra, he⟩ := commandLine_size program groups (source :: rest) h.options
  rw [he]
  have hk := optionsOf_kinds h.options
  have h1 : ∀ x ∈ optionsOf groups, x.1 = 100 ∨ x.1 = 112 ∨ x.1 = 118 := fun x hx => by
    have := h.run x hx
    rcases hk x hx with h' | h' <;> omega
  have h2 : ∀ x ∈ optionsOf groups, x.1 ≠ 118 → x.2 ≠ none := fun x hx hne => by
    have := h.run x hx
    rcases hk x hx with ⟨h', -⟩ | ⟨-, h'⟩
    · omega
    · exact h'
  have hp := parse_steps hs ⟨none, none, false⟩ (extra + 1) h1
  refine Eq.trans hp ?_
  rw [show groups.flatMap OptGroup.options = optionsOf groups from rfl, foldl_apply _ _ h1 h2, parseOptions, hend]
  simp only [Res.ok_bind]
  have hb : ([program] ++ (groups.flatMap OptGroup.args ++ source :: rest))[([program] ++ groups.flatMap OptGroup.args).length]? = some source := by
    rw [← List.append_assoc, List.getElem?_append_right (Nat.le_refl _)]
    simp
  rw [if_neg (by simp [argVector]), argAt_ok _ _ source hb h.text]
  simp [optionsOf]

/-- An environment that does not prevent the main program from starting. -/
structure EnvOk (E : Environment) : Prop where
  tool : E.tool.Ok
  dp : E.dp ≠ some 0
  locale : E.localeOk = true
  output : E.outputOk = true

theorem hmacsum_run {E : Environment} (hE : EnvOk E) {args : List (List Nat)} {o : Options} {source : List Nat}
    (h : parseOptions E.mc args ((args.map List.length).sum + 1) ⟨none, none, false⟩ optInit = .ok (.run o source)) (W : World) : hmacsum E args W = runSource E o source [.version] W := by
  simp [hmacsum, hE.locale, hE.output, h]

theorem noneInv_start (W : World) : NoneInv (fun w => (W.mem.live w).map (·.1)) W.blocks W := ⟨fun _ => List.Perm.refl _, List.Perm.refl _⟩

/-- Environment for the examples. -/
def env1 : Environment where
  tool := tool0
  mc := true
  localeOk := true
  outputOk := true
  splitOk := true
  splitFreeOk := true
  closeOk := true
  freeOk := true
  dp := some 46
  files := fun name => if name = codes "file" then some input0 else none
  arrival := .never

theorem env1_ok : EnvOk env1 := ⟨tool0_ok, by decide, rfl, rfl⟩

theorem line1 : SourceLine groups0 (codes "file") := ⟨groups0_ok, by decide, by decide, by decide⟩

/-! ### C50 -/

/-- C50. On a well-formed command line, exit status 0 means: the source could be opened, and standard output consists of the version line and, for MD5 and every algorithm named by the last -d, the hexadecimal
standard digest of the file (its first `size` bytes, where `size` is its reported size), in the fixed order, and nothing else. For all file contents, read schedules, allocation outcomes, signals, option arguments and builds. -/
theorem C50_success (E : Environment) (hE : EnvOk E) (program : List Nat) (groups : List OptGroup) (source : List Nat) (rest : List (List Nat)) (hl : SourceLine groups source) (W : World) :
    ∃ x W', hmacsum E (commandLine program groups (source :: rest)) W = .ok (x, W') ∧ (x.status = true →
      ∃ lines inp size, x.out = .version :: lines ∧ lines ≠ [] ∧ E.files source = some inp ∧ inp.size = some size ∧ size ≤ inp.content.length ∧
        ((∀ k, Selected (lastArgument 100 (optionsOf groups)) k → k.LengthOk size) → DigestLines (lastArgument 100 (optionsOf groups)) (inp.content.take size) lines)) := by
  rw [hmacsum_run hE (parse_source E.mc program groups source rest hl)]
  obtain ⟨x, W', extra, e, -, -, -, hr, -⟩ := runSource_ok hE.tool hE.dp _ source [.version] W.blocks W (noneInv_start W)
  refine ⟨x, W', e, fun hx => ?_⟩
  obtain ⟨ds, -, h2, -, h4⟩ := hr.lines
  obtain ⟨hne, -, hout⟩ := h2 hx
  obtain ⟨inp, size, h5, h6, h7, h8⟩ := h4 hne
  exact ⟨ds, inp, size, hout, hne, h5, h6, h7, h8⟩

example := C50_success env1 env1_ok (codes "hmacsum") groups0 (codes "file") [] line1 world0

/-- C50. A digest is never printed wrongly, whatever the exit status: every digest line is that of a selected algorithm and shows the digest of the file. -/
theorem C50_no_wrong_digest (E : Environment) (hE : EnvOk E) (program : List Nat) (groups : List OptGroup) (source : List Nat) (rest : List (List Nat)) (hl : SourceLine groups source) (W : World)
    (x : Exit) (W' : World) (e : hmacsum E (commandLine program groups (source :: rest)) W = .ok (x, W')) (k : Kind) (text : List Nat) (hk : Line.digest k text ∈ x.out) :
    ∃ inp size, E.files source = some inp ∧ inp.size = some size ∧ size ≤ inp.content.length ∧
      ((∀ k, Selected (lastArgument 100 (optionsOf groups)) k → k.LengthOk size) → Selected (lastArgument 100 (optionsOf groups)) k ∧ text = hex (k.std.digest (inp.content.take size))) := by
  rw [hmacsum_run hE (parse_source E.mc program groups source rest hl)] at e
  obtain ⟨x', V, extra, e', -, -, -, hr, -⟩ := runSource_ok hE.tool hE.dp
    ⟨lastArgument 100 (optionsOf groups), lastArgument 112 (optionsOf groups), (optionsOf groups).any (·.1 = 118)⟩ source [.version] W.blocks W (noneInv_start W)
  rw [e] at e'
  cases e'
  obtain ⟨ds, h1, -, -, h4⟩ := hr.lines
  have hmem : Line.digest k text ∈ ds := by
    rcases h1 with h1 | ⟨h1, -⟩ <;> rw [h1] at hk <;> simpa using hk
  obtain ⟨inp, size, h5, h6, h7, h8⟩ := h4 (List.ne_nil_of_mem hmem)
  refine ⟨inp, size, h5, h6, h7, fun hlen => ?_⟩
  obtain ⟨sel, hsel, rfl⟩ := h8 hlen
  obtain ⟨k', hk', he⟩ := List.mem_map.mp hmem
  cases he
  exact ⟨(hsel k).mp (List.mem_filter.mp hk').2, rfl⟩

/-- The -p option is absent or a size text with a value from 1 to 2^64 - 1 and a factor other than K. -/
def BufferArgument (dp : Option Nat) (arg : Option (List Nat)) : Prop :=
  ∀ s, arg = some s → ∃ c ds sp f up u, dp = some c ∧ c ∉ sizeChars ∧ s = sizeText c ds none sp f up u ∧ f ≠ 1 ∧ 0 < decimal ds * u.base ^ f.1 ∧ decimal ds * u.base ^ f.1 < 2 ^ 64

/-- C50. The program does succeed and print the digests: if the command line is well-formed, the file can be opened, has its reported size and every read delivers something, allocations and library calls succeed and no signal arrives. -/
theorem C50_completes (E : Environment) (hE : EnvOk E) (program : List Nat) (groups : List OptGroup) (source : List Nat) (rest : List (List Nat)) (hl : SourceLine groups source) (W : World)
    (inp : Input) (hfile : E.files source = some inp) (hsize : inp.size = some inp.content.length) (hreads : ∀ i, ∃ c, inp.reads i = some c ∧ 0 < c)
    (halloc : ∀ n, E.tool.alloc n = true) (hcalls : E.closeOk = true ∧ E.freeOk = true ∧ E.splitOk = true ∧ E.splitFreeOk = true) (harr : E.arrival = .never)
    (hbuf : BufferArgument E.dp (lastArgument 112 (optionsOf groups))) (hlen : ∀ k, Selected (lastArgument 100 (optionsOf groups)) k → k.LengthOk inp.content.length) :
    ∃ lines W', hmacsum E (commandLine program groups (source :: rest)) W = .ok (⟨true, .version :: lines⟩, W') ∧ DigestLines (lastArgument 100 (optionsOf groups)) inp.content lines := by
  rw [hmacsum_run hE (parse_source E.mc program groups source rest hl)]
  obtain ⟨x, W', extra, e, -, -, -, hr, hgood⟩ := runSource_ok hE.tool hE.dp
    ⟨lastArgument 100 (optionsOf groups), lastArgument 112 (optionsOf groups), (optionsOf groups).any (·.1 = 118)⟩ source [.version] W.blocks W (noneInv_start W)
  have hx : x.status = true := hgood inp _ hfile hsize (Nat.le_refl _) hreads halloc harr hcalls.1 hcalls.2.1 hcalls.2.2.1 hcalls.2.2.2 (fun s hs h => by
    obtain ⟨c, ds, sp, f, up, u, hdp, hc, rfl, hf, hv0, hv⟩ := hbuf s hs
    rw [hdp, C45_value_partial _ c hc ds sp f hf up u h hv]
    by_cases hle : decimal ds * u.base ^ f.1 ≤ ssizeMax
    · exact ⟨1, decimal ds * u.base ^ f.1, by rw [if_pos hle], .inr ⟨rfl, hv0⟩⟩
    · exact ⟨0, h.bufferSize, by rw [if_neg hle], .inl rfl⟩)
  obtain ⟨ds, -, h2, -, h4⟩ := hr.lines
  obtain ⟨hne, -, hout⟩ := h2 hx
  obtain ⟨inp', size, h5, h6, h7, h8⟩ := h4 hne
  rw [hfile] at h5
  cases h5
  rw [hsize] at h6
  cases h6
  have h8 := h8 hlen
  rw [List.take_length] at h8
  refine ⟨ds, W', ?_, h8⟩
  rw [e]
  obtain ⟨st, out⟩ := x
  simp only at hx hout
  subst hx hout
  rfl

example : ∃ lines W', hmacsum env1 (commandLine (codes "hmacsum") groups0 [codes "file"]) world0 = .ok (⟨true, .version :: lines⟩, W') ∧ DigestLines (some (codes "sha1")) input0.content lines := by
  have hlen : input0.content.length = 100000 := List.length_replicate
  exact C50_completes env1 env1_ok (codes "hmacsum") groups0 (codes "file") [] line1 world0 input0 (by simp [env1]) (by rw [hlen]; rfl) (fun _ => ⟨1000, rfl, by decide⟩) (fun _ => rfl) ⟨rfl, rfl, rfl, rfl⟩ rfl
    (fun s hs => ⟨46, [1], false, 2, true, .none, rfl, by decide, by
      rw [show lastArgument 112 (optionsOf groups0) = some (codes "1M") by decide] at hs
      cases hs
      decide, by decide, by decide, by decide⟩)
    (fun k _ => by rw [hlen]; cases k <;> decide)

/-- C50. On any command line without an argument "-", exit status 0 means one of three things: the usage text was shown, the copyright text was shown, or the digests of some file were printed. -/
theorem C50_any_command_line (E : Environment) (hE : EnvOk E) (bodies : List (List Nat)) (hne : bodies ≠ []) (h0 : ∀ b ∈ bodies, 0 ∉ b) (hdash : ∀ b ∈ bodies.drop 1, b ≠ [45]) (W : World) :
    ∃ x W', hmacsum E (argVector bodies) W = .ok (x, W') ∧ (x.status = true → x.out = [.version, .usage] ∨ x.out = [.version, .copyright] ∨
      ∃ types source lines inp size, x.out = .version :: lines ∧ lines ≠ [] ∧ E.files source = some inp ∧ inp.size = some size ∧ size ≤ inp.content.length ∧
        ((∀ k, Selected types k → k.LengthOk size) → DigestLines types (inp.content.take size) lines)) := by
  obtain ⟨b, bs, rfl⟩ := List.exists_cons_of_ne_nil hne
  obtain ⟨p, hp⟩ := parse_ok E.mc (b :: bs) h0 hdash (((argVector (b :: bs)).map List.length).sum + 1) ⟨none, none, false⟩ optInit ⟨by simp [optInit], by simp [optInit], by simp [optInit]⟩ (by simp [optInit])
    (by
      simp only [OptState.work, optInit, remaining, List.drop_one, List.tail_cons, argVector, List.map_cons, List.sum_cons, List.map_map]
      have : (List.length ∘ fun x : List Nat => x ++ [0]) = fun b => b.length + 1 := by funext; simp
      rw [this]
      omega)
  cases p with
  | run o source =>
    rw [hmacsum_run hE hp]
    obtain ⟨x, W', extra, e, -, -, -, hr, -⟩ := runSource_ok hE.tool hE.dp o source [.version] W.blocks W (noneInv_start W)
    refine ⟨x, W', e, fun hx => .inr (.inr ?_)⟩
    obtain ⟨ds, -, h2, -, h4⟩ := hr.lines
    obtain ⟨hne, -, hout⟩ := h2 hx
    obtain ⟨inp, size, h5, h6, h7, h8⟩ := h4 hne
    exact ⟨o.digests, source, ds, inp, size, hout, hne, h5, h6, h7, h8⟩
  | help => exact ⟨⟨true, [.version, .usage]⟩, W, by simp [hmacsum, hE.locale, hE.output, hp], fun _ => .inl rfl⟩
  | version => exact ⟨⟨true, [.version, .copyright]⟩, W, by simp [hmacsum, hE.locale, hE.output, hp], fun _ => .inr (.inl rfl)⟩
  | invalid => exact ⟨⟨false, [.version, .usage]⟩, W, by simp [hmacsum, hE.locale, hE.output, hp, onError, sumFree], fun h => by cases h⟩
  | missing => exact ⟨⟨false, [.version, .usage]⟩, W, by simp [hmacsum, hE.locale, hE.output, hp, onError, sumFree], fun h => by cases h⟩

example := C50_any_command_line env1 env1_ok [codes "hmacsum", codes "-x", codes "file"] (by simp) (by decide) (by decide) world0

/-- C50. Options before the first -h or -V only have to be well-formed: then the usage or the copyright text is shown, with exit status 0, and no file is opened. -/
theorem C50_help (E : Environment) (hE : EnvOk E) (program : List Nat) (groups : List OptGroup) (hg : ∀ g ∈ groups, g.Ok (codes "d:hp:vV")) (rest : List (List Nat))
    (pre post : List (Nat × Option (List Nat))) (c : Nat) (ho : optionsOf groups = pre ++ (c, none) :: post) (hpre : ∀ x ∈ pre, x.1 ≠ 104 ∧ x.1 ≠ 86) (hc : c = 104 ∨ c = 86) (W : World) :
    hmacsum E (commandLine program groups rest) W = .ok (⟨true, [.version, if c = 104 then .usage else .copyright]⟩, W) := by
  obtain ⟨oa, hs⟩ := groups_steps E.mc (codes "d:hp:vV") rest groups [program] none hg
  rw [show groups.flatMap OptGroup.options = optionsOf groups from rfl, ho] at hs
  obtain ⟨s1, hs1, hs2⟩ := hs.split
  obtain ⟨extra, he⟩ := commandLine_size program groups rest hg
  have h1 : ∀ x ∈ pre, x.1 = 100 ∨ x.1 = 112 ∨ x.1 = 118 := fun x hx => by
    have := hpre x hx
    rcases optionsOf_kinds hg x (by rw [ho]; simp [hx]) with h' | h' <;> omega
  have hp := parse_steps hs1 ⟨none, none, false⟩ (post.length + 1 + extra + 1) h1
  have hp : parseOptions E.mc (commandLine program groups rest) (((commandLine program groups rest).map List.length).sum + 1) ⟨none, none, false⟩ optInit =
      .ok (if c = 104 then .help else .version) := by
    rw [he, ho, List.length_append, List.length_cons, show pre.length + (post.length + 1) + (extra + 1) = pre.length + (post.length + 1 + extra + 1) by omega]
    refine Eq.trans hp ?_
    cases hs2 with
    | cons h ha _ =>
      rw [parseOptions, h]
      rcases hc with rfl | rfl <;> rfl
  rcases hc with rfl | rfl <;> simp [hmacsum, hE.locale, hE.output, hp]

/-- "-vh -d x" -/
example : hmacsum env1 (commandLine (codes "hmacsum") [⟨[118, 104], none⟩, ⟨[], some (100, codes "x", false)⟩] []) world0 = .ok (⟨true, [.version, .usage]⟩, world0) :=
  C50_help env1 env1_ok (codes "hmacsum") _ (by
    intro g hg
    simp only [List.mem_cons, List.not_mem_nil, or_false] at hg
    rcases hg with rfl | rfl
    · exact ⟨by simp, by decide, by simp⟩
    · exact ⟨by simp, by decide, fun o v a h => by cases h; decide⟩) [] [(118, none)] [(100, some (codes "x"))] 104 rfl (by decide) (.inl rfl) world0

/-- C50. Without a source the usage text is shown and the exit status is failure. -/
theorem C50_missing_source (E : Environment) (hE : EnvOk E) (program : List Nat) (groups : List OptGroup) (hg : ∀ g ∈ groups, g.Ok (codes "d:hp:vV"))
    (hrun : ∀ x ∈ optionsOf groups, x.1 ≠ 104 ∧ x.1 ≠ 86) (W : World) :
    hmacsum E (commandLine program groups []) W = .ok (⟨false, [.version, .usage]⟩, W) := by
  obtain ⟨oa, hs⟩ := groups_steps E.mc (codes "d:hp:vV") [] groups [program] none hg
  have hend := getopt_operands E.mc (codes "d:hp:vV") ([program] ++ groups.flatMap OptGroup.args) [] oa (fun a ha => by cases ha)
  rw [List.append_assoc] at hend
  obtain ⟨extra, he⟩ := commandLine_size program groups [] hg
  have h1 : ∀ x ∈ optionsOf groups, x.1 = 100 ∨ x.1 = 112 ∨ x.1 = 118 := fun x hx => by
    have := hrun x hx
    rcases optionsOf_kinds hg x hx with h' | h' <;> omega
  have hp := parse_steps hs ⟨none, none, false⟩ (extra + 1) h1
  have hp : parseOptions E.mc (commandLine program groups []) (((commandLine program groups []).map List.length).sum + 1) ⟨none, none, false⟩ optInit = .ok .missing := by
    rw [he]
    refine Eq.trans hp ?_
    rw [parseOptions, hend]
    simp [argVector]
  simp [hmacsum, hE.locale, hE.output, hp, onError, sumFree]

example := C50_missing_source env1 env1_ok (codes "hmacsum") groups0 groups0_ok (by decide) world0

/-- C50. An option that is unknown, or that lacks its argument at the end of the command line, makes the program show the usage text and fail, unless -h or -V comes before it. -/
theorem C50_invalid (E : Environment) (hE : EnvOk E) (program : List Nat) (groups : List OptGroup) (hg : ∀ g ∈ groups, g.Ok (codes "d:hp:vV")) (hrun : ∀ x ∈ optionsOf groups, x.1 ≠ 104 ∧ x.1 ≠ 86)
    (flags : List Nat) (hflags : ∀ f ∈ flags, f = 118) (x : Nat) (hx0 : x ≠ 0) (hx45 : x ≠ 45) (tail : List Nat) (ht : 0 ∉ tail) (rest : List (List Nat)) (hp0 : 0 ∉ program) (hr0 : ∀ b ∈ rest, 0 ∉ b)
    (hx : optionKind (codes "d:hp:vV") x = none ∨ optionKind (codes "d:hp:vV") x = some true ∧ tail = [] ∧ rest = []) (W : World) :
    hmacsum E (commandLine program groups ((45 :: (flags ++ x :: tail)) :: rest)) W = .ok (⟨false, [.version, .usage]⟩, W) := by
  obtain ⟨oa, hs⟩ := groups_steps E.mc (codes "d:hp:vV") ((45 :: (flags ++ x :: tail)) :: rest) groups [program] none hg
  obtain ⟨s1, s2, hs1, hs2, hlo, hhi, -⟩ := bad_steps E.mc (codes "d:hp:vV") ([program] ++ groups.flatMap OptGroup.args) rest flags x tail
    (fun f hf => by rw [hflags f hf]; decide) hx0 hx45 ht hx oa
  rw [List.append_assoc] at hs1 hs2
  have hall := hs.trans hs1
  obtain ⟨extra, he⟩ := commandLine_size program groups ((45 :: (flags ++ x :: tail)) :: rest) hg
  have h1 : ∀ x ∈ groups.flatMap OptGroup.options ++ flags.map (fun f => (f, none)), x.1 = 100 ∨ x.1 = 112 ∨ x.1 = 118 := fun x hx => by
    rcases List.mem_append.mp hx with hx | hx
    · have := hrun x hx
      rcases optionsOf_kinds hg x hx with h' | h' <;> omega
    · obtain ⟨f, hf, rfl⟩ := List.mem_map.mp hx
      exact .inr (.inr (hflags f hf))
  have hfuel : ∃ extra', ((commandLine program groups ((45 :: (flags ++ x :: tail)) :: rest)).map List.length).sum + 1 =
      (groups.flatMap OptGroup.options ++ flags.map (fun f => ((f, none) : Nat × Option (List Nat)))).length + (extra' + 1) := by
    have h1 := options_length groups hg
    have : ((commandLine program groups ((45 :: (flags ++ x :: tail)) :: rest)).map List.length).sum = program.length + 1 + (((groups.flatMap OptGroup.args).map fun b => b.length + 1).sum +
        ((flags.length + (tail.length + 1)) + 1 + 1 + (rest.map fun b => b.length + 1).sum)) := by
      simp only [commandLine, argVector, List.map_map, List.map_cons, List.map_append, List.sum_cons, List.sum_append]
      simp [Function.comp_def]
      omega
    rw [List.length_append, List.length_map]
    simp only [optionsOf] at h1
    exact ⟨((commandLine program groups ((45 :: (flags ++ x :: tail)) :: rest)).map List.length).sum - ((groups.flatMap OptGroup.options).length + flags.length), by omega⟩
  obtain ⟨extra', hfuel⟩ := hfuel
  have hp := parse_steps hall ⟨none, none, false⟩ (extra' + 1) h1
  have hbad : ∃ a, argAt (argVector ([program] ++ (groups.flatMap OptGroup.args ++ (45 :: (flags ++ x :: tail)) :: rest))) (s2.optind - 1) = .ok a := by
    have hlt : s2.optind - 1 < ([program] ++ (groups.flatMap OptGroup.args ++ (45 :: (flags ++ x :: tail)) :: rest)).length := by
      simp only [List.length_append, List.length_cons, List.length_nil] at hhi ⊢
      omega
    refine ⟨_, argAt_ok _ _ _ (List.getElem?_eq_getElem hlt) ?_⟩
    intro h0
    have hm := List.getElem_mem hlt
    generalize ([program] ++ (groups.flatMap OptGroup.args ++ (45 :: (flags ++ x :: tail)) :: rest))[s2.optind - 1] = b at h0 hm
    simp only [List.mem_append, List.mem_cons, List.not_mem_nil, or_false, List.mem_flatMap] at hm
    rcases hm with rfl | ⟨g, hg', hb⟩ | rfl | hb
    · exact hp0 h0
    · exact args_no_nul (hg g hg') b hb h0
    · simp only [List.mem_cons, List.mem_append] at h0
      rcases h0 with h | h | h | h
      · cases h
      · have := hflags 0 h
        omega
      · exact hx0 h.symm
      · exact ht h
    · exact hr0 b hb h0
  obtain ⟨a, hbad⟩ := hbad
  have hp : parseOptions E.mc (commandLine program groups ((45 :: (flags ++ x :: tail)) :: rest)) (((commandLine program groups ((45 :: (flags ++ x :: tail)) :: rest)).map List.length).sum + 1)
      ⟨none, none, false⟩ optInit = .ok .invalid := by
    rw [hfuel]
    refine Eq.trans hp ?_
    rw [parseOptions, hs2]
    simp only [Res.ok_bind]
    have hc : ∀ c, c = 63 ∨ c = 58 → c ≠ 100 ∧ c ≠ 104 ∧ c ≠ 112 ∧ c ≠ 118 ∧ c ≠ 86 := by omega
    obtain ⟨c1, c2, c3, c4, c5⟩ := hc (if optionKind (codes "d:hp:vV") x = none then 63 else 58) (by split <;> simp)
    rw [if_neg c1, if_neg c2, if_neg c3, if_neg c4, if_neg c5]
    change (argAt (argVector ([program] ++ (groups.flatMap OptGroup.args ++ (45 :: (flags ++ x :: tail)) :: rest))) (s2.optind - 1) >>= fun _ => pure Parsed.invalid) = _
    rw [hbad]
    rfl
  simp [hmacsum, hE.locale, hE.output, hp, onError, sumFree]

/-- "-v -vdsha1 -p 1M -vxd file" and "-v -vdsha1 -p 1M -d" -/
example : hmacsum env1 (commandLine (codes "hmacsum") groups0 [codes "-vxd", codes "file"]) world0 = .ok (⟨false, [.version, .usage]⟩, world0) :=
  C50_invalid env1 env1_ok (codes "hmacsum") groups0 groups0_ok (by decide) [118] (by simp) 120 (by decide) (by decide) [100] (by decide) [codes "file"] (by decide) (by decide) (.inl (by decide)) world0

example : hmacsum env1 (commandLine (codes "hmacsum") groups0 [codes "-d"]) world0 = .ok (⟨false, [.version, .usage]⟩, world0) :=
  C50_invalid env1 env1_ok (codes "hmacsum") groups0 groups0_ok (by decide) [] (by simp) 100 (by decide) (by decide) [] (by decide) [] (by decide) (by decide) (.inr ⟨by decide, rfl, rfl⟩) world0

/-! ### C38 -/

/-- C38. If a signal arrives after the handler was attached and before the end of processing, no digest is printed and the exit status is failure; if it arrives before the end, the exit status is failure. -/
theorem C38_tool (E : Environment) (hE : EnvOk E) (program : List Nat) (groups : List OptGroup) (source : List Nat) (rest : List (List Nat)) (hl : SourceLine groups source) (W : World)
    (hsig : E.arrival ≠ .never) :
    ∃ x W', hmacsum E (commandLine program groups (source :: rest)) W = .ok (x, W') ∧ x.status = false ∧ (E.arrival ≠ .late → ∀ k text, Line.digest k text ∉ x.out) := by
  rw [hmacsum_run hE (parse_source E.mc program groups source rest hl)]
  obtain ⟨x, W', extra, e, -, -, -, hr, -⟩ := runSource_ok hE.tool hE.dp
    ⟨lastArgument 100 (optionsOf groups), lastArgument 112 (optionsOf groups), (optionsOf groups).any (·.1 = 118)⟩ source [.version] W.blocks W (noneInv_start W)
  obtain ⟨ds, h1, h2, h3, -⟩ := hr.lines
  refine ⟨x, W', e, ?_, fun hlate k text hm => ?_⟩
  · by_contra hx
    have := (h2 (by simpa using hx)).2.1
    cases ha : E.arrival <;> simp_all [Arrival.atFinal]
  · have hds : ds = [] := h3 (by cases ha : E.arrival <;> simp_all [Arrival.atProcessed])
    subst hds
    rcases h1 with h1 | ⟨h1, -⟩ <;> rw [h1] at hm <;> simp at hm

example := C38_tool { env1 with arrival := .reading 3 } ⟨tool0_ok, by decide, rfl, rfl⟩ (codes "hmacsum") groups0 (codes "file") [] line1 world0 (by simp)

/-! ### C51 -/

/-- Full statement of C51: the program has no undefined behaviour, terminates, and releases its memory. -/
def C51Statement : Prop := ∀ (E : Environment), E.tool.Ok → E.dp ≠ some 0 → ∀ bodies : List (List Nat), bodies ≠ [] → (∀ b ∈ bodies, 0 ∉ b) → ∀ W,
  ∃ x W', hmacsum E (argVector bodies) W = .ok (x, W') ∧ (∀ w, ((W'.mem.live w).map (·.1)).Perm ((W.mem.live w).map (·.1))) ∧ W'.blocks.Perm W.blocks

/-- What holds: for every command line without an argument "-", the program ends without undefined behaviour; all contexts are released, and all other memory up to at most one block, which is left only if an
allocation failed and the exit status is failure. Missing: the argument "-" and that block. -/
theorem C51_safe_partial (E : Environment) (hT : E.tool.Ok) (hdp : E.dp ≠ some 0) (bodies : List (List Nat)) (hne : bodies ≠ []) (h0 : ∀ b ∈ bodies, 0 ∉ b)
    (hdash : ∀ b ∈ bodies.drop 1, b ≠ [45]) (W : World) :
    ∃ x W' leaked, hmacsum E (argVector bodies) W = .ok (x, W') ∧ (∀ w, ((W'.mem.live w).map (·.1)).Perm ((W.mem.live w).map (·.1))) ∧ W'.blocks.Perm (leaked ++ W.blocks) ∧
      leaked.length ≤ 1 ∧ (leaked ≠ [] → x.status = false ∧ ∃ n, E.tool.alloc n = false) := by
  by_cases hlo : E.localeOk = true
  · by_cases hou : E.outputOk = true
    · obtain ⟨b, bs, rfl⟩ := List.exists_cons_of_ne_nil hne
      obtain ⟨p, hp⟩ := parse_ok E.mc (b :: bs) h0 hdash (((argVector (b :: bs)).map List.length).sum + 1) ⟨none, none, false⟩ optInit ⟨by simp [optInit], by simp [optInit], by simp [optInit]⟩ (by simp [optInit])
        (by
          simp only [OptState.work, optInit, remaining, List.drop_one, List.tail_cons, argVector, List.map_cons, List.sum_cons, List.map_map]
          have : (List.length ∘ fun x : List Nat => x ++ [0]) = fun b => b.length + 1 := by funext; simp
          rw [this]
          omega)
      cases p with
      | run o source =>
        obtain ⟨x, W', extra, e, hN, hlen, hex, -⟩ := runSource_ok hT hdp o source [.version] W.blocks W (noneInv_start W)
        exact ⟨x, W', extra, by simp [hmacsum, hlo, hou, hp, e], hN.1, hN.2, hlen, hex⟩
      | help => exact ⟨⟨true, [.version, .usage]⟩, W, [], by simp [hmacsum, hlo, hou, hp], fun _ => List.Perm.refl _, List.Perm.refl _, by simp, by simp⟩
      | version => exact ⟨⟨true, [.version, .copyright]⟩, W, [], by simp [hmacsum, hlo, hou, hp], fun _ => List.Perm.refl _, List.Perm.refl _, by simp, by simp⟩
      | invalid => exact ⟨⟨false, [.version, .usage]⟩, W, [], by simp [hmacsum, hlo, hou, hp, onError, sumFree], fun _ => List.Perm.refl _, List.Perm.refl _, by simp, by simp⟩
      | missing => exact ⟨⟨false, [.version, .usage]⟩, W, [], by simp [hmacsum, hlo, hou, hp, onError, sumFree], fun _ => List.Perm.refl _, List.Perm.refl _, by simp, by simp⟩
    · exact ⟨⟨false, []⟩, W, [], by simp [hmacsum, hlo, hou, onError, sumFree], fun _ => List.Perm.refl _, List.Perm.refl _, by simp, by simp⟩
  · exact ⟨⟨false, []⟩, W, [], by simp [hmacsum, hlo, onError, sumFree], fun _ => List.Perm.refl _, List.Perm.refl _, by simp, by simp⟩

example := C51_safe_partial { env1 with tool := { tool0 with alloc := fun n => n ≠ 9 }, arrival := .reading 2 } ⟨tool0_ok.scr, tool0_ok.hashJunk, tool0_ok.stringJunk, tool0_ok.bufferJunk⟩ (by decide)
  [codes "hmacsum", codes "-dsha1,sha512", codes "-v", codes "file", codes "-x"] (by simp) (by decide) (by decide) world0

/-- The command line "hmacsum -" makes the option parser read outside of a string. -/
theorem C51_dash_ub : hmacsum env1 (argVector [codes "hmacsum", codes "-"]) world0 = .ub := by
  have : getopt true (argVector [codes "hmacsum", codes "-"]) (codes "d:hp:vV") optInit = .ub := by decide
  have h2 : parseOptions true (argVector [codes "hmacsum", codes "-"]) (((argVector [codes "hmacsum", codes "-"]).map List.length).sum + 1) ⟨none, none, false⟩ optInit = .ub := by
    rw [parseOptions, this]
    rfl
  simp [hmacsum, env1, h2]

theorem C51_statement_false : ¬ C51Statement := by
  intro h
  obtain ⟨x, W', e, -⟩ := h env1 tool0_ok (by decide) [codes "hmacsum", codes "-"] (by simp) (by decide) world0
  rw [C51_dash_ub] at e
  cases e

end Props
