import Verif.Proofs.Builds
import Verif.Proofs.BuildsMixed
import Verif.Props.Hmacsum
import Verif.Props.BackendOneShot
/-! C73: hmacsum in the builds that use a crypto library for some or all of the algorithms. -/

namespace Props

open Model Spec

variable {ch : Kind → Choice} {L : Kind → Library}

/-- The crypto libraries in use compute the standard functions if their calls succeed, and write no more than the digest. Any call may fail. -/
def Correct (ch : Kind → Choice) (L : Kind → Library) : Prop := ∀ k, ch k ≠ .builtin → Sound (L k) k ∧ Tame (L k) k.hashSize

theorem Correct.law {E : Environment} (hE : EnvOk E) (h : Correct ch L) (limit : Nat) (hlim : ∀ k B, ch k = .crypto B → limit ≤ B.maxUpdate) (m : MixedMem L) :
    ∃ Rep : (k : Kind) → (L k).State → List Byte → Prop, Builds.Law (Contexts.mixed ch L E.tool) E.tool (∀ k, ch k ≠ .builtin → Reliable (L k)) limit
      (Builds.MixedRel ch L Rep (fun w => (m.mem.live w).map (·.1)) m.live) := by
  have : ∀ k, ∃ Rep : (L k).State → List Byte → Prop, ch k ≠ .builtin → Contract (L k) k Rep := fun k => by
    by_cases hk : ch k = .builtin
    · exact ⟨fun _ _ => True, fun h => absurd hk h⟩
    · obtain ⟨Rep, hr⟩ := (h k hk).1
      exact ⟨Rep, fun _ => hr⟩
  choose Rep hRep using this
  exact ⟨Rep, Builds.mixed_law hE.tool hRep (fun k hk => (h k hk).2) limit hlim⟩

/-- 2^32 - 1 is below the limit of every backend. -/
theorem limit_small (B : Backend) : 2 ^ 32 - 1 ≤ B.maxUpdate := by
  rcases B with (_ | _) | _ | _ <;> decide

theorem builds_run {M : Type} {C : Contexts M} {E : Environment} (hE : EnvOk E) {args : List (List Nat)} {o : Options} {source : List Nat}
    (h : parseOptions E.mc args ((args.map List.length).sum + 1) ⟨none, none, false⟩ optInit = .ok (.run o source)) (W : WorldOf M) : Builds.hmacsum E C args W = Builds.runSource E C o source [.version] W := by
  simp [Builds.hmacsum, hE.locale, hE.output, h]

theorem builds_start {Rep : (k : Kind) → (L k).State → List Byte → Prop} (W : WorldOf (MixedMem L)) :
    Builds.NoneInv (Builds.MixedRel ch L Rep (fun w => (W.mem.mem.live w).map (·.1)) W.mem.live) W.blocks W := ⟨Builds.mixed_start W.mem, List.Perm.refl _⟩

/-! ### Examples -/

/-- MD5 and SHA-224 of the library, in the two kinds of branches; the others are built in. -/
def choice0 : Kind → Choice
  | .md5 => .crypto (.direct true)
  | .sha224 => .crypto .evpAllocated
  | _ => .builtin

theorem exact_correct : Correct choice0 exactLibrary := fun k _ => ⟨⟨_, exact_contract k⟩, exact_tame k⟩

/-- A library that fails now and then. -/
theorem failing_correct : Correct choice0 failingLibrary := fun k _ => ⟨⟨_, failing_contract k⟩, fun _ st _ _ => ⟨k.std.digest st, std_digest_length k st, rfl⟩⟩

def mixed0 (L : Kind → Library) : WorldOf (MixedMem L) := ⟨⟨world0.mem, 0, fun _ => []⟩, world0.blocks⟩

/-! ### C73 -/

/-- C73. The model of all builds, with every algorithm built in, is the program of C50. -/
theorem C73_builtin (E : Environment) (args : List (List Nat)) (W : World) : Builds.hmacsum E (.builtin E.tool) args W = hmacsum E args W := Builds.hmacsum_builtin E args W

/-- C73. In every build, exit status 0 means: the source could be opened, and standard output consists of the version line and the hexadecimal standard digests of the file for MD5 and every algorithm named by the
last -d, in the fixed order, and nothing else. Any call of a crypto library may fail. -/
theorem C73_success (E : Environment) (hE : EnvOk E) (hL : Correct ch L) (program : List Nat) (groups : List OptGroup) (source : List Nat) (rest : List (List Nat)) (hl : SourceLine groups source)
    (W : WorldOf (MixedMem L)) :
    ∃ x W', Builds.hmacsum E (.mixed ch L E.tool) (commandLine program groups (source :: rest)) W = .ok (x, W') ∧ (x.status = true →
      ∃ lines inp size, x.out = .version :: lines ∧ lines ≠ [] ∧ E.files source = some inp ∧ inp.size = some size ∧ size ≤ inp.content.length ∧
        (size < 2 ^ 61 → DigestLines (lastArgument 100 (optionsOf groups)) (inp.content.take size) lines)) := by
  rw [builds_run hE (parse_source E.mc program groups source rest hl)]
  obtain ⟨Rep, law⟩ := hL.law hE _ (fun _ B _ => limit_small B) W.mem
  obtain ⟨x, W', extra, e, -, -, -, hr, -⟩ := Builds.runSource_ok hE.tool law hE.dp _ source [.version] W.blocks W (builds_start W)
  refine ⟨x, W', e, fun hx => ?_⟩
  obtain ⟨ds, -, h2, -, h4⟩ := hr.lines
  obtain ⟨hne, -, hout⟩ := h2 hx
  obtain ⟨inp, size, h5, h6, h7, h8⟩ := h4 hne
  exact ⟨ds, inp, size, hout, hne, h5, h6, h7, h8⟩

example := C73_success env1 env1_ok failing_correct (codes "hmacsum") groups0 (codes "file") [] line1 (mixed0 _)

/-- C73. In no build a digest is printed wrongly, whatever the exit status. -/
theorem C73_no_wrong_digest (E : Environment) (hE : EnvOk E) (hL : Correct ch L) (program : List Nat) (groups : List OptGroup) (source : List Nat) (rest : List (List Nat)) (hl : SourceLine groups source)
    (W : WorldOf (MixedMem L)) (x : Exit) (W' : WorldOf (MixedMem L)) (e : Builds.hmacsum E (.mixed ch L E.tool) (commandLine program groups (source :: rest)) W = .ok (x, W')) (k : Kind) (text : List Nat)
    (hk : Line.digest k text ∈ x.out) :
    ∃ inp size, E.files source = some inp ∧ inp.size = some size ∧ size ≤ inp.content.length ∧
      (size < 2 ^ 61 → Selected (lastArgument 100 (optionsOf groups)) k ∧ text = hex (k.std.digest (inp.content.take size))) := by
  rw [builds_run hE (parse_source E.mc program groups source rest hl)] at e
  obtain ⟨Rep, law⟩ := hL.law hE _ (fun _ B _ => limit_small B) W.mem
  obtain ⟨x', V, extra, e', -, -, -, hr, -⟩ := Builds.runSource_ok hE.tool law hE.dp
    ⟨lastArgument 100 (optionsOf groups), lastArgument 112 (optionsOf groups), (optionsOf groups).any (·.1 = 118)⟩ source [.version] W.blocks W (builds_start W)
  rw [e] at e'
  cases e'
  obtain ⟨ds, h1, -, -, h4⟩ := hr.lines
  have hmem : Line.digest k text ∈ ds := by
    rcases h1 with h1 | ⟨h1, -⟩ <;> rw [h1] at hk <;> simpa using hk
  obtain ⟨inp, size, h5, h6, h7, h8⟩ := h4 (List.ne_nil_of_mem hmem)
  refine ⟨inp, size, h5, h6, h7, fun hlen => ?_⟩
  obtain ⟨sel, hsel, rfl⟩ := h8 hlen
  obtain ⟨k', hk', he⟩ := List.mem_map.mp hmem
  cases he
  exact ⟨(hsel k).mp (List.mem_filter.mp hk').2, rfl⟩

/-- C73. In every build the program does succeed and print the digests, if the calls of the library, the allocations and the other calls succeed, no signal arrives, the file has its reported size and every read
delivers something. In a build that passes sizes of 32 bits to the library, the file has less than 4 GiB or -p is not given. -/
theorem C73_completes (E : Environment) (hE : EnvOk E) (hL : Correct ch L) (hrel : ∀ k, ch k ≠ .builtin → Reliable (L k)) (program : List Nat) (groups : List OptGroup) (source : List Nat) (rest : List (List Nat))
    (hl : SourceLine groups source) (W : WorldOf (MixedMem L))
    (inp : Input) (hfile : E.files source = some inp) (hsize : inp.size = some inp.content.length) (hreads : ∀ i, ∃ c, inp.reads i = some c ∧ 0 < c)
    (halloc : ∀ n, E.tool.alloc n = true) (hcalls : E.closeOk = true ∧ E.freeOk = true ∧ E.splitOk = true ∧ E.splitFreeOk = true) (harr : E.arrival = .never)
    (hbuf : BufferArgument E.dp (lastArgument 112 (optionsOf groups)))
    (hfit : (∀ k, ch k ≠ .crypto (.direct true)) ∨ lastArgument 112 (optionsOf groups) = none ∨ inp.content.length < 2 ^ 32) (hlen : inp.content.length < 2 ^ 61) :
    ∃ lines W', Builds.hmacsum E (.mixed ch L E.tool) (commandLine program groups (source :: rest)) W = .ok (⟨true, .version :: lines⟩, W') ∧
      DigestLines (lastArgument 100 (optionsOf groups)) inp.content lines := by
  rw [builds_run hE (parse_source E.mc program groups source rest hl)]
  obtain ⟨limit, hlim, hfits⟩ : ∃ limit, (∀ k B, ch k = .crypto B → limit ≤ B.maxUpdate) ∧
      (Builds.BufferFits E (.mixed ch L E.tool) ⟨lastArgument 100 (optionsOf groups), lastArgument 112 (optionsOf groups), (optionsOf groups).any (·.1 = 118)⟩ limit ∨ inp.content.length ≤ limit) := by
    rcases hfit with h | h | h
    · refine ⟨ssizeMax, fun k B hk => ?_, .inr (by
        have : ssizeMax = 2 ^ 63 - 1 := rfl
        omega)⟩
      rcases B with (_ | _) | _ | _
      · exact Nat.le_refl _
      · exact absurd hk (h k)
      · exact Nat.le_refl _
      · exact Nat.le_refl _
    · refine ⟨2 ^ 32 - 1, fun _ B _ => limit_small B, .inl fun h' ok n hb e => ?_⟩
      unfold Builds.applyBufferSize at e
      rw [h] at e
      simp only [Res.ok.injEq, Prod.mk.injEq] at e
      have := congrArg Handle.bufferSize e.2
      simp only at this
      omega
    · exact ⟨2 ^ 32 - 1, fun _ B _ => limit_small B, .inr (by omega)⟩
  obtain ⟨Rep, law⟩ := hL.law hE limit hlim W.mem
  obtain ⟨x, W', extra, e, -, -, -, hr, hgood⟩ := Builds.runSource_ok hE.tool law hE.dp
    ⟨lastArgument 100 (optionsOf groups), lastArgument 112 (optionsOf groups), (optionsOf groups).any (·.1 = 118)⟩ source [.version] W.blocks W (builds_start W)
  have hx : x.status = true := hgood inp _ hfile hsize (Nat.le_refl _) hreads halloc hrel harr hcalls.1 hcalls.2.1 hcalls.2.2.1 hcalls.2.2.2 (fun s hs h => by
    obtain ⟨c, ds, sp, f, up, u, hdp, hc, rfl, hf, hv0, hv⟩ := hbuf s hs
    rw [Builds.setBufferSize_eq rfl, hdp, C45_value_partial _ c hc ds sp f hf up u h hv]
    by_cases hle : decimal ds * u.base ^ f.1 ≤ ssizeMax
    · exact ⟨1, decimal ds * u.base ^ f.1, by rw [if_pos hle], .inr ⟨rfl, hv0⟩⟩
    · exact ⟨0, h.bufferSize, by rw [if_neg hle], .inl rfl⟩) hfits
  obtain ⟨ds, -, h2, -, h4⟩ := hr.lines
  obtain ⟨hne, -, hout⟩ := h2 hx
  obtain ⟨inp', size, h5, h6, h7, h8⟩ := h4 hne
  rw [hfile] at h5
  cases h5
  rw [hsize] at h6
  cases h6
  have h8 := h8 hlen
  rw [List.take_length] at h8
  refine ⟨ds, W', ?_, h8⟩
  rw [e]
  obtain ⟨st, out⟩ := x
  simp only at hx hout
  subst hx hout
  rfl

example : ∃ lines W', Builds.hmacsum env1 (.mixed choice0 exactLibrary env1.tool) (commandLine (codes "hmacsum") groups0 [codes "file"]) (mixed0 _) = .ok (⟨true, .version :: lines⟩, W') ∧
    DigestLines (some (codes "sha1")) input0.content lines := by
  have hlen : input0.content.length = 100000 := List.length_replicate
  exact C73_completes env1 env1_ok exact_correct (fun k _ => exact_reliable k) (codes "hmacsum") groups0 (codes "file") [] line1 (mixed0 _) input0 (by simp [env1]) (by rw [hlen]; rfl) (fun _ => ⟨1000, rfl, by decide⟩)
    (fun _ => rfl) ⟨rfl, rfl, rfl, rfl⟩ rfl
    (fun s hs => ⟨46, [1], false, 2, true, .none, rfl, by decide, by
      rw [show lastArgument 112 (optionsOf groups0) = some (codes "1M") by decide] at hs
      cases hs
      decide, by decide, by decide, by decide⟩)
    (.inr (.inr (by rw [hlen]; decide))) (by rw [hlen]; decide)

/-- C73. Two builds that both succeed print the same, character for character. The environments may differ in everything but the file: read schedules, allocations, crypto libraries. -/
theorem C73_same_output {ch' : Kind → Choice} {L' : Kind → Library} (E E' : Environment) (hE : EnvOk E) (hE' : EnvOk E') (hL : Correct ch L) (hL' : Correct ch' L') (program program' : List Nat) (groups : List OptGroup)
    (source : List Nat) (rest rest' : List (List Nat)) (hl : SourceLine groups source) (W : WorldOf (MixedMem L)) (V : WorldOf (MixedMem L'))
    (hfile : ∀ inp inp', E.files source = some inp → E'.files source = some inp' → inp.content = inp'.content ∧ inp.size = inp'.size ∧ inp.content.length < 2 ^ 61)
    (x y : Exit) (W' : WorldOf (MixedMem L)) (V' : WorldOf (MixedMem L')) (ex : Builds.hmacsum E (.mixed ch L E.tool) (commandLine program groups (source :: rest)) W = .ok (x, W'))
    (ey : Builds.hmacsum E' (.mixed ch' L' E'.tool) (commandLine program' groups (source :: rest')) V = .ok (y, V')) (hx : x.status = true) (hy : y.status = true) : x.out = y.out := by
  obtain ⟨x1, W1, e1, h1⟩ := C73_success E hE hL program groups source rest hl W
  obtain ⟨y1, V1, e2, h2⟩ := C73_success E' hE' hL' program' groups source rest' hl V
  rw [ex] at e1
  cases e1
  rw [ey] at e2
  cases e2
  obtain ⟨l1, i1, s1, o1, -, f1, z1, b1, d1⟩ := h1 hx
  obtain ⟨l2, i2, s2, o2, -, f2, z2, b2, d2⟩ := h2 hy
  obtain ⟨g1, g2, g3⟩ := hfile i1 i2 f1 f2
  rw [z1, z2] at g2
  cases g2
  obtain ⟨p, hp, rfl⟩ := d1 (by omega)
  obtain ⟨q, hq, rfl⟩ := d2 (by omega)
  have : p = q := by
    funext k
    rw [Bool.eq_iff_iff, hp, hq]
  rw [o1, o2, this, g1]

example (x y : Exit) (W' : WorldOf (MixedMem exactLibrary)) (V' : WorldOf (MixedMem failingLibrary))
    (ex : Builds.hmacsum env1 (.mixed choice0 exactLibrary env1.tool) (commandLine (codes "hmacsum") groups0 [codes "file"]) (mixed0 _) = .ok (x, W'))
    (ey : Builds.hmacsum env1 (.mixed choice0 failingLibrary env1.tool) (commandLine (codes "hmacsum") groups0 [codes "file"]) (mixed0 _) = .ok (y, V')) (hx : x.status = true) (hy : y.status = true) : x.out = y.out :=
  C73_same_output env1 env1 env1_ok env1_ok exact_correct failing_correct _ _ groups0 (codes "file") [] [] line1 _ _ (fun inp inp' h h' => by
    rw [h] at h'
    cases h'
    have : inp = input0 := by simpa [env1] using h.symm
    subst this
    exact ⟨rfl, rfl, by rw [show input0.content.length = 100000 from List.length_replicate]; decide⟩) x y W' V' ex ey hx hy

/-- C73. On any command line without an argument "-", every build ends without undefined behaviour, and exit status 0 means one of three things: the usage text was shown, the copyright text was shown, or the digests of
some file were printed. All contexts, of the library and built in, are released; at most one other block is left, and only after a failed allocation. -/
theorem C73_any_command_line (E : Environment) (hE : EnvOk E) (hL : Correct ch L) (bodies : List (List Nat)) (hne : bodies ≠ []) (h0 : ∀ b ∈ bodies, 0 ∉ b) (hdash : ∀ b ∈ bodies.drop 1, b ≠ [45])
    (W : WorldOf (MixedMem L)) :
    ∃ x W' extra, Builds.hmacsum E (.mixed ch L E.tool) (argVector bodies) W = .ok (x, W') ∧ (x.status = true → x.out = [.version, .usage] ∨ x.out = [.version, .copyright] ∨
        ∃ types source lines inp size, x.out = .version :: lines ∧ lines ≠ [] ∧ E.files source = some inp ∧ inp.size = some size ∧ size ≤ inp.content.length ∧
          (size < 2 ^ 61 → DigestLines types (inp.content.take size) lines)) ∧
      (∀ w, ((W'.mem.mem.live w).map (·.1)).Perm ((W.mem.mem.live w).map (·.1))) ∧ (∀ k, W'.mem.live k = W.mem.live k) ∧ W'.blocks.Perm (extra ++ W.blocks) ∧ extra.length ≤ 1 ∧
      (extra ≠ [] → x.status = false ∧ ∃ n, E.tool.alloc n = false) := by
  obtain ⟨b, bs, rfl⟩ := List.exists_cons_of_ne_nil hne
  obtain ⟨p, hp⟩ := parse_ok E.mc (b :: bs) h0 hdash (((argVector (b :: bs)).map List.length).sum + 1) ⟨none, none, false⟩ optInit ⟨by simp [optInit], by simp [optInit], by simp [optInit]⟩ (by simp [optInit])
    (by
      simp only [OptState.work, optInit, remaining, List.drop_one, List.tail_cons, argVector, List.map_cons, List.sum_cons, List.map_map]
      have : (List.length ∘ fun x : List Nat => x ++ [0]) = fun b => b.length + 1 := by funext; simp
      rw [this]
      omega)
  cases p with
  | run o source =>
    rw [builds_run hE hp]
    obtain ⟨Rep, law⟩ := hL.law hE _ (fun _ B _ => limit_small B) W.mem
    obtain ⟨x, W', extra, e, hN, hlen, hex, hr, -⟩ := Builds.runSource_ok hE.tool law hE.dp o source [.version] W.blocks W (builds_start W)
    obtain ⟨hm1, hm2⟩ := Builds.mixed_end hN.1
    refine ⟨x, W', extra, e, fun hx => .inr (.inr ?_), hm1, hm2, hN.2, hlen, hex⟩
    obtain ⟨ds, -, h2, -, h4⟩ := hr.lines
    obtain ⟨hne, -, hout⟩ := h2 hx
    obtain ⟨inp, size, h5, h6, h7, h8⟩ := h4 hne
    exact ⟨o.digests, source, ds, inp, size, hout, hne, h5, h6, h7, h8⟩
  | help => exact ⟨⟨true, [.version, .usage]⟩, W, [], by simp [Builds.hmacsum, hE.locale, hE.output, hp], fun _ => .inl rfl, fun _ => List.Perm.refl _, fun _ => rfl, List.Perm.refl _, by simp, by simp⟩
  | version => exact ⟨⟨true, [.version, .copyright]⟩, W, [], by simp [Builds.hmacsum, hE.locale, hE.output, hp], fun _ => .inr (.inl rfl), fun _ => List.Perm.refl _, fun _ => rfl, List.Perm.refl _, by simp, by simp⟩
  | invalid =>
    exact ⟨⟨false, [.version, .usage]⟩, W, [], by simp [Builds.hmacsum, hE.locale, hE.output, hp, Builds.onError, Builds.sumFree], (fun h => by cases h), fun _ => List.Perm.refl _, fun _ => rfl, List.Perm.refl _, by simp, by simp⟩
  | missing =>
    exact ⟨⟨false, [.version, .usage]⟩, W, [], by simp [Builds.hmacsum, hE.locale, hE.output, hp, Builds.onError, Builds.sumFree], (fun h => by cases h), fun _ => List.Perm.refl _, fun _ => rfl, List.Perm.refl _, by simp, by simp⟩

example := C73_any_command_line env1 env1_ok failing_correct [codes "hmacsum", codes "-d", codes "sha224", codes "file"] (by simp) (by decide) (by decide) (mixed0 _)

/-- C73_no_wrong_digest on a run that completes. -/
example (k : Kind) (text : List Nat) (lines : List Line) (W' : WorldOf (MixedMem exactLibrary))
    (e : Builds.hmacsum env1 (.mixed choice0 exactLibrary env1.tool) (commandLine (codes "hmacsum") groups0 [codes "file"]) (mixed0 _) = .ok (⟨true, .version :: lines⟩, W')) (hk : Line.digest k text ∈ lines) :=
  C73_no_wrong_digest env1 env1_ok exact_correct (codes "hmacsum") groups0 (codes "file") [] line1 (mixed0 _) _ W' e k text (List.mem_cons_of_mem _ hk)

end Props
