import Verif.Proofs.BuildsHost
import Verif.Props.Builds
/-! C74: hmacsum on hosts whose `size_t` has another number of bits. -/

namespace Props

open Model Spec

variable {hb : Nat}

theorem host_start (W : World) : Builds.NoneInv (Builds.BuiltinRel (fun w => (W.mem.live w).map (·.1))) W.blocks W := ⟨Builds.host_start W.mem, List.Perm.refl _⟩

/-! ### Examples -/

/-- A file of more than 4 GiB. -/
def bigInput : Input := ⟨List.replicate (2 ^ 32 + 5) 0x61, some (2 ^ 32 + 5), fun _ => some 100000⟩

def bigEnv : Environment := { env1 with files := fun _ => some bigInput }

theorem bigEnv_ok : EnvOk bigEnv := ⟨env1_ok.tool, env1_ok.dp, env1_ok.locale, env1_ok.output⟩

/-! ### C74 -/

/-- C74. On hosts whose `size_t` has 17 to 64 bits, exit status 0 means: the source could be opened, and standard output consists of the version line and the hexadecimal standard digests of the whole file for MD5 and
every algorithm named by the last -d, in the fixed order, and nothing else. The file may be larger than the largest `size_t`. -/
theorem C74_success (E : Environment) (hE : EnvOk E) (h1 : 17 ≤ hb) (h2 : hb ≤ 64) (program : List Nat) (groups : List OptGroup) (source : List Nat) (rest : List (List Nat)) (hl : SourceLine groups source)
    (W : World) :
    ∃ x W', Builds.hmacsum E (.host hb E.tool) (commandLine program groups (source :: rest)) W = .ok (x, W') ∧ (x.status = true →
      ∃ lines inp size, x.out = .version :: lines ∧ lines ≠ [] ∧ E.files source = some inp ∧ inp.size = some size ∧ size ≤ inp.content.length ∧
        (size < 2 ^ 61 → DigestLines (lastArgument 100 (optionsOf groups)) (inp.content.take size) lines)) := by
  rw [builds_run hE (parse_source E.mc program groups source rest hl)]
  obtain ⟨x, W', extra, e, -, -, -, hr, -⟩ := Builds.runSource_ok hE.tool (Builds.host_law h1 h2 hE.tool _) hE.dp _ source [.version] W.blocks W (host_start W)
  refine ⟨x, W', e, fun hx => ?_⟩
  obtain ⟨ds, -, h2, -, h4⟩ := hr.lines
  obtain ⟨hne, -, hout⟩ := h2 hx
  obtain ⟨inp, size, h5, h6, h7, h8⟩ := h4 hne
  exact ⟨ds, inp, size, hout, hne, h5, h6, h7, h8⟩

example := C74_success (hb := 32) bigEnv bigEnv_ok (by decide) (by decide) (codes "hmacsum") groups0 (codes "file") [] line1 world0

/-- C74. On no such host a digest is printed wrongly, whatever the exit status. -/
theorem C74_no_wrong_digest (E : Environment) (hE : EnvOk E) (h1 : 17 ≤ hb) (h2 : hb ≤ 64) (program : List Nat) (groups : List OptGroup) (source : List Nat) (rest : List (List Nat)) (hl : SourceLine groups source)
    (W : World) (x : Exit) (W' : World) (e : Builds.hmacsum E (.host hb E.tool) (commandLine program groups (source :: rest)) W = .ok (x, W')) (k : Kind) (text : List Nat)
    (hk : Line.digest k text ∈ x.out) :
    ∃ inp size, E.files source = some inp ∧ inp.size = some size ∧ size ≤ inp.content.length ∧
      (size < 2 ^ 61 → Selected (lastArgument 100 (optionsOf groups)) k ∧ text = hex (k.std.digest (inp.content.take size))) := by
  rw [builds_run hE (parse_source E.mc program groups source rest hl)] at e
  obtain ⟨x', V, extra, e', -, -, -, hr, -⟩ := Builds.runSource_ok hE.tool (Builds.host_law h1 h2 hE.tool _) hE.dp
    ⟨lastArgument 100 (optionsOf groups), lastArgument 112 (optionsOf groups), (optionsOf groups).any (·.1 = 118)⟩ source [.version] W.blocks W (host_start W)
  rw [e] at e'
  cases e'
  obtain ⟨ds, h1, -, -, h4⟩ := hr.lines
  have hmem : Line.digest k text ∈ ds := by
    rcases h1 with h1 | ⟨h1, -⟩ <;> rw [h1] at hk <;> simpa using hk
  obtain ⟨inp, size, h5, h6, h7, h8⟩ := h4 (List.ne_nil_of_mem hmem)
  refine ⟨inp, size, h5, h6, h7, fun hlen => ?_⟩
  obtain ⟨sel, hsel, rfl⟩ := h8 hlen
  obtain ⟨k', hk', he⟩ := List.mem_map.mp hmem
  cases he
  exact ⟨(hsel k).mp (List.mem_filter.mp hk').2, rfl⟩

example (x : Exit) (W' : World) (e : Builds.hmacsum bigEnv (.host 32 bigEnv.tool) (commandLine (codes "hmacsum") groups0 [codes "file"]) world0 = .ok (x, W')) (text : List Nat) (hk : Line.digest .sha1 text ∈ x.out) :=
  C74_no_wrong_digest (hb := 32) bigEnv bigEnv_ok (by decide) (by decide) (codes "hmacsum") groups0 (codes "file") [] line1 world0 x W' e .sha1 text hk

/-- C74. The option -p on such a host: the value of a size text is set if it is not above the SSIZE_MAX of the host, otherwise the previous size stays (the program then takes 32768). Values below 2^64, factors other than K. -/
theorem C74_buffer_size {T : Tool} (verbose : Bool) (dp : Nat) (hdp : dp ∉ sizeChars) (ds : List (Fin 10)) (sp : Bool) (f : Fin 9) (hf : f ≠ 1) (up : Bool) (u : SizeUnit) (h : Handle)
    (hv : decimal ds * u.base ^ f.1 < 2 ^ 64) :
    Builds.setBufferSize (.host hb T) verbose (some dp) (sizeText dp ds none sp f up u) h =
      .ok (if decimal ds * u.base ^ f.1 ≤ 2 ^ (hb - 1) - 1 then (1, { h with bufferSize := decimal ds * u.base ^ f.1 }) else (0, h)) := by
  have e : scaled (decimal ds) (fracValue none) f.1 u.base = decimal ds * u.base ^ f.1 := if_neg (by simp [fracValue, hundredths])
  unfold Builds.setBufferSize
  rw [sizeText_eval verbose dp hdp, if_neg hf, e]
  simp only [Res.ok_bind]
  have hn : (BitVec.ofNat 64 (decimal ds * u.base ^ f.1)).toNat = decimal ds * u.base ^ f.1 := by rw [BitVec.toNat_ofNat, Nat.mod_eq_of_lt hv]
  rw [hn, show (Contexts.host hb T).sizeMax = 2 ^ (hb - 1) - 1 from rfl]
  have hlt := (Contexts.host hb T).sizeMax_lt
  rw [show (Contexts.host hb T).sizeMax = 2 ^ (hb - 1) - 1 from rfl] at hlt
  generalize decimal ds * u.base ^ f.1 = v at *
  by_cases hle : v ≤ 2 ^ (hb - 1) - 1
  · simp [hle, Nat.not_lt.mpr hle, Nat.mod_eq_of_lt (Nat.lt_of_le_of_lt hle hlt)]
  · simp [hle, Nat.lt_of_not_le hle]

/-- 3 GiB on a 32-bit host: not set. -/
example (T : Tool) (h : Handle) : Builds.setBufferSize (.host 32 T) false (some 46) (sizeText 46 [3] none false 3 true .iB) h = .ok (0, h) := by
  rw [C74_buffer_size _ _ (by decide) _ _ _ (by decide) _ _ _ (by decide), if_neg (by decide)]

/-- C74. On such a host the program does succeed and print the digests, if the allocations and the other calls succeed, no signal arrives, the file has its reported size and every read delivers something, also for files
of more than 4 GiB. -/
theorem C74_completes (E : Environment) (hE : EnvOk E) (h1 : 17 ≤ hb) (h2 : hb ≤ 64) (program : List Nat) (groups : List OptGroup) (source : List Nat) (rest : List (List Nat))
    (hl : SourceLine groups source) (W : World)
    (inp : Input) (hfile : E.files source = some inp) (hsize : inp.size = some inp.content.length) (hreads : ∀ i, ∃ c, inp.reads i = some c ∧ 0 < c)
    (halloc : ∀ n, E.tool.alloc n = true) (hcalls : E.closeOk = true ∧ E.freeOk = true ∧ E.splitOk = true ∧ E.splitFreeOk = true) (harr : E.arrival = .never)
    (hbuf : BufferArgument E.dp (lastArgument 112 (optionsOf groups))) (hlen : inp.content.length < 2 ^ 61) :
    ∃ lines W', Builds.hmacsum E (.host hb E.tool) (commandLine program groups (source :: rest)) W = .ok (⟨true, .version :: lines⟩, W') ∧
      DigestLines (lastArgument 100 (optionsOf groups)) inp.content lines := by
  rw [builds_run hE (parse_source E.mc program groups source rest hl)]
  obtain ⟨x, W', extra, e, -, -, -, hr, hgood⟩ := Builds.runSource_ok hE.tool (Builds.host_law h1 h2 hE.tool _) hE.dp
    ⟨lastArgument 100 (optionsOf groups), lastArgument 112 (optionsOf groups), (optionsOf groups).any (·.1 = 118)⟩ source [.version] W.blocks W (host_start W)
  have hx : x.status = true := hgood inp _ hfile hsize (Nat.le_refl _) hreads halloc (fun _ h => absurd rfl h) harr hcalls.1 hcalls.2.1 hcalls.2.2.1 hcalls.2.2.2 (fun s hs h => by
    obtain ⟨c, ds, sp, f, up, u, hdp, hc, rfl, hf, hv0, hv⟩ := hbuf s hs
    rw [hdp, C74_buffer_size _ c hc ds sp f hf up u h hv]
    by_cases hle : decimal ds * u.base ^ f.1 ≤ 2 ^ (hb - 1) - 1
    · exact ⟨1, decimal ds * u.base ^ f.1, by rw [if_pos hle], .inr ⟨rfl, hv0⟩⟩
    · exact ⟨0, h.bufferSize, by rw [if_neg hle], .inl rfl⟩) (.inl fun h' ok n hb' e' => by
    obtain ⟨ok2, n2, e2, hn2, -⟩ := Builds.applyBufferSize_ok (C := .host hb E.tool) h1 hE.dp
      ⟨lastArgument 100 (optionsOf groups), lastArgument 112 (optionsOf groups), (optionsOf groups).any (·.1 = 118)⟩ h' hb'
    rw [e'] at e2
    have : n = n2 := congrArg (fun x : Res (Bool × Handle) => match x with | .ok y => y.2.bufferSize | _ => 0) e2
    rw [this]
    exact hn2)
  obtain ⟨ds, -, h2, -, h4⟩ := hr.lines
  obtain ⟨hne, -, hout⟩ := h2 hx
  obtain ⟨inp', size, h5, h6, h7, h8⟩ := h4 hne
  rw [hfile] at h5
  cases h5
  rw [hsize] at h6
  cases h6
  have h8 := h8 hlen
  rw [List.take_length] at h8
  refine ⟨ds, W', ?_, h8⟩
  rw [e]
  obtain ⟨st, out⟩ := x
  simp only at hx hout
  subst hx hout
  rfl

example : ∃ lines W', Builds.hmacsum bigEnv (.host 32 bigEnv.tool) (commandLine (codes "hmacsum") groups0 [codes "file"]) world0 = .ok (⟨true, .version :: lines⟩, W') ∧
    DigestLines (some (codes "sha1")) bigInput.content lines := by
  have hlen : bigInput.content.length = 2 ^ 32 + 5 := List.length_replicate
  exact C74_completes bigEnv bigEnv_ok (by decide) (by decide) (codes "hmacsum") groups0 (codes "file") [] line1 world0 bigInput rfl (by rw [hlen]; rfl) (fun _ => ⟨100000, rfl, by decide⟩)
    (fun _ => rfl) ⟨rfl, rfl, rfl, rfl⟩ rfl
    (fun s hs => ⟨46, [1], false, 2, true, .none, rfl, by decide, by
      rw [show lastArgument 112 (optionsOf groups0) = some (codes "1M") by decide] at hs
      cases hs
      decide, by decide, by decide, by decide⟩)
    (by rw [hlen]; decide)

/-- C74. Two hosts on which the program succeeds print the same, character for character. The environments may differ in everything but the file. -/
theorem C74_same_output {hb' : Nat} (E E' : Environment) (hE : EnvOk E) (hE' : EnvOk E') (h1 : 17 ≤ hb) (h2 : hb ≤ 64) (h1' : 17 ≤ hb') (h2' : hb' ≤ 64) (program program' : List Nat) (groups : List OptGroup)
    (source : List Nat) (rest rest' : List (List Nat)) (hl : SourceLine groups source) (W : World) (V : World)
    (hfile : ∀ inp inp', E.files source = some inp → E'.files source = some inp' → inp.content = inp'.content ∧ inp.size = inp'.size ∧ inp.content.length < 2 ^ 61)
    (x y : Exit) (W' : World) (V' : World) (ex : Builds.hmacsum E (.host hb E.tool) (commandLine program groups (source :: rest)) W = .ok (x, W'))
    (ey : Builds.hmacsum E' (.host hb' E'.tool) (commandLine program' groups (source :: rest')) V = .ok (y, V')) (hx : x.status = true) (hy : y.status = true) : x.out = y.out := by
  obtain ⟨x1, W1, e1, k1⟩ := C74_success E hE h1 h2 program groups source rest hl W
  obtain ⟨y1, V1, e2, k2⟩ := C74_success E' hE' h1' h2' program' groups source rest' hl V
  rw [ex] at e1
  cases e1
  rw [ey] at e2
  cases e2
  obtain ⟨l1, i1, s1, o1, -, f1, z1, b1, d1⟩ := k1 hx
  obtain ⟨l2, i2, s2, o2, -, f2, z2, b2, d2⟩ := k2 hy
  obtain ⟨g1, g2, g3⟩ := hfile i1 i2 f1 f2
  rw [z1, z2] at g2
  cases g2
  obtain ⟨p, hp, rfl⟩ := d1 (by omega)
  obtain ⟨q, hq, rfl⟩ := d2 (by omega)
  have : p = q := by
    funext k
    rw [Bool.eq_iff_iff, hp, hq]
  rw [o1, o2, this, g1]

example (x y : Exit) (W' V' : World) (ex : Builds.hmacsum bigEnv (.host 32 bigEnv.tool) (commandLine (codes "hmacsum") groups0 [codes "file"]) world0 = .ok (x, W'))
    (ey : Builds.hmacsum bigEnv (.host 64 bigEnv.tool) (commandLine (codes "hmacsum") groups0 [codes "file"]) world0 = .ok (y, V')) (hx : x.status = true) (hy : y.status = true) : x.out = y.out :=
  C74_same_output bigEnv bigEnv bigEnv_ok bigEnv_ok (by decide) (by decide) (by decide) (by decide) _ _ groups0 (codes "file") [] [] line1 _ _ (fun inp inp' h h' => by
    cases h
    cases h'
    exact ⟨rfl, rfl, by rw [show bigInput.content.length = 2 ^ 32 + 5 from List.length_replicate]; decide⟩) x y W' V' ex ey hx hy

/-- C74. On any command line without an argument "-", the program ends without undefined behaviour on every such host, and exit status 0 means one of three things: the usage text was shown, the copyright text was shown,
or the digests of some file were printed. All contexts are released; at most one other block is left, and only after a failed allocation. -/
theorem C74_any_command_line (E : Environment) (hE : EnvOk E) (h1 : 17 ≤ hb) (h2 : hb ≤ 64) (bodies : List (List Nat)) (hne : bodies ≠ []) (h0 : ∀ b ∈ bodies, 0 ∉ b) (hdash : ∀ b ∈ bodies.drop 1, b ≠ [45])
    (W : World) :
    ∃ x W' extra, Builds.hmacsum E (.host hb E.tool) (argVector bodies) W = .ok (x, W') ∧ (x.status = true → x.out = [.version, .usage] ∨ x.out = [.version, .copyright] ∨
        ∃ types source lines inp size, x.out = .version :: lines ∧ lines ≠ [] ∧ E.files source = some inp ∧ inp.size = some size ∧ size ≤ inp.content.length ∧
          (size < 2 ^ 61 → DigestLines types (inp.content.take size) lines)) ∧
      (∀ w, ((W'.mem.live w).map (·.1)).Perm ((W.mem.live w).map (·.1))) ∧ W'.blocks.Perm (extra ++ W.blocks) ∧ extra.length ≤ 1 ∧
      (extra ≠ [] → x.status = false ∧ ∃ n, E.tool.alloc n = false) := by
  obtain ⟨b, bs, rfl⟩ := List.exists_cons_of_ne_nil hne
  obtain ⟨p, hp⟩ := parse_ok E.mc (b :: bs) h0 hdash (((argVector (b :: bs)).map List.length).sum + 1) ⟨none, none, false⟩ optInit ⟨by simp [optInit], by simp [optInit], by simp [optInit]⟩ (by simp [optInit])
    (by
      simp only [OptState.work, optInit, remaining, List.drop_one, List.tail_cons, argVector, List.map_cons, List.sum_cons, List.map_map]
      have : (List.length ∘ fun x : List Nat => x ++ [0]) = fun b => b.length + 1 := by funext; simp
      rw [this]
      omega)
  cases p with
  | run o source =>
    rw [builds_run hE hp]
    obtain ⟨x, W', extra, e, hN, hlen, hex, hr, -⟩ := Builds.runSource_ok hE.tool (Builds.host_law h1 h2 hE.tool _) hE.dp o source [.version] W.blocks W (host_start W)
    refine ⟨x, W', extra, e, fun hx => .inr (.inr ?_), Builds.host_end hN.1, hN.2, hlen, hex⟩
    obtain ⟨ds, -, h2, -, h4⟩ := hr.lines
    obtain ⟨hne, -, hout⟩ := h2 hx
    obtain ⟨inp, size, h5, h6, h7, h8⟩ := h4 hne
    exact ⟨o.digests, source, ds, inp, size, hout, hne, h5, h6, h7, h8⟩
  | help => exact ⟨⟨true, [.version, .usage]⟩, W, [], by simp [Builds.hmacsum, hE.locale, hE.output, hp], fun _ => .inl rfl, fun _ => List.Perm.refl _, List.Perm.refl _, by simp, by simp⟩
  | version => exact ⟨⟨true, [.version, .copyright]⟩, W, [], by simp [Builds.hmacsum, hE.locale, hE.output, hp], fun _ => .inr (.inl rfl), fun _ => List.Perm.refl _, List.Perm.refl _, by simp, by simp⟩
  | invalid =>
    exact ⟨⟨false, [.version, .usage]⟩, W, [], by simp [Builds.hmacsum, hE.locale, hE.output, hp, Builds.onError, Builds.sumFree], (fun h => by cases h), fun _ => List.Perm.refl _, List.Perm.refl _, by simp, by simp⟩
  | missing =>
    exact ⟨⟨false, [.version, .usage]⟩, W, [], by simp [Builds.hmacsum, hE.locale, hE.output, hp, Builds.onError, Builds.sumFree], (fun h => by cases h), fun _ => List.Perm.refl _, List.Perm.refl _, by simp, by simp⟩

example := C74_any_command_line (hb := 32) bigEnv bigEnv_ok (by decide) (by decide) [codes "hmacsum", codes "-d", codes "sha224", codes "file"] (by simp) (by decide) (by decide) world0

end Props
