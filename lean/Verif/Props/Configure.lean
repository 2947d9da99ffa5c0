import Verif.Proofs.Configure
/-! C83: what `configure` decides about the crypto library, what is compiled then, and what the user is told. -/

namespace Props

open Model Spec
open Model.Configure

/-- The code compiled for an algorithm is that of a choice: the built-in code, the direct functions of the library, or EVP with a context in the structure or one made by the library. Everything that depends on the choice
(the macro LIBHMAC_HAVE_..._SUPPORT, the members of the structure, the four functions) must be of the same choice. -/
def Matches (cfg : Config) (smallLong : Bool) (k : Kind) : Choice → Prop
  | .builtin => (∀ p, p ≠ .header → p ≠ .source → compiled cfg k p = .other) ∧ transforms cfg k = true
  | .crypto (.direct b) => (∀ p, p ≠ .header → p ≠ .source → compiled cfg k p = .direct) ∧ transforms cfg k = false ∧ b = smallLong
  | .crypto .evpEmbedded => (∀ p, p ≠ .header → p ≠ .source → compiled cfg k p = .evp) ∧ transforms cfg k = false ∧ ∀ w, w ≠ .evpVariable → w ≠ .ex2 → switched cfg k w = true
  | .crypto .evpAllocated => (∀ p, p ≠ .header → p ≠ .source → compiled cfg k p = .evp) ∧ transforms cfg k = false ∧ ∀ w, w ≠ .evpVariable → w ≠ .ex2 → switched cfg k w = false

/-- What the summary should tell about a choice. -/
def shouldTell : Choice → Told
  | .builtin => .builtin
  | .crypto (.direct _) => .libcrypto
  | .crypto _ => .libcryptoEvp

/-- All names that the code of an algorithm uses are declared. EVP_MD and EVP_MD_CTX are declared in openssl/evp.h, SHA_CTX and the like and the direct functions in openssl/md5.h or openssl/sha.h, ERR_remove_thread_state in
openssl/err.h, which the source file includes beside openssl/evp.h. The functions use the members of their branch, and the built-in code its own functions. -/
structure Declared (cfg : Config) (k : Kind) : Prop where
  layoutDirect : compiled cfg k .layout = .direct → compiled cfg k .header = .direct
  layoutEvp : compiled cfg k .layout = .evp → compiled cfg k .header = .evp
  evpVariable : switched cfg k .evpVariable = true → compiled cfg k .header = .evp ∨ compiled cfg k .source = .evp
  direct : compiled cfg k .«initialize» = .direct → compiled cfg k .header = .direct ∨ compiled cfg k .source = .direct
  evp : compiled cfg k .«initialize» = .evp → switched cfg k .evpVariable = true ∧ compiled cfg k .source = .evp
  members : ∀ p ∈ [Place.«initialize», .free, .update, .finalize], compiled cfg k p = compiled cfg k .layout
  embedded : compiled cfg k .layout = .evp → ∀ w ∈ [Switch.inits, .undoes, .cleans], switched cfg k w = true → switched cfg k .member = true
  builtin : compiled cfg k .update = .other → transforms cfg k = true

/-- The macro of the header of the direct functions. -/
def headerMacro : Kind → Macro
  | .md5 => .md5H
  | _ => .shaH

theorem cfg_compiled (cfg : Config) (k : Kind) (p : Place) (h1 : p ≠ .header) (h2 : p ≠ .source) :
    compiled cfg k p = if cfg .libcrypto && cfg (headerMacro k) && cfg (.length k) then .direct else if cfg .libcrypto && cfg .evpH && cfg (.evp k) then .evp else .other := by
  cases p <;> first | exact absurd rfl h1 | exact absurd rfl h2 | (cases k <;> simp [compiled, guards, pick, holds, headerMacro, and_assoc])

theorem cfg_included (cfg : Config) (k : Kind) (p : Place) (h : p = .header ∨ p = .source) :
    compiled cfg k p = if cfg .libcrypto && cfg (headerMacro k) then .direct else if cfg .libcrypto && cfg .evpH then .evp else .other := by
  rcases h with rfl | rfl <;> cases k <;> simp [compiled, guards, pick, holds, headerMacro]

theorem cfg_transforms (cfg : Config) (k : Kind) : transforms cfg k = decide (compiled cfg k .support = .other) := rfl

theorem cfg_switched (cfg : Config) (k : Kind) : switched cfg k .member = cfg .ctxInit ∧ switched cfg k .inits = cfg .ctxInit ∧ switched cfg k .undoes = cfg .ctxCleanup ∧ switched cfg k .cleans = cfg .ctxCleanup ∧
    switched cfg k .ex2 = cfg .initEx2 ∧ switched cfg k .evpVariable = (cfg .libcrypto && cfg .evpH && cfg (.evp k)) := by
  cases k <;> simp [switched, tests, holds, Bool.and_assoc]

/-- Is the direct code compiled? -/
def isDirect (cfg : Config) (k : Kind) : Bool := cfg .libcrypto && cfg (headerMacro k) && cfg (.length k)

/-- Is the EVP code chosen if the direct code is not compiled? -/
def isEvp (cfg : Config) (k : Kind) : Bool := cfg .libcrypto && cfg .evpH && cfg (.evp k)

theorem matches_builtin (cfg : Config) (b : Bool) (k : Kind) (h1 : isDirect cfg k = false) (h2 : isEvp cfg k = false) : Matches cfg b k .builtin := by
  unfold isDirect at h1
  unfold isEvp at h2
  refine ⟨fun p a c => ?_, ?_⟩
  · rw [cfg_compiled cfg k p a c, h1, h2]; rfl
  · rw [cfg_transforms, cfg_compiled cfg k .support (by decide) (by decide), h1, h2]; rfl

theorem matches_direct (cfg : Config) (b : Bool) (k : Kind) (h1 : isDirect cfg k = true) : Matches cfg b k (.crypto (.direct b)) := by
  unfold isDirect at h1
  refine ⟨fun p a c => ?_, ?_, rfl⟩
  · rw [cfg_compiled cfg k p a c, h1]; rfl
  · rw [cfg_transforms, cfg_compiled cfg k .support (by decide) (by decide), h1]; rfl

theorem matches_evp (cfg : Config) (b : Bool) (k : Kind) (h1 : isDirect cfg k = false) (h2 : isEvp cfg k = true) (h3 : cfg .ctxCleanup = cfg .ctxInit) :
    Matches cfg b k (.crypto (if cfg .ctxInit then .evpEmbedded else .evpAllocated)) := by
  unfold isDirect at h1
  unfold isEvp at h2
  have a1 : ∀ p, p ≠ .header → p ≠ .source → compiled cfg k p = .evp := fun p a c => by rw [cfg_compiled cfg k p a c, h1, h2]; rfl
  have a2 : transforms cfg k = false := by rw [cfg_transforms, a1 .support (by decide) (by decide)]; rfl
  obtain ⟨s1, s2, s3, s4, -, -⟩ := cfg_switched cfg k
  cases hi : cfg .ctxInit
  · refine ⟨a1, a2, fun w v1 v2 => ?_⟩
    rw [hi] at h3 s1 s2
    rw [h3] at s3 s4
    cases w <;> first | assumption | exact absurd rfl v1 | exact absurd rfl v2
  · refine ⟨a1, a2, fun w v1 v2 => ?_⟩
    rw [hi] at h3 s1 s2
    rw [h3] at s3 s4
    cases w <;> first | assumption | exact absurd rfl v1 | exact absurd rfl v2

theorem matches_unique (cfg : Config) (b : Bool) (k : Kind) {c d : Choice} (hc : Matches cfg b k c) (hd : Matches cfg b k d) : c = d := by
  have ne : Place.layout ≠ .header ∧ Place.layout ≠ .source := by decide
  have nw : Switch.member ≠ .evpVariable ∧ Switch.member ≠ .ex2 := by decide
  rcases c with _ | (x | _ | _) <;> rcases d with _ | (y | _ | _) <;>
    first
    | rfl
    | (exfalso; have p := hc.1 .layout ne.1 ne.2; have q := hd.1 .layout ne.1 ne.2; rw [p] at q; exact absurd q (by decide))
    | (rw [hc.2.2, hd.2.2])
    | (exfalso; have p := hc.2.2 .member nw.1 nw.2; have q := hd.2.2 .member nw.1 nw.2; rw [p] at q; exact absurd q (by decide))

/-- Where configure ends well there are three kinds of results. -/
theorem cfg_cases {S : System} {o : BuildOptions} {s : Shell} (h : configure S o = some s) :
    (s = staticDone S ∧ o.staticExecutables = true) ∨ (∃ e x, s = noShell e x ∧ o.staticExecutables = false) ∨
      (s = libDone S ∧ o.staticExecutables = false ∧ libFound S o = true ∧ o.sharedLibs = true ∧ o.openssl ≠ .no) := by
  rw [cfg_configure] at h
  split at h
  · exact .inl ⟨(Option.some.inj h).symm, by assumption⟩
  split at h
  · exact .inr (.inl ⟨_, _, (Option.some.inj h).symm, by simp_all⟩)
  split at h
  · exact absurd h (by simp)
  split at h
  · split at h
    · exact absurd h (by simp)
    · exact .inr (.inr ⟨(Option.some.inj h).symm, by simp_all, by assumption, by simp_all, by simp_all⟩)
  · exact .inr (.inl ⟨_, _, (Option.some.inj h).symm, by simp_all⟩)

theorem cfg_lib_evp {S : System} {k : Kind} (h : isEvp (config S (libDone S)) k = true) : viaEvp S k = true := by
  unfold isEvp at h
  simp only [Bool.and_eq_true] at h
  exact h.2

theorem cfg_lib_init {S : System} (h : evpComplete S = true) : (config S (libDone S)) .ctxCleanup = (config S (libDone S)) .ctxInit := by
  show (!S.func .ctxNew && S.func .ctxCleanup) = (!S.func .ctxNew && S.func .ctxInit)
  unfold evpComplete ctxComplete at h
  cases hn : S.func .ctxNew
  · simp [hn] at h ⊢
    rw [h.1.1.1.1.1, h.1.1.1.1.2]
  · rfl

theorem viaEvp_complete {S : System} {k : Kind} (h : viaEvp S k = true) : evpComplete S = true := by
  unfold viaEvp at h
  simp only [Bool.and_eq_true] at h
  exact h.1

/-- C83 (one kind of code). In every build made by configure, each algorithm is compiled as exactly one of the choices of the model of the builds: the built-in code, the direct functions, or EVP with a context in the structure or
one made by the library. The structure, the four functions and the declarations are never of different choices, and a context in the structure is never given to the function that frees one of the library. -/
theorem C83_coherent (S : System) (o : BuildOptions) (s : Shell) (h : configure S o = some s) :
    ∃ ch : Kind → Choice, (∀ k, Matches (config S s) S.smallLong k (ch k)) ∧ ∀ k c, Matches (config S s) S.smallLong k c → c = ch k := by
  have ex : ∀ k, ∃ c, Matches (config S s) S.smallLong k c := by
    intro k
    rcases cfg_cases h with ⟨rfl, -⟩ | ⟨e, x, rfl, -⟩ | ⟨rfl, -⟩
    · exact ⟨.builtin, matches_builtin _ _ _ rfl rfl⟩
    · exact ⟨.builtin, matches_builtin _ _ _ rfl rfl⟩
    · cases h1 : isDirect (config S (libDone S)) k
      · cases h2 : isEvp (config S (libDone S)) k
        · exact ⟨_, matches_builtin _ _ _ h1 h2⟩
        · exact ⟨_, matches_evp _ _ _ h1 h2 (cfg_lib_init (viaEvp_complete (cfg_lib_evp h2)))⟩
      · exact ⟨_, matches_direct _ _ _ h1⟩
  choose ch hch using ex
  exact ⟨ch, hch, fun k c hc => matches_unique _ _ _ hc (hch k)⟩

/-- C83 (no library). With --without-openssl, --disable-shared-libs or static executables configure does not fail, and every algorithm is the built-in code. Unless the executables are static it also says so, and libhmac.pc does not
name the library. -/
theorem C83_without_openssl (S : System) (o : BuildOptions) (h : o.openssl = .no ∨ o.sharedLibs = false ∨ o.staticExecutables = true) :
    ∃ s, configure S o = some s ∧ (∀ k, Matches (config S s) S.smallLong k .builtin) ∧
      (o.staticExecutables = false → (∀ k, summary s k = .builtin) ∧ s.pc = false) := by
  rw [cfg_configure]
  cases hs : o.staticExecutables
  · rw [if_neg (by simp), if_pos (by rcases h with h | h | h <;> simp_all)]
    exact ⟨_, rfl, fun k => matches_builtin _ _ _ rfl rfl, fun _ => ⟨fun k => rfl, rfl⟩⟩
  · exact ⟨_, rfl, fun k => matches_builtin _ _ _ rfl rfl, fun a => absurd a (by simp)⟩

/-- The library is looked for. -/
def Wanted (o : BuildOptions) : Prop := o.sharedLibs = true ∧ o.staticExecutables = false ∧ o.openssl ≠ .no ∧ o.openssl ≠ .dir false

/-- The functions of OpenSSL 1.1 (before 3.0: EVP_DigestInit_ex; from 3.0: also EVP_DigestInit_ex2 and those that go with it), and its headers. -/
structure OpenSsl11 (S : System) : Prop where
  evpH : S.header .evp = true
  zlib : S.zlib = true
  new : S.func .ctxNew = true
  free : S.func .ctxFree = true
  init : S.func .digestInitEx = true
  ex2 : S.func .digestInitEx2 = true → S.func .ctxReset = true ∧ S.func .mdFetch = true ∧ S.func .mdFree = true
  update : S.func .digestUpdate = true
  final : S.func .digestFinalEx = true
  algs : ∀ k, S.func (.evp k) = true

/-- The functions of OpenSSL 1.0. -/
structure OpenSsl10 (S : System) : Prop where
  evpH : S.header .evp = true
  zlib : S.zlib = true
  new : S.func .ctxNew = false
  ctxInit : S.func .ctxInit = true
  cleanup : S.func .ctxCleanup = true
  remove : S.func .removeThreadState = true
  init : S.func .digestInitEx = true
  ex2 : S.func .digestInitEx2 = false
  update : S.func .digestUpdate = true
  final : S.func .digestFinalEx = true
  algs : ∀ k, S.func (.evp k) = true

theorem cfg_all_evp {S : System} (hE : evpComplete S = true) (ha : ∀ k, S.func (.evp k) = true) (k : Kind) :
    isDirect (config S (libDone S)) k = false ∧ isEvp (config S (libDone S)) k = true ∧ summary (libDone S) k = .libcryptoEvp := by
  have hv : ∀ k, viaEvp S k = true := fun k => by simp [viaEvp, hE, ha k]
  refine ⟨?_, ?_, ?_⟩
  · have h5 : (config S (libDone S)) (headerMacro k) = false := by
      cases k <;> simp [headerMacro, config, libDone, hv, someShaDirect]
    simp [isDirect, h5]
  · show (true && true && viaEvp S k) = true
    rw [hv]; rfl
  · simp [summary, libDone, foundOf, hv, mdDone, libShell]

theorem cfg_configure_lib {S : System} {o : BuildOptions} (hw : Wanted o) (hl : libFound S o = true) (hE : evpComplete S = true) : configure S o = some (libDone S) := by
  obtain ⟨h1, h2, h3, h4⟩ := hw
  rw [cfg_configure, if_neg (by simp [h2]), if_neg (by simp [h1, h3]), if_neg h4, if_pos hl, if_neg (by simp [hE])]

/-- C83 (the usual systems). With OpenSSL 1.1 or later every algorithm is compiled with EVP and contexts made by the library, with OpenSSL 1.0 with EVP and contexts in the structure; the summary says so, and libhmac.pc names the
library. -/
theorem C83_usual (S : System) (o : BuildOptions) (hw : Wanted o) (h : OpenSsl11 S ∨ OpenSsl10 S) :
    ∃ s, configure S o = some s ∧ s.pc = true ∧ ∀ k, summary s k = .libcryptoEvp ∧
      (OpenSsl11 S → Matches (config S s) S.smallLong k (.crypto .evpAllocated)) ∧ (OpenSsl10 S → Matches (config S s) S.smallLong k (.crypto .evpEmbedded)) := by
  have hl : libFound S o = true := by
    rcases h with h | h <;> simp [libFound, h.evpH, h.zlib]
  have hE : evpComplete S = true := by
    rcases h with h | h
    · cases hx : S.func .digestInitEx2
      · simp [evpComplete, ctxComplete, initComplete, h.new, h.free, hx, h.init, h.update, h.final]
      · obtain ⟨a, b, c⟩ := h.ex2 hx
        simp [evpComplete, ctxComplete, initComplete, h.new, h.free, hx, a, b, c, h.update, h.final]
    · simp [evpComplete, ctxComplete, initComplete, h.new, h.ctxInit, h.cleanup, h.remove, h.ex2, h.init, h.update, h.final]
  have ha : ∀ k, S.func (.evp k) = true := by rcases h with h | h <;> exact h.algs
  refine ⟨_, cfg_configure_lib hw hl hE, rfl, fun k => ?_⟩
  obtain ⟨h1, h2, h3⟩ := cfg_all_evp hE ha k
  have hm := matches_evp _ S.smallLong k h1 h2 (cfg_lib_init hE)
  refine ⟨h3, fun h => ?_, fun h => ?_⟩
  · have : (config S (libDone S)) .ctxInit = false := by show (!S.func .ctxNew && S.func .ctxInit) = false; rw [h.new]; rfl
    rw [this] at hm
    exact hm
  · have : (config S (libDone S)) .ctxInit = true := by show (!S.func .ctxNew && S.func .ctxInit) = true; rw [h.new, h.ctxInit]; rfl
    rw [this] at hm
    exact hm

/-- C83 (systems without the library, and without EVP). If the library is looked for, pkg-config does not know it and openssl/evp.h is not there, configure does not fail, every algorithm is the built-in code, the summary says so, and
libhmac.pc does not name the library. If the library is accepted, but lacks functions that EVP needs, and has the direct functions, every algorithm is compiled with the direct functions, unless EVP is asked for; the summary says so. -/
theorem C83_other_systems (S : System) (o : BuildOptions) (hw : Wanted o) :
    (S.pkgConfig ≠ some true → S.header .evp = false →
      ∃ s, configure S o = some s ∧ s.pc = false ∧ ∀ k, Matches (config S s) S.smallLong k .builtin ∧ summary s k = .builtin) ∧
    (S.pkgConfig = some true ∧ o.openssl = .auto ∨ S.header .evp = true ∧ S.zlib = true → S.func .digestInitEx2 = false ∧ S.func .digestInitEx = false ∨ S.func .ctxNew = false ∧ S.func .removeThreadState = false → o.evpMd ≠ .yes →
      (∀ k, S.header (headerOf k) = true ∧ S.length k = true ∧ S.func (.init k) = true ∧ S.func (.update k) = true ∧ S.func (.final k) = true) →
      ∃ s, configure S o = some s ∧ s.pc = true ∧ ∀ k, Matches (config S s) S.smallLong k (.crypto (.direct S.smallLong)) ∧ summary s k = .libcrypto) := by
  obtain ⟨h1, h2, h3, h4⟩ := hw
  constructor
  · intro hp hh
    refine ⟨noShell .no (S.header .evp), ?_, rfl, fun k => ⟨matches_builtin _ _ _ rfl rfl, rfl⟩⟩
    have hl : libFound S o = false := by simp [libFound, hp, hh]
    rw [cfg_configure, if_neg (by simp [h2]), if_neg (by simp [h1, h3]), if_neg h4, if_neg (by simp [hl])]
  · intro hp hf he hd
    have hl : libFound S o = true := by
      rcases hp with ⟨a, b⟩ | ⟨a, b⟩ <;> simp [libFound, a, b]
    have hE : evpComplete S = false := by
      rcases hf with ⟨a, b⟩ | ⟨a, b⟩ <;> simp [evpComplete, ctxComplete, initComplete, a, b]
    have hv : ∀ k, viaEvp S k = false := fun k => by simp [viaEvp, hE]
    refine ⟨libDone S, ?_, rfl, fun k => ?_⟩
    · rw [cfg_configure, if_neg (by simp [h2]), if_neg (by simp [h1, h3]), if_neg h4, if_pos hl, if_neg (by simp [he])]
    · obtain ⟨a, b, c, d, e⟩ := hd k
      have hm : (config S (libDone S)) (headerMacro k) = true := by
        cases k <;> simp [headerOf] at a <;> simp [headerMacro, config, libDone, hv, someShaDirect, a]
      refine ⟨matches_direct _ _ _ ?_, ?_⟩
      · show (true && (config S (libDone S)) (headerMacro k) && S.length k) = true
        rw [hm, b]
        rfl
      · simp [summary, libDone, mdDone, libShell, foundOf, hv, directFound, a, c, d, e]

/-- C83 (libhmac.pc). If the code of an algorithm uses the crypto library, libhmac.pc names the library. -/
theorem C83_pc (S : System) (o : BuildOptions) (s : Shell) (h : configure S o = some s) (k : Kind) (b : Backend) (hm : Matches (config S s) S.smallLong k (.crypto b)) : s.pc = true := by
  rcases cfg_cases h with ⟨rfl, -⟩ | ⟨e, x, rfl, -⟩ | ⟨rfl, -⟩
  · rfl
  · exact absurd (matches_unique _ _ _ hm (matches_builtin _ _ _ rfl rfl)) (by simp)
  · rfl

/-- C83 (the option to disable EVP has no effect). configure ends with the same result with --disable-openssl-evp-md and without it. -/
theorem C83_disable_evp_ignored (S : System) (o : BuildOptions) : configure S { o with evpMd := .no } = configure S { o with evpMd := .auto } := by
  rw [cfg_configure, cfg_configure]
  have e : libFound S { o with evpMd := .no } = libFound S { o with evpMd := .auto } := rfl
  simp only [e]
  simp

/-- C83 (the option to enable EVP). With --enable-openssl-evp-md configure stops if the library is accepted and functions that EVP needs are missing; otherwise it ends with the same result as without the option. -/
theorem C83_enable_evp (S : System) (o : BuildOptions) :
    (Wanted o → libFound S o = true → evpComplete S = false → configure S { o with evpMd := .yes } = none) ∧
      (evpComplete S = true ∨ libFound S o = false ∨ ¬Wanted o → configure S { o with evpMd := .yes } = configure S { o with evpMd := .auto }) := by
  have e : ∀ x, libFound S { o with evpMd := x } = libFound S o := fun _ => rfl
  constructor
  · intro ⟨h1, h2, h3, h4⟩ hl hE
    rw [cfg_configure, if_neg (by simp [h2]), if_neg (by simp [h1, h3]), if_neg h4, if_pos (by rw [e]; exact hl), if_pos ⟨rfl, hE⟩]
  · intro h
    rw [cfg_configure, cfg_configure]
    simp only [e]
    rcases h with h | h | h
    · simp [h]
    · simp [h]
    · simp only [Wanted, not_and_or, not_not] at h
      rcases h with h | h | h | h
      · simp [h]
      · simp only [Bool.not_eq_false] at h
        simp [h]
      · simp [h]
      · simp [h]

/-! ### What does not hold, and what does -/

/-- The summary tells what is compiled. -/
def SummaryRight (S : System) (s : Shell) : Prop := ∀ k c, Matches (config S s) S.smallLong k c → summary s k = shouldTell c

/-- The code calls only functions that the library has. -/
def Links (S : System) (s : Shell) : Prop := ∀ k, ∀ f ∈ calls (config S s) k, S.func f = true

/-- The direct functions are there wherever their header is, and it defines the lengths. -/
def HeadersComplete (S : System) : Prop := ∀ k, S.header (headerOf k) = true → S.length k = true ∧ S.func (.init k) = true ∧ S.func (.update k) = true ∧ S.func (.final k) = true

/-- The library has all four functions EVP_sha1, EVP_sha224, EVP_sha256 and EVP_sha512 or none of them. -/
def ShaUniform (S : System) : Prop := ∀ j k, j ≠ .md5 → k ≠ .md5 → S.func (.evp j) = S.func (.evp k)

theorem cfg_header_uniform {S : System} {k : Kind} (hu : k = .md5 ∨ ShaUniform S) : (config S (libDone S)) (headerMacro k) = (!viaEvp S k && S.header (headerOf k)) := by
  cases hk : k
  · rfl
  all_goals
    have hu : ShaUniform S := by rcases hu with h | h <;> [exact absurd (hk.symm.trans h) (by decide); exact h]
    have e1 := hu .sha1 .sha224 (by decide) (by decide)
    have e2 := hu .sha224 .sha256 (by decide) (by decide)
    have e3 := hu .sha256 .sha512 (by decide) (by decide)
    show (someShaDirect S && S.header .sha) = (!_ && S.header .sha)
    unfold someShaDirect viaEvp
    rw [e1, e2, e3]
    cases evpComplete S <;> cases S.func (.evp .sha512) <;> rfl

theorem cfg_isEvp (S : System) (k : Kind) : isEvp (config S (libDone S)) k = viaEvp S k := rfl

theorem cfg_summary_lib (S : System) (k : Kind) : summary (libDone S) k = if viaEvp S k then .libcryptoEvp else if directFound S k then .libcrypto else .builtin := by
  have e : (libDone S).alg k = foundOf S k := rfl
  have l : (libDone S).libcrypto = .yes := rfl
  unfold summary
  rw [e, l]
  unfold foundOf
  cases viaEvp S k <;> cases directFound S k <;> rfl

/-- C83 (the summary). Full statement: `SummaryRight` wherever configure ends well, which is false (`C83_summary_false`). It holds if the executables are not static, the direct functions are there wherever their header is, and the
library has all EVP functions of the SHA algorithms or none. -/
theorem C83_summary_partial (S : System) (o : BuildOptions) (s : Shell) (h : configure S o = some s) (hs : o.staticExecutables = false) (hh : HeadersComplete S) (hu : ShaUniform S) : SummaryRight S s := by
  intro k c hm
  rcases cfg_cases h with ⟨-, a⟩ | ⟨e, x, rfl, -⟩ | ⟨rfl, -⟩
  · rw [hs] at a
    exact absurd a (by decide)
  · rw [matches_unique _ _ _ hm (matches_builtin _ _ _ rfl rfl)]
    rfl
  · have hd : isDirect (config S (libDone S)) k = (!viaEvp S k && S.header (headerOf k) && S.length k) := by
      show (true && (config S (libDone S)) (headerMacro k) && S.length k) = _
      rw [cfg_header_uniform (.inr hu)]
      rfl
    cases hv : viaEvp S k
    · rw [hv] at hd
      cases hx : S.header (headerOf k)
      · rw [hx] at hd
        rw [matches_unique _ _ _ hm (matches_builtin _ _ _ hd (by rw [cfg_isEvp, hv]))]
        simp [cfg_summary_lib, hv, directFound, hx, shouldTell]
      · obtain ⟨a, b, c, d⟩ := hh k hx
        rw [hx, a] at hd
        rw [matches_unique _ _ _ hm (matches_direct _ _ _ hd)]
        simp [cfg_summary_lib, hv, directFound, hx, b, c, d, shouldTell]
    · rw [hv] at hd
      have m := matches_evp _ S.smallLong k hd (by rw [cfg_isEvp, hv]) (cfg_lib_init (viaEvp_complete hv))
      rw [matches_unique _ _ _ hm m, cfg_summary_lib, hv]
      cases (config S (libDone S)) .ctxInit <;> rfl

theorem cfg_calls_evp {S : System} (hE : evpComplete S = true) : ∀ f ∈
    (if (!S.func .ctxNew && S.func .ctxInit) then [Fn.ctxInit] else [.ctxNew]) ++ [if S.func .digestInitEx2 then Fn.digestInitEx2 else .digestInitEx] ++
      (if (!S.func .ctxNew && S.func .ctxCleanup) then [Fn.ctxCleanup, .removeThreadState] else [.ctxFree]) ++ [Fn.digestUpdate, .digestFinalEx], S.func f = true := by
  unfold evpComplete ctxComplete initComplete at hE
  cases h1 : S.func .ctxNew
  · cases h2 : S.func .digestInitEx2 <;> simp_all
  · cases h2 : S.func .digestInitEx2 <;> simp_all

/-- C83 (linking). Full statement: `Links` wherever configure ends well, which is false (`C83_links_false`). It holds if the direct functions are there wherever their header is and defines the length. -/
theorem C83_links_partial (S : System) (o : BuildOptions) (s : Shell) (h : configure S o = some s)
    (hh : ∀ k, S.header (headerOf k) = true → S.length k = true → S.func (.init k) = true ∧ S.func (.update k) = true ∧ S.func (.final k) = true) : Links S s := by
  intro k f hf
  have np : ∀ p ∈ [Place.«initialize», .free, .update, .finalize], p ≠ .header ∧ p ≠ .source := by decide
  rcases cfg_cases h with ⟨rfl, -⟩ | ⟨e, x, rfl, -⟩ | ⟨rfl, -⟩
  · exfalso
    have m := (matches_builtin (config S (staticDone S)) S.smallLong k rfl rfl).1
    simp [calls, m] at hf
  · exfalso
    have m := (matches_builtin (config S (noShell e x)) S.smallLong k rfl rfl).1
    simp [calls, m] at hf
  · cases h1 : isDirect (config S (libDone S)) k
    · cases h2 : isEvp (config S (libDone S)) k
      · exfalso
        have m := (matches_builtin _ S.smallLong k h1 h2).1
        simp [calls, m] at hf
      · have hv := cfg_lib_evp h2
        have hE := viaEvp_complete hv
        have m : ∀ p, p ≠ .header → p ≠ .source → compiled (config S (libDone S)) k p = .evp := fun p a c => by
          unfold isDirect at h1
          unfold isEvp at h2
          rw [cfg_compiled _ k p a c, h1, h2]; rfl
        obtain ⟨-, s2, s3, s4, s5, -⟩ := cfg_switched (config S (libDone S)) k
        have b2 : switched (config S (libDone S)) k .inits = (!S.func .ctxNew && S.func .ctxInit) := s2
        have b3 : switched (config S (libDone S)) k .undoes = (!S.func .ctxNew && S.func .ctxCleanup) := s3
        have b4 : switched (config S (libDone S)) k .cleans = (!S.func .ctxNew && S.func .ctxCleanup) := s4
        have b5 : switched (config S (libDone S)) k .ex2 = S.func .digestInitEx2 := s5
        have key := cfg_calls_evp hE f
        have he : S.func (.evp k) = true := by
          unfold viaEvp at hv
          simp only [Bool.and_eq_true] at hv
          exact hv.2
        simp only [calls, m _ (np .«initialize» (by simp)).1 (np .«initialize» (by simp)).2, m _ (np .free (by simp)).1 (np .free (by simp)).2, m _ (np .update (by simp)).1 (np .update (by simp)).2,
          m _ (np .finalize (by simp)).1 (np .finalize (by simp)).2, b2, b3, b4, b5, List.mem_append, List.mem_cons, List.not_mem_nil, or_false] at hf
        simp only [List.mem_append, List.mem_cons, List.not_mem_nil, or_false] at key
        rcases hf with ((((hf | rfl | hf) | hf) | hf) | hf) | hf
        · exact key (.inl (.inl (.inl hf)))
        · exact he
        · exact key (.inl (.inl (.inr hf)))
        · exact key (.inl (.inr hf))
        · exact key (.inl (.inr hf))
        · exact key (.inr (.inl hf))
        · exact key (.inr (.inr hf))
    · have m := (matches_direct _ S.smallLong k h1).1
      have hx : S.header (headerOf k) = true ∧ S.length k = true := by
        unfold isDirect at h1
        simp only [Bool.and_eq_true] at h1
        refine ⟨?_, h1.2⟩
        have := h1.1.2
        cases k <;> simp [headerMacro, config, libDone] at this <;> exact this.2
      obtain ⟨a, b, c⟩ := hh k hx.1 hx.2
      simp [calls, m] at hf
      rcases hf with rfl | rfl | rfl <;> assumption

/-- C83 (compiling). Full statement: `Declared` for every algorithm wherever configure ends well, which is false (`C83_declared_false`). It holds for MD5, and for the SHA algorithms if the library has all of their EVP functions or
none. -/
theorem C83_declared_partial (S : System) (o : BuildOptions) (s : Shell) (h : configure S o = some s) (k : Kind) (hu : k = .md5 ∨ ShaUniform S) : Declared (config S s) k := by
  have c := cfg_compiled (config S s) k
  obtain ⟨s1, s2, s3, s4, -, s6⟩ := cfg_switched (config S s) k
  have i1 := cfg_included (config S s) k .header (.inl rfl)
  have i2 := cfg_included (config S s) k .source (.inr rfl)
  have cl := c .layout (by decide) (by decide)
  have ci := c .«initialize» (by decide) (by decide)
  have cu := c .update (by decide) (by decide)
  have ct := cfg_transforms (config S s) k
  rw [c .support (by decide) (by decide)] at ct
  have hmem : ∀ p ∈ [Place.«initialize», .free, .update, .finalize], compiled (config S s) k p = compiled (config S s) k .layout := by
    intro p hp
    rw [cl, c p (by rintro rfl; simp at hp) (by rintro rfl; simp at hp)]
  have hb : compiled (config S s) k .update = .other → transforms (config S s) k = true := by
    rw [cu, ct]
    intro a
    simpa using a
  rcases cfg_cases h with ⟨rfl, -⟩ | ⟨e, x, rfl, -⟩ | ⟨rfl, -⟩
  · have hl : (config S (staticDone S)) .libcrypto = false := rfl
    rw [hl] at cl ci s6
    simp only [Bool.false_and, Bool.false_eq_true, if_false] at cl ci s6
    exact ⟨by simp [cl], by simp [cl], by simp [s6], by simp [ci], by simp [ci], hmem, by simp [cl], hb⟩
  · have hl : (config S (noShell e x)) .libcrypto = false := rfl
    rw [hl] at cl ci s6
    simp only [Bool.false_and, Bool.false_eq_true, if_false] at cl ci s6
    exact ⟨by simp [cl], by simp [cl], by simp [s6], by simp [ci], by simp [ci], hmem, by simp [cl], hb⟩
  · have hh := cfg_header_uniform (S := S) (k := k) hu
    have hl : (config S (libDone S)) .libcrypto = true := rfl
    have he : (config S (libDone S)) .evpH = true := rfl
    have hk : (config S (libDone S)) (.evp k) = viaEvp S k := rfl
    rw [hl, he, hh] at i1 i2
    rw [hl, he, hh, hk] at cl ci
    rw [hl, he, hk] at s6
    cases hv : viaEvp S k
    · simp only [hv, Bool.not_false, Bool.true_and, Bool.and_false, Bool.false_eq_true, if_false, if_true, Bool.and_self] at cl ci i1 i2 s6
      refine ⟨?_, ?_, by simp [s6], ?_, ?_, hmem, ?_, hb⟩
      · rw [cl, i1]
        cases S.header (headerOf k) <;> simp
      · rw [cl]
        split <;> simp
      · rw [ci, i1]
        cases S.header (headerOf k) <;> simp
      · rw [ci]
        split <;> simp
      · rw [cl]
        split <;> simp
    · have hi := cfg_lib_init (viaEvp_complete hv)
      simp only [hv, Bool.not_true, Bool.false_and, Bool.and_false, Bool.false_eq_true, if_false, Bool.and_true, if_true] at cl ci i1 i2 s6
      refine ⟨by simp [cl], fun _ => i1, fun _ => .inl i1, by simp [ci], fun _ => ⟨s6, i2⟩, hmem, fun _ w hw a => ?_, hb⟩
      rw [s1]
      rw [hi] at s3 s4
      simp only [List.mem_cons, List.not_mem_nil, or_false] at hw
      rcases hw with rfl | rfl | rfl
      · rw [← s2]; exact a
      · rw [← s3]; exact a
      · rw [← s4]; exact a

/-! ### Systems -/

/-- OpenSSL 3: everything is found but the functions of OpenSSL 1.0. -/
def openssl3 : System where
  header _ := true
  func f := f ≠ .ctxInit && f ≠ .ctxCleanup && f ≠ .removeThreadState
  zlib := true
  pkgConfig := some true
  length _ := true
  smallLong := false

/-- OpenSSL 1.0: the functions of 1.1 and 3.0 are missing. -/
def openssl10 : System where
  header _ := true
  func f := f ≠ .ctxNew && f ≠ .ctxFree && f ≠ .digestInitEx2 && f ≠ .ctxReset && f ≠ .mdFetch && f ≠ .mdFree
  zlib := true
  pkgConfig := none
  length _ := true
  smallLong := false

/-- No options. -/
def noOptions : BuildOptions := ⟨.auto, .auto, true, false⟩

/-- Static executables. -/
def staticOptions : BuildOptions := ⟨.auto, .auto, true, true⟩

/-- A library without EVP_sha224. -/
def lacksSha224 : System := { openssl3 with func := fun f => openssl3.func f && f ≠ .evp .sha224 }

/-- A library without EVP_DigestFinal_ex and SHA224_Init, but with openssl/sha.h. -/
def lacksInit : System := { openssl3 with func := fun f => openssl3.func f && f ≠ .digestFinalEx && f ≠ .init .sha224 }

example : OpenSsl11 openssl3 ∧ OpenSsl10 openssl10 ∧ Wanted noOptions :=
  ⟨⟨rfl, rfl, rfl, rfl, rfl, fun _ => ⟨rfl, rfl, rfl⟩, rfl, rfl, fun k => by cases k <;> rfl⟩, ⟨rfl, rfl, rfl, rfl, rfl, rfl, rfl, rfl, rfl, rfl, fun k => by cases k <;> rfl⟩, by unfold Wanted; decide⟩

/-- OpenSSL 0.9.8: EVP needs a function that is missing. -/
def openssl098 : System := { openssl10 with func := fun f => openssl10.func f && f ≠ .removeThreadState }

example : openssl098.header .evp = true ∧ openssl098.zlib = true ∧ openssl098.func .ctxNew = false ∧ openssl098.func .removeThreadState = false ∧ noOptions.evpMd ≠ .yes ∧
    ∀ k, openssl098.header (headerOf k) = true ∧ openssl098.length k = true ∧ openssl098.func (.init k) = true ∧ openssl098.func (.update k) = true ∧ openssl098.func (.final k) = true :=
  ⟨rfl, rfl, rfl, rfl, by decide, fun k => by cases k <;> exact ⟨rfl, rfl, rfl, rfl, rfl⟩⟩

example : HeadersComplete openssl3 ∧ ShaUniform openssl3 ∧ (configure openssl3 noOptions).isSome = true :=
  ⟨fun k _ => by cases k <;> decide, fun j k _ _ => by cases j <;> cases k <;> rfl, by rw [cfg_configure]; decide⟩

example : (configure lacksInit noOptions).isSome = true ∧ (configure lacksSha224 noOptions).isSome = true ∧ (configure openssl3 staticOptions).isSome = true := by
  rw [cfg_configure, cfg_configure, cfg_configure]
  decide

/-- Conditions made by hand, with HAVE_EVP_MD_CTX_INIT and without HAVE_EVP_MD_CTX_CLEANUP, are none of the choices: the context in the structure is freed as one of the library. -/
def handMade : Config
  | .libcrypto | .evpH | .evp _ | .ctxInit => true
  | _ => false

example (b : Bool) (k : Kind) (c : Choice) : ¬Matches handMade b k c := by
  have hl : compiled handMade k .layout = .evp := by cases k <;> rfl
  have h1 : switched handMade k .member = true := by cases k <;> rfl
  have h2 : switched handMade k .cleans = false := by cases k <;> rfl
  intro h
  rcases c with _ | (x | _ | _)
  · exact absurd (hl.symm.trans (h.1 .layout (by decide) (by decide))) (by decide)
  · exact absurd (hl.symm.trans (h.1 .layout (by decide) (by decide))) (by decide)
  · exact absurd (h2.symm.trans (h.2.2 .cleans (by decide) (by decide))) (by decide)
  · exact absurd (h1.symm.trans (h.2.2 .member (by decide) (by decide))) (by decide)

theorem cfg_lacksSha224 : configure lacksSha224 noOptions = some (libDone lacksSha224) := by rw [cfg_configure]; rfl

theorem cfg_lacksInit : configure lacksInit noOptions = some (libDone lacksInit) := by rw [cfg_configure]; rfl

theorem cfg_static3 : configure openssl3 staticOptions = some (staticDone openssl3) := by rw [cfg_configure]; rfl

theorem cfg_noEvp3 : configure openssl3 { noOptions with evpMd := .no } = some (libDone openssl3) := by rw [cfg_configure]; rfl

/-- C83: the summary may be wrong. With static executables it tells that MD5 is from the library, while the code is built-in. Without EVP_sha224 it tells that SHA1 is EVP, while the direct functions are used. Without some functions
it tells that SHA224 is local, while the direct functions are used. -/
theorem C83_summary_false :
    (∃ s, configure openssl3 staticOptions = some s ∧ summary s .md5 = .libcrypto ∧ Matches (config openssl3 s) false .md5 .builtin ∧ s.pc = true) ∧
    (∃ s, configure lacksSha224 noOptions = some s ∧ summary s .sha1 = .libcryptoEvp ∧ Matches (config lacksSha224 s) false .sha1 (.crypto (.direct false))) ∧
    (∃ s, configure lacksInit noOptions = some s ∧ summary s .sha224 = .builtin ∧ Matches (config lacksInit s) false .sha224 (.crypto (.direct false))) := by
  exact ⟨⟨_, cfg_static3, rfl, matches_builtin _ _ _ rfl rfl, rfl⟩, ⟨_, cfg_lacksSha224, rfl, matches_direct _ _ _ rfl⟩, ⟨_, cfg_lacksInit, rfl, matches_direct _ _ _ rfl⟩⟩

/-- C83: the code may call functions that configure did not find, SHA224_Init for example. -/
theorem C83_links_false : ∃ s, configure lacksInit noOptions = some s ∧ .init .sha224 ∈ calls (config lacksInit s) .sha224 ∧ lacksInit.func (.init .sha224) = false :=
  ⟨_, cfg_lacksInit, by decide, rfl⟩

/-- C83: the code may not compile. Without EVP_sha224 the variable `evp_md_type` is declared in the code of SHA1, while openssl/evp.h is not included. -/
theorem C83_declared_false : ∃ s, configure lacksSha224 noOptions = some s ∧ switched (config lacksSha224 s) .sha1 .evpVariable = true ∧
    compiled (config lacksSha224 s) .sha1 .header ≠ .evp ∧ compiled (config lacksSha224 s) .sha1 .source ≠ .evp :=
  ⟨_, cfg_lacksSha224, by decide, by decide, by decide⟩

/-- C83: with --disable-openssl-evp-md the EVP functions are used. -/
theorem C83_disable_evp_false : ∃ s, configure openssl3 { noOptions with evpMd := .no } = some s ∧ ∀ k, Matches (config openssl3 s) false k (.crypto .evpAllocated) := by
  refine ⟨_, cfg_noEvp3, fun k => ?_⟩
  have h := C83_usual openssl3 noOptions (by unfold Wanted; decide) (.inl ⟨rfl, rfl, rfl, rfl, rfl, fun _ => ⟨rfl, rfl, rfl⟩, rfl, rfl, fun k => by cases k <;> rfl⟩)
  obtain ⟨s, e, -, h⟩ := h
  have h := (h k).2.1 ⟨rfl, rfl, rfl, rfl, rfl, fun _ => ⟨rfl, rfl, rfl⟩, rfl, rfl, fun k => by cases k <;> rfl⟩
  have e2 := C83_disable_evp_ignored openssl3 noOptions
  have e3 : configure openssl3 { noOptions with evpMd := .auto } = some s := e
  rw [e3, cfg_noEvp3] at e2
  rw [Option.some.inj e2]
  exact h

/-- C83_coherent, C83_summary_partial, C83_links_partial and C83_pc apply to a system with OpenSSL 3: all five algorithms come from the crypto library over an allocated context. -/
example : ∃ s, configure openssl3 noOptions = some s ∧ (∃ ch : Kind → Choice, ∀ k, Matches (config openssl3 s) openssl3.smallLong k (ch k)) ∧ SummaryRight openssl3 s ∧ Links openssl3 s ∧ s.pc = true := by
  have hS : OpenSsl11 openssl3 := ⟨rfl, rfl, rfl, rfl, rfl, fun _ => ⟨rfl, rfl, rfl⟩, rfl, rfl, fun k => by cases k <;> rfl⟩
  obtain ⟨s, h, -, hk⟩ := C83_usual openssl3 noOptions (by unfold Wanted; decide) (.inl hS)
  obtain ⟨ch, hc, -⟩ := C83_coherent _ _ _ h
  exact ⟨s, h, ⟨ch, hc⟩, C83_summary_partial _ _ _ h rfl (fun k _ => by cases k <;> decide) (fun j k _ _ => by cases j <;> cases k <;> rfl), C83_links_partial _ _ _ h (fun k _ _ => by cases k <;> decide),
    C83_pc _ _ _ h .md5 _ ((hk .md5).2.1 hS)⟩

/-- C83_without_openssl: a static build on the same system. -/
example : ∃ s, configure openssl3 staticOptions = some s ∧ ∀ k, Matches (config openssl3 s) openssl3.smallLong k .builtin := by
  obtain ⟨s, h, hk, -⟩ := C83_without_openssl openssl3 staticOptions (.inr (.inr rfl))
  exact ⟨s, h, hk⟩

/-- C83_other_systems: OpenSSL 0.9.8 has the functions of each algorithm, and they are used. -/
example : ∃ s, configure openssl098 noOptions = some s ∧ ∀ k, Matches (config openssl098 s) openssl098.smallLong k (.crypto (.direct false)) ∧ summary s k = .libcrypto := by
  obtain ⟨s, h, -, hk⟩ := (C83_other_systems openssl098 noOptions (by unfold Wanted; decide)).2 (.inr ⟨rfl, rfl⟩) (.inr ⟨rfl, rfl⟩) (by decide) (fun k => by cases k <;> exact ⟨rfl, rfl, rfl, rfl, rfl⟩)
  exact ⟨s, h, hk⟩

end Props
