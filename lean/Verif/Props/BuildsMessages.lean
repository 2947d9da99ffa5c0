import Verif.Proofs.BuildsMessages
import Verif.Proofs.BuildsMain
import Verif.Props.Messages
import Verif.Props.HostTool
/-! C78: what hmacsum tells on standard error, in every build and on hosts of other widths. -/

namespace Props

open Model Spec

/-- C78. With its messages the program of any build has the same exit status, standard output and memory; the outcome of the output initialisation is that of the two calls of `setvbuf`. -/
theorem C78_same_program {M : Type} (E : Environment) (C : Contexts M) (S : SystemCalls) (args : List (List Nat)) (W : WorldOf M) :
    (Builds.mHmacsum E C S args W >>= fun y => pure (y.1.exit, y.2)) = Builds.hmacsum { E with outputOk := S.bufferOut && S.bufferErr } C args W := Builds.mHmacsum_erase args W

/-- C78. With every algorithm built in, on a host of 64 bits, it is the program of C59. -/
theorem C78_builtin (E : Environment) (S : SystemCalls) (args : List (List Nat)) (W : World) : Builds.mHmacsum E (.builtin E.tool) S args W = mHmacsum E S args W := Builds.mHmacsum_builtin args W

/-- C78. In any build, on any command line: exit status 0 comes with warnings only. A failure comes with exactly one message that is not a warning, and it is the last; or, after a signal, with warnings only and the line
"ABORTED" on standard output. Whatever the crypto libraries do. -/
theorem C78_explained {M : Type} (E : Environment) (C : Contexts M) (S : SystemCalls) (args : List (List Nat)) (W W' : WorldOf M) (x : ExitM) (h : Builds.mHmacsum E C S args W = .ok (x, W')) :
    (x.exit.status = true → ∀ m ∈ x.err, m.isWarning = true) ∧
    (x.exit.status = false → (∃ ws m, x.err = ws ++ [m] ∧ (∀ m ∈ ws, m.isWarning = true) ∧ m.isWarning = false) ∨
      (∀ m ∈ x.err, m.isWarning = true) ∧ x.exit.out.getLast? = some .aborted ∧ E.arrival ≠ .never) := by
  rcases Builds.mHmacsum_shape h with ⟨h1, h2⟩ | ⟨h1, h2⟩
  · exact ⟨fun _ => h2, fun h => by rw [h1] at h; cases h⟩
  · exact ⟨fun h => absurd (h1.symm.trans h) (by decide), fun _ => h2.imp id fun h => ⟨h.1, h.2.1, fun hn => by rw [hn] at h; exact absurd h.2.2 (by decide)⟩⟩

/-- The argument of -p, if given, is a size that is positive and not larger than `max`, in digits with an optional factor and unit. -/
def UsualSize (max : Nat) (dp : Option Nat) (arg : Option (List Nat)) : Prop :=
  ∀ s, arg = some s → ∃ c ds sp f up u, dp = some c ∧ c ∉ sizeChars ∧ s = sizeText c ds none sp f up u ∧ f ≠ 1 ∧ 0 < decimal ds * u.base ^ f.1 ∧ decimal ds * u.base ^ f.1 ≤ max

/-- The argument of -p is a size above `max` (and below 2^64). -/
def TooLargeSize (max : Nat) (dp : Option Nat) (arg : Option (List Nat)) : Prop :=
  ∃ s c ds sp f up u, arg = some s ∧ dp = some c ∧ c ∉ sizeChars ∧ s = sizeText c ds none sp f up u ∧ f ≠ 1 ∧ max < decimal ds * u.base ^ f.1 ∧ decimal ds * u.base ^ f.1 < 2 ^ 64

/-- The reason for each message, for a command line with a source: as `Cause`, with the largest buffer size of the host and the reasons why the hash functions of the build may fail. -/
def BuildCause (E : Environment) (S : SystemCalls) (max : Nat) (fails : Input → Prop) (digests size : Option (List Nat)) (source : List Nat) : Message → Prop
  | .locale => E.localeOk = false
  | .output => S.bufferOut = false ∨ S.bufferErr = false
  | .invalidArgument _ => False
  | .missingSource => False
  | .createHandle => ∃ n, E.tool.alloc n = false
  | .bufferSize => ¬ BufferArgument E.dp size
  | .bufferSizeDefault => ¬ UsualSize max E.dp size
  | .digestTypes => digests ≠ none ∧ (E.splitOk = false ∨ E.splitFreeOk = false ∨ ∃ n, E.tool.alloc n = false)
  | .attach => S.attach = false
  | .openInput => E.files source = none
  | .processInput => ∃ inp, E.files source = some inp ∧ (inp.size = none ∨ (∃ n, inp.size = some n ∧ inp.content.length < n) ∨ (∃ i, ∀ c, inp.reads i = some c → c = 0) ∨
      (∃ n, E.tool.alloc n = false) ∨ ¬ BufferArgument E.dp size ∨ fails inp)
  | .printHashes => False
  | .closeHandle => E.closeOk = false
  | .detach => S.detach = false
  | .freeHandle => E.freeOk = false

/-- Why the hash functions of a build may fail: a library in use that is not reliable; or sizes of 32 bits are passed to the library, and neither the buffer nor the file is small enough for them. -/
def LibraryFails (ch : Kind → Choice) (L : Kind → Library) (dp : Option Nat) (size : Option (List Nat)) (inp : Input) : Prop :=
  (∃ k, ch k ≠ .builtin ∧ ¬ Reliable (L k)) ∨ (∃ k, ch k = .crypto (.direct true)) ∧ ¬ UsualSize (2 ^ 32 - 1) dp size ∧ ∃ n, inp.size = some n ∧ 2 ^ 32 ≤ n

section causes

variable {M : Type} {E : Environment} {C : Contexts M} {S : SystemCalls} {Good : Prop} {limit : Nat} {Rel : (Kind → Option Nat) → M → Builds.Msgs → Prop} {P : Message → Prop}

/-- The option -p in any build. -/
theorem builds_buffer_size (C : Contexts M) (verbose : Bool) (dp : Nat) (hdp : dp ∉ sizeChars) (ds : List (Fin 10)) (sp : Bool) (f : Fin 9) (hf : f ≠ 1) (up : Bool) (u : SizeUnit) (h : Handle)
    (hv : decimal ds * u.base ^ f.1 < 2 ^ 64) :
    Builds.setBufferSize C verbose (some dp) (sizeText dp ds none sp f up u) h = .ok (if decimal ds * u.base ^ f.1 ≤ C.sizeMax then (1, { h with bufferSize := decimal ds * u.base ^ f.1 }) else (0, h)) := by
  have e : scaled (decimal ds) (fracValue none) f.1 u.base = decimal ds * u.base ^ f.1 := if_neg (by simp [fracValue, hundredths])
  unfold Builds.setBufferSize
  rw [sizeText_eval verbose dp hdp, if_neg hf, e]
  simp only [Res.ok_bind]
  have hn : (BitVec.ofNat 64 (decimal ds * u.base ^ f.1)).toNat = decimal ds * u.base ^ f.1 := by rw [BitVec.toNat_ofNat, Nat.mod_eq_of_lt hv]
  rw [hn]
  have hlt := C.sizeMax_lt
  generalize decimal ds * u.base ^ f.1 = v at *
  by_cases hle : v ≤ C.sizeMax
  · simp [hle, Nat.not_lt.mpr hle, Nat.mod_eq_of_lt (Nat.lt_of_le_of_lt hle hlt)]
  · simp [hle, Nat.lt_of_not_le hle]

/-- The size that the program sets. -/
theorem builds_set_size {verbose : Bool} {s : List Nat} {h : Handle} {r : Int} {n : Nat} (e : Builds.setBufferSize C verbose E.dp s h = .ok (r, { h with bufferSize := n })) (c : Nat) (ds : List (Fin 10)) (sp : Bool)
    (f : Fin 9) (up : Bool) (u : SizeUnit) (hd : E.dp = some c) (hc : c ∉ sizeChars) (hs : s = sizeText c ds none sp f up u) (hf : f ≠ 1) (hv : decimal ds * u.base ^ f.1 < 2 ^ 64) :
    (r, n) = if decimal ds * u.base ^ f.1 ≤ C.sizeMax then ((1 : Int), decimal ds * u.base ^ f.1) else (0, h.bufferSize) := by
  have e2 := builds_buffer_size C verbose c hc ds sp f hf up u h hv
  rw [← hs, ← hd, e] at e2
  injection e2 with e2
  split at e2
  · rename_i hle
    have a := congrArg (fun x : Int × Handle => x.1) e2
    have b := congrArg (fun x : Int × Handle => x.2.bufferSize) e2
    simp only at a b
    rw [if_pos hle, a, b]
  · rename_i hle
    have a := congrArg (fun x : Int × Handle => x.1) e2
    have b := congrArg (fun x : Int × Handle => x.2.bufferSize) e2
    simp only at a b
    rw [if_neg hle, a, b]

theorem UsualSize.argument {max : Nat} (hmax : max < 2 ^ 64) {dp : Option Nat} {arg : Option (List Nat)} (h : UsualSize max dp arg) : BufferArgument dp arg := fun s hs => by
  obtain ⟨c, ds, sp, f, up, u, h1, h2, h3, h4, h5, h6⟩ := h s hs
  exact ⟨c, ds, sp, f, up, u, h1, h2, h3, h4, h5, Nat.lt_of_le_of_lt h6 hmax⟩

theorem sizeMax_64 (h : C.bits ≤ 64) : C.sizeMax < 2 ^ 64 := Nat.lt_of_lt_of_le C.sizeMax_lt (Nat.pow_le_pow_right (by decide) h)

theorem builds_onError_cause {out : List Line} {err : List Message} {slot : Option Handle} {W W' : WorldOf M} {x : ExitM} (he : ∀ m ∈ err, P m) (h : Builds.mOnError E C out err slot W = .ok (x, W')) :
    ∀ m ∈ x.err, P m := by
  obtain ⟨a, -, h⟩ := Res.bind_eq_ok h
  cases h
  exact he

theorem builds_onAbort_cause (hC : Builds.Law C E.tool Good limit Rel) (hclose : E.closeOk = false → P .closeHandle) (hdetach : S.detach = false → P .detach) (hfree : E.freeOk = false → P .freeHandle) {out : List Line}
    {err : List Message} {blk : List Nat} {hd : Handle} {W W' : WorldOf M} {x : ExitM} (hI : Builds.HandleInv E.tool Rel blk hd W) (he : ∀ m ∈ err, P m)
    (h : Builds.mOnAbort E C S out err hd W = .ok (x, W')) : ∀ m ∈ x.err, P m := by
  unfold Builds.mOnAbort at h
  split at h
  · rename_i hc
    exact builds_onError_cause (snoc_cause (m := .closeHandle) he (hclose (by cases h : E.closeOk <;> simp_all [closeInput]))) h
  have hw : ∀ m ∈ (if signalDetach S.detach ≠ 1 then err ++ [.detach] else err), P m := by
    split
    · rename_i hd
      exact snoc_cause (m := .detach) he (hdetach (by cases h : S.detach <;> simp_all [signalDetach]))
    · exact he
  obtain ⟨V, e, -⟩ := Builds.sumFree_ok hC E.freeOk blk (some hd) W hI
  rw [e] at h
  simp only [Res.ok_bind] at h
  cases hf : E.freeOk with
  | false =>
    rw [hf] at h
    exact builds_onError_cause (snoc_cause (m := .freeHandle) hw (hfree hf)) h
  | true =>
    rw [hf] at h
    simp only [Bool.true_or, if_true, ne_eq, not_true_eq_false, if_false] at h
    split at h <;> cases h <;> simpa only [ne_eq] using hw

/-- The buffer size after the option -p. -/
theorem builds_applyBufferSize (hw : 17 ≤ C.bits ∧ C.bits ≤ 64) (hdp : E.dp ≠ some 0) {o : Options} {hd hd2 : Handle} {ok : Bool} {err : List Message} (hbs : hd.bufferSize = 32768)
    (hb : Builds.mApplyBufferSize E C o [] hd = .ok (ok, hd2, err)) :
    ∃ n, hd2 = { hd with bufferSize := n } ∧ n ≤ C.sizeMax ∧ (BufferArgument E.dp o.bufferSize → 0 < n) ∧ (∀ m, 32768 ≤ m → m < 2 ^ 64 → UsualSize m E.dp o.bufferSize → n ≤ m) ∧
      (err = [] ∧ ok = true ∧ ¬ TooLargeSize C.sizeMax E.dp o.bufferSize ∨ err = [.bufferSize] ∧ ok = false ∧ ¬ BufferArgument E.dp o.bufferSize ∨
        err = [.bufferSizeDefault] ∧ ok = true ∧ ¬ UsualSize C.sizeMax E.dp o.bufferSize) := by
  have h32 : 32768 ≤ C.sizeMax := Builds.sizeMax_ge hw.1
  have h64 := sizeMax_64 hw.2
  unfold Builds.mApplyBufferSize at hb
  split at hb
  · rename_i hs
    cases hb
    exact ⟨32768, by rw [← hbs], h32, fun _ => by decide, fun m hm _ _ => hm, .inl ⟨rfl, rfl, fun ⟨s, _, _, _, _, _, _, h, _⟩ => by rw [hs] at h; cases h⟩⟩
  · rename_i s hs
    obtain ⟨r, n, e, hr⟩ := Builds.setBufferSize_ok C o.verbose E.dp hdp s hd
    rw [e] at hb
    simp only [Res.ok_bind] at hb
    rw [hs]
    have large : TooLargeSize C.sizeMax E.dp (some s) → r = 0 := fun ⟨s', c, ds, sp, f, up, u, h1, h2, h3, h4, h5, h6, h7⟩ => by
      cases h1
      have := builds_set_size e c ds sp f up u h2 h3 h4 h5 h7
      rw [if_neg (by omega)] at this
      exact congrArg Prod.fst this
    have arg : BufferArgument E.dp (some s) → r = 1 ∧ 0 < n ∨ r = 0 := fun hh => by
      obtain ⟨c, ds, sp, f, up, u, h1, h2, h3, h4, h5, h6⟩ := hh s rfl
      have := builds_set_size e c ds sp f up u h1 h2 h3 h4 h6
      split at this
      · cases this
        exact .inl ⟨rfl, h5⟩
      · cases this
        exact .inr rfl
    have usual : ∀ m, m < 2 ^ 64 → UsualSize m E.dp (some s) → r = 1 ∧ n ≤ m ∨ r = 0 ∧ C.sizeMax < m := fun m hm hh => by
      obtain ⟨c, ds, sp, f, up, u, h1, h2, h3, h4, h5, h6⟩ := hh s rfl
      have := builds_set_size e c ds sp f up u h1 h2 h3 h4 (by omega)
      split at this
      · cases this
        exact .inl ⟨rfl, h6⟩
      · cases this
        exact .inr ⟨rfl, by omega⟩
    split at hb
    · rename_i hr1
      cases hb
      have hn : n = 32768 := by
        rcases hr with ⟨h, -⟩ | ⟨-, h⟩
        · omega
        · omega
      exact ⟨n, rfl, by omega, fun _ => by omega, fun m hm _ _ => by omega, .inr (.inl ⟨rfl, rfl, fun hh => by have := arg hh; omega⟩)⟩
    split at hb
    · rename_i hr1 hr0
      cases hb
      refine ⟨32768, rfl, h32, fun _ => by decide, fun m hm _ _ => hm, .inr (.inr ⟨rfl, rfl, fun hh => ?_⟩)⟩
      have := usual _ h64 hh
      omega
    · rename_i hr1 hr0
      cases hb
      exact ⟨n, rfl, by omega, fun hh => by have := arg hh; omega, fun m _ hm hh => by have := usual m hm hh; omega, .inl ⟨rfl, rfl, fun hh => by have := large hh; omega⟩⟩

theorem builds_runSource_cause (hT : E.tool.Ok) (hC : Builds.Law C E.tool Good limit Rel) (hdp : E.dp ≠ some 0) (o : Options) (source : List Nat) (out : List Line) (blk : List Nat) {W W' : WorldOf M}
    (hW : Builds.NoneInv Rel blk W) {fails : Input → Prop}
    (hfit : ∀ inp size n, inp.size = some size → ¬ fails inp → n ≤ C.sizeMax → (∀ m, 32768 ≤ m → m < 2 ^ 64 → UsualSize m E.dp o.bufferSize → n ≤ m) → Good ∧ (n ≤ limit ∨ size ≤ limit)) {x : ExitM}
    (h : Builds.mRunSource E C S o source out W = .ok (x, W')) : ∀ m ∈ x.err, BuildCause E S C.sizeMax fails o.digests o.bufferSize source m := by
  have h0 : ∀ m ∈ ([] : List Message), BuildCause E S C.sizeMax fails o.digests o.bufferSize source m := fun _ h => by cases h
  unfold Builds.mRunSource at h
  rcases Builds.sumInitialize_ok hT hC blk W hW with ⟨hd, W1, e1, hI, hcalc, hctx, hbs, hab, hpos⟩ | ⟨W1, extra, e1, hN, hl, n, hn⟩
  · rw [e1] at h
    simp only [Res.ok_bind, ne_eq, not_true_eq_false, if_false] at h
    obtain ⟨⟨ok, hd2, err⟩, hb, h⟩ := Res.bind_eq_ok h
    obtain ⟨n, rfl, hn, hn0, hnm, herr⟩ := builds_applyBufferSize hC.width hdp hbs hb
    have hcb : ∀ m ∈ err, BuildCause E S C.sizeMax fails o.digests o.bufferSize source m := by
      rcases herr with ⟨rfl, -⟩ | ⟨rfl, -, hh⟩ | ⟨rfl, -, hh⟩
      · exact h0
      · exact snoc_cause (err := []) (m := .bufferSize) h0 hh
      · exact snoc_cause (err := []) (m := .bufferSizeDefault) h0 hh
    have hI2 : Builds.HandleInv E.tool Rel blk { hd with bufferSize := n } W1 := hI
    dsimp only at h
    split at h
    · exact builds_onError_cause hcb h
    obtain ⟨⟨ok2, hd3, W2, err2⟩, hd', h⟩ := Res.bind_eq_ok h
    have hd' : (∀ m ∈ err2, BuildCause E S C.sizeMax fails o.digests o.bufferSize source m) ∧ Builds.HandleInv E.tool Rel blk hd3 W2 ∧ hd3.context = hd.context ∧ hd3.bufferSize = n ∧ hd3.position = 0 := by
      unfold Builds.mApplyDigests at hd'
      split at hd'
      · cases hd'
        exact ⟨hcb, hI2, rfl, rfl, hpos⟩
      · rename_i s hs
        obtain ⟨r, calc', str', W2', e3, h3, hr, -, h5⟩ := Builds.setDigestTypes_ok hT hC E.mc E.splitOk E.splitFreeOk s blk _ W1 hI2
        rw [e3] at hd'
        cases hd'
        refine ⟨?_, h3, rfl, rfl, hpos⟩
        split
        · rename_i hr1
          refine snoc_cause (m := .digestTypes) hcb ⟨by rw [hs]; simp, ?_⟩
          by_contra hcon
          simp only [not_or, not_exists, Bool.not_eq_false] at hcon
          have := h5 hcon.1 hcon.2.1 fun n => hcon.2.2 n
          omega
        · exact hcb
    obtain ⟨hcd, hI3, hctx3, hbs3, hpos3⟩ := hd'
    dsimp only at h
    split at h
    · exact builds_onError_cause hcd h
    generalize herr : (if signalAttach true S.attach ≠ 1 then err2 ++ [Message.attach] else err2) = err3 at h
    have hca : ∀ m ∈ err3, BuildCause E S C.sizeMax fails o.digests o.bufferSize source m := by
      rw [← herr]
      split
      · rename_i ha
        exact snoc_cause (m := .attach) hcd (show S.attach = false by cases h : S.attach <;> simp_all [signalAttach])
      · exact hcd
    have hab' : ∀ {out err blk hd W W' x}, Builds.HandleInv E.tool Rel blk hd W → (∀ m ∈ err, BuildCause E S C.sizeMax fails o.digests o.bufferSize source m) →
        Builds.mOnAbort E C S out err hd W = .ok (x, W') → ∀ m ∈ x.err, BuildCause E S C.sizeMax fails o.digests o.bufferSize source m := fun hI he h => builds_onAbort_cause hC id id id hI he h
    have eopen : (openInput true hd3).2 = hd3 := by
      cases hd3
      simp only at hpos3
      subst hpos3
      rfl
    unfold Builds.mOpenAndProcess at h
    cases hf : E.files source with
    | none =>
      rw [hf] at h
      dsimp only at h
      split at h
      · exact hab' hI3 hca h
      · exact builds_onError_cause (snoc_cause (m := .openInput) hca hf) h
    | some inp =>
      rw [hf] at h
      simp only [eopen] at h
      split at h
      · exact hab' hI3 hca h
      obtain ⟨r, ctx', str', ab', pos', rc', V, e5, hI4, -, -, hprog⟩ := Builds.processInput_ok hT hC inp E.arrival.atRead blk hd3 W2 hI3
      unfold Builds.mProcessAndPrint at h
      rw [e5] at h
      simp only [Res.ok_bind] at h
      split at h
      · exact hab' hI4 hca h
      split at h
      · rename_i hr
        refine builds_onError_cause (snoc_cause (m := .processInput) hca ⟨inp, hf, ?_⟩) h
        by_contra hcon
        simp only [not_or, not_exists, not_and, not_forall, Nat.not_lt, Bool.not_eq_false, Classical.not_not] at hcon
        obtain ⟨c1, c2, c3, c4, c5, c6⟩ := hcon
        obtain ⟨size, hsz⟩ := Option.ne_none_iff_exists'.mp c1
        obtain ⟨hgood, hfits⟩ := hfit inp size n hsz c6 hn hnm
        refine hr (hprog size hsz (by rw [hbs3]; exact hn0 c5) (by rw [hbs3]; exact hn) (by rw [hbs3]; exact hfits) (fun k => by rw [hctx3]; exact hctx k) c4 hgood
          (by rw [hpos3]; have := c2 size hsz; omega) fun i => ?_)
        obtain ⟨c, hc, hc0⟩ := c3 i
        exact ⟨c, hc, Nat.pos_of_ne_zero hc0⟩
      · obtain ⟨ds, -, h⟩ := Res.bind_eq_ok h
        exact hab' hI4 hca h
  · rw [e1] at h
    simp only [Res.ok_bind] at h
    exact builds_onError_cause (fun m hm => by rw [List.mem_singleton.mp hm]; exact ⟨n, hn⟩) h

theorem builds_causes (hT : E.tool.Ok) (hC : Builds.Law C E.tool Good limit Rel) (hdp : E.dp ≠ some 0) (program : List Nat) (groups : List OptGroup) (source : List Nat) (rest : List (List Nat))
    (hl : SourceLine groups source) {W W' : WorldOf M} (hW : Builds.NoneInv Rel W.blocks W) {fails : Input → Prop}
    (hfit : ∀ inp size n, inp.size = some size → ¬ fails inp → n ≤ C.sizeMax → (∀ m, 32768 ≤ m → m < 2 ^ 64 → UsualSize m E.dp (lastArgument 112 (optionsOf groups)) → n ≤ m) → Good ∧ (n ≤ limit ∨ size ≤ limit))
    {x : ExitM} (h : Builds.mHmacsum E C S (commandLine program groups (source :: rest)) W = .ok (x, W')) :
    ∀ m ∈ x.err, BuildCause E S C.sizeMax fails (lastArgument 100 (optionsOf groups)) (lastArgument 112 (optionsOf groups)) source m := by
  obtain ⟨arg, hp⟩ := mParse_of (parse_source E.mc program groups source rest hl)
  unfold Builds.mHmacsum at h
  split at h
  · rename_i hlo
    exact builds_onError_cause (fun m hm => by rw [List.mem_singleton.mp hm]; exact (by simpa using hlo : E.localeOk = false)) h
  split at h
  · rename_i hou
    refine builds_onError_cause (fun m hm => ?_) h
    rw [List.mem_singleton.mp hm]
    change S.bufferOut = false ∨ S.bufferErr = false
    cases h1 : S.bufferOut <;> cases h2 : S.bufferErr <;> simp_all [outputInitialize]
  rw [hp] at h
  exact builds_runSource_cause hT hC hdp _ source [.version] W.blocks hW hfit h

/-- A run without a reason for any message and without a signal: success, silently. -/
theorem builds_quiet {args : List (List Nat)} {W W' : WorldOf M} {x : ExitM} (h : Builds.mHmacsum E C S args W = .ok (x, W')) (hc : ∀ m ∈ x.err, P m) (hn : ∀ m, ¬ P m) (harr : E.arrival = .never) :
    x.exit.status = true ∧ x.err = [] := by
  have herr : x.err = [] := List.eq_nil_iff_forall_not_mem.mpr fun m hm => hn m (hc m hm)
  refine ⟨?_, herr⟩
  by_contra hx
  rcases (C78_explained E C S args W W' x h).2 (by simpa using hx) with ⟨ws, m, e, -⟩ | ⟨-, -, hab⟩
  · rw [herr] at e
    exact absurd e (by simp)
  · exact hab harr

/-- A failure for which only one message has its reason, without a signal. -/
theorem builds_named {args : List (List Nat)} {W W' : WorldOf M} {x : ExitM} (h : Builds.mHmacsum E C S args W = .ok (x, W')) (hc : ∀ m ∈ x.err, P m) (hx : x.exit.status = false) (harr : E.arrival = .never)
    (m : Message) (hm : ∀ m', P m' → m' = m) : x.err = [m] ∧ m.isWarning = false := by
  have hall : ∀ m' ∈ x.err, m' = m := fun m' h' => hm m' (hc m' h')
  rcases (C78_explained E C S _ W W' x h).2 hx with ⟨ws, m', e, hw, hm'⟩ | ⟨-, hab⟩
  · have e' : m' = m := hall m' (by rw [e]; simp)
    subst e'
    have : ws = [] := by
      cases ws with
      | nil => rfl
      | cons y t =>
        have h1 := hall y (by rw [e]; simp)
        have h2 := hw y (by simp)
        rw [h1, hm'] at h2
        cases h2
    subst this
    exact ⟨e, hm'⟩
  · exact absurd harr hab.2

theorem builds_missing_file (hE : StartOk E S) (hC : Builds.Law C E.tool Good limit Rel) (program : List Nat) (groups : List OptGroup) (source : List Nat) (rest : List (List Nat)) (hl : SourceLine groups source)
    (W : WorldOf M) (hW : Builds.NoneInv Rel W.blocks W) (hfile : E.files source = none) (harr : E.arrival = .never) :
    ∃ err W', Builds.mHmacsum E C S (commandLine program groups (source :: rest)) W = .ok (⟨⟨false, [.version]⟩, err⟩, W') := by
  obtain ⟨x, W', extra, e, -, -, -, hr, -⟩ := Builds.runSource_ok (E := { E with outputOk := S.bufferOut && S.bufferErr }) hE.tool hC hE.dp
    ⟨lastArgument 100 (optionsOf groups), lastArgument 112 (optionsOf groups), (optionsOf groups).any (·.1 = 118)⟩ source [.version] W.blocks W hW
  rw [← builds_run hE.envOk (parse_source E.mc program groups source rest hl), ← Builds.mHmacsum_erase] at e
  obtain ⟨ds, h1, h2, -, h4⟩ := hr.lines
  have hds : ds = [] := by
    by_contra hne
    obtain ⟨inp, -, h5, -⟩ := h4 hne
    exact absurd (hfile.symm.trans h5) (by simp)
  subst hds
  have hx : x.status = false := by
    by_contra hx
    exact (h2 (by simpa using hx)).1 rfl
  have hout : x.out = [.version] := by
    rcases h1 with h1 | ⟨-, -, h1⟩
    · exact h1
    · exact absurd (h1.symm.trans (congrArg Arrival.atFinal harr)) (by decide)
  obtain ⟨err, e⟩ := Builds.of_erase e
  obtain ⟨st, o⟩ := x
  simp only at hx hout
  rw [hx, hout] at e
  exact ⟨err, W', e⟩

theorem builds_warned (hw : 17 ≤ C.bits ∧ C.bits ≤ 64) (hT : E.tool.Ok) (hC : Builds.Law C E.tool Good limit Rel) (hdp : E.dp ≠ some 0) (program : List Nat) (groups : List OptGroup) (source : List Nat)
    (rest : List (List Nat)) (hl : SourceLine groups source) {W W' : WorldOf M} (hW : Builds.NoneInv Rel W.blocks W) {x : ExitM}
    (h : Builds.mHmacsum E C S (commandLine program groups (source :: rest)) W = .ok (x, W')) (hx : x.exit.status = true) :
    ∃ b, x.err = b ++ (if S.attach then [] else [.attach]) ++ (if S.detach then [] else [.detach]) ∧ (b = [] ∨ b = [.bufferSizeDefault]) ∧
      (TooLargeSize C.sizeMax E.dp (lastArgument 112 (optionsOf groups)) → b = [.bufferSizeDefault]) ∧ (UsualSize C.sizeMax E.dp (lastArgument 112 (optionsOf groups)) → b = []) := by
  obtain ⟨arg, hp⟩ := mParse_of (parse_source E.mc program groups source rest hl)
  have no : ∀ {out err slot V}, Builds.mOnError E C out err slot V = .ok (x, W') → False := fun h => absurd ((Builds.mOnError_status h).symm.trans hx) (by decide)
  unfold Builds.mHmacsum at h
  split at h
  · exact (no h).elim
  split at h
  · exact (no h).elim
  rw [hp] at h
  simp only [Res.ok_bind] at h
  unfold Builds.mRunSource at h
  rcases Builds.sumInitialize_ok hT hC W.blocks W hW with ⟨hd, W1, e1, -, -, -, hbs, -, -⟩ | ⟨W1, extra, e1, hN, hl, n, hn⟩
  · rw [e1] at h
    simp only [Res.ok_bind, ne_eq, not_true_eq_false, if_false] at h
    obtain ⟨⟨ok, hd2, err⟩, hb, h⟩ := Res.bind_eq_ok h
    dsimp only at h
    cases ok with
    | false => exact (no h).elim
    | true =>
      simp only [Bool.not_true, Bool.false_eq_true, if_false] at h
      obtain ⟨⟨ok, hd3, V2, err2⟩, hb2, h⟩ := Res.bind_eq_ok h
      dsimp only at h
      cases ok with
      | false => exact (no h).elim
      | true =>
        simp only [Bool.not_true, Bool.false_eq_true, if_false] at h
        have hw' := Builds.mOpenAndProcess_warned h hx
        have he2 : err2 = err := by
          unfold Builds.mApplyDigests at hb2
          split at hb2
          · cases hb2
            rfl
          · obtain ⟨⟨r, h2, V2⟩, -, hb2⟩ := Res.bind_eq_ok hb2
            injection hb2 with hb2
            have e1 := congrArg (fun y : Bool × Handle × WorldOf M × List Message => y.1) hb2
            have e2 := congrArg (fun y : Bool × Handle × WorldOf M × List Message => y.2.2.2) hb2
            simp only [decide_eq_true_eq] at e1 e2
            rw [← e2, if_neg e1]
        subst he2
        obtain ⟨n, -, -, -, -, herr⟩ := builds_applyBufferSize hw hdp hbs hb
        refine ⟨err2, ?_, ?_⟩
        · rw [hw']
          cases S.attach <;> simp [signalAttach]
        · rcases herr with ⟨rfl, -, hh⟩ | ⟨-, h, -⟩ | ⟨rfl, -, hh⟩
          · exact ⟨.inl rfl, fun ht => absurd ht hh, fun _ => rfl⟩
          · cases h
          · exact ⟨.inr rfl, fun _ => rfl, fun hu => absurd hu hh⟩
  · rw [e1] at h
    simp only [Res.ok_bind] at h
    exact (no h).elim

end causes

/-! ### Builds with crypto libraries -/

variable {ch : Kind → Choice} {L : Kind → Library}

/-- The limit of a build, and what fits. -/
theorem mixed_fit (E : Environment) (size : Option (List Nat)) : ∃ limit, (∀ k B, ch k = .crypto B → limit ≤ B.maxUpdate) ∧
    ∀ inp sz n, inp.size = some sz → ¬ LibraryFails ch L E.dp size inp → n ≤ (Contexts.mixed ch L E.tool).sizeMax → (∀ m, 32768 ≤ m → m < 2 ^ 64 → UsualSize m E.dp size → n ≤ m) →
      (∀ k, ch k ≠ .builtin → Reliable (L k)) ∧ (n ≤ limit ∨ sz ≤ limit) := by
  have rel : ∀ {inp}, ¬ LibraryFails ch L E.dp size inp → ∀ k, ch k ≠ .builtin → Reliable (L k) := fun h k hk => by
    by_contra hr
    exact h (.inl ⟨k, hk, hr⟩)
  by_cases hd : ∃ k, ch k = .crypto (.direct true)
  · refine ⟨2 ^ 32 - 1, fun _ B _ => limit_small B, fun inp sz n hsz hf hn hm => ⟨rel hf, ?_⟩⟩
    by_cases hu : UsualSize (2 ^ 32 - 1) E.dp size
    · exact .inl (hm _ (by decide) (by decide) hu)
    · right
      by_contra hgt
      exact hf (.inr ⟨hd, hu, sz, hsz, by omega⟩)
  · refine ⟨ssizeMax, fun k B hk => ?_, fun inp sz n hsz hf hn hm => ⟨rel hf, .inl hn⟩⟩
    rcases B with (_ | _) | _ | _
    · exact Nat.le_refl _
    · exact absurd ⟨k, hk⟩ hd
    · exact Nat.le_refl _
    · exact Nat.le_refl _

/-- C78. In every build with crypto libraries that are correct if their calls succeed, every message has its reason, for every command line with a source: for all environments and failures. -/
theorem C78_causes (E : Environment) (hT : E.tool.Ok) (hdp : E.dp ≠ some 0) (S : SystemCalls) (hL : Correct ch L) (program : List Nat) (groups : List OptGroup) (source : List Nat) (rest : List (List Nat))
    (hl : SourceLine groups source) (W W' : WorldOf (MixedMem L)) (x : ExitM) (h : Builds.mHmacsum E (.mixed ch L E.tool) S (commandLine program groups (source :: rest)) W = .ok (x, W')) :
    ∀ m ∈ x.err, BuildCause E S ssizeMax (LibraryFails ch L E.dp (lastArgument 112 (optionsOf groups))) (lastArgument 100 (optionsOf groups)) (lastArgument 112 (optionsOf groups)) source m := by
  obtain ⟨limit, hlim, hfit⟩ := mixed_fit (ch := ch) (L := L) E (lastArgument 112 (optionsOf groups))
  obtain ⟨Rep, law⟩ := hL.law (E := { E with localeOk := true, outputOk := true }) ⟨hT, hdp, rfl, rfl⟩ limit hlim W.mem
  exact builds_causes hT law hdp program groups source rest hl (builds_start W) hfit h

/-- C78. In every build: if nothing fails, the program succeeds without any message. With sizes of 32 bits passed to the library, the file has less than 4 GiB or the buffer does. -/
theorem C78_silent (E : Environment) (S : SystemCalls) (hE : StartOk E S) (hL : Correct ch L) (hrel : ∀ k, ch k ≠ .builtin → Reliable (L k)) (program : List Nat) (groups : List OptGroup) (source : List Nat)
    (rest : List (List Nat)) (hl : SourceLine groups source) (W : WorldOf (MixedMem L))
    (inp : Input) (hfile : E.files source = some inp) (hsize : inp.size = some inp.content.length) (hreads : ∀ i, ∃ c, inp.reads i = some c ∧ 0 < c)
    (halloc : ∀ n, E.tool.alloc n = true) (hcalls : E.closeOk = true ∧ E.freeOk = true ∧ E.splitOk = true ∧ E.splitFreeOk = true) (hsig : S.attach = true ∧ S.detach = true) (harr : E.arrival = .never)
    (hbuf : UsualSize ssizeMax E.dp (lastArgument 112 (optionsOf groups)))
    (hfit : (∀ k, ch k ≠ .crypto (.direct true)) ∨ UsualSize (2 ^ 32 - 1) E.dp (lastArgument 112 (optionsOf groups)) ∨ inp.content.length < 2 ^ 32) (hlen : inp.content.length < 2 ^ 61) :
    ∃ lines W', Builds.mHmacsum E (.mixed ch L E.tool) S (commandLine program groups (source :: rest)) W = .ok (⟨⟨true, .version :: lines⟩, []⟩, W') ∧
      DigestLines (lastArgument 100 (optionsOf groups)) inp.content lines := by
  obtain ⟨x, W', e, hs⟩ := C73_success { E with outputOk := S.bufferOut && S.bufferErr } hE.envOk hL program groups source rest hl W
  rw [← Builds.mHmacsum_erase] at e
  obtain ⟨err, e⟩ := Builds.of_erase e
  have hc := C78_causes E hE.tool hE.dp S hL program groups source rest hl W W' _ e
  have hba : BufferArgument E.dp (lastArgument 112 (optionsOf groups)) := hbuf.argument (by decide)
  obtain ⟨hx, herr⟩ := builds_quiet e hc (fun m hm => by
    cases m with
    | processInput =>
      obtain ⟨inp', h1, h2⟩ := hm
      rw [hfile] at h1
      cases h1
      rcases h2 with h2 | ⟨n, h2, h3⟩ | ⟨i, h2⟩ | ⟨n, h2⟩ | h2 | ⟨k, h2, h3⟩ | ⟨⟨k, h2⟩, h3, n, h4, h5⟩
      · rw [hsize] at h2; cases h2
      · rw [hsize] at h2; cases h2; omega
      · obtain ⟨c, h3, h4⟩ := hreads i
        have := h2 c h3
        omega
      · rw [halloc] at h2; cases h2
      · exact absurd hba h2
      · exact h3 (hrel k h2)
      · rw [hsize] at h4
        cases h4
        rcases hfit with h | h | h
        · exact h k h2
        · exact h3 h
        · omega
    | bufferSize => exact absurd hba hm
    | bufferSizeDefault => exact absurd hbuf hm
    | _ => simp_all [BuildCause, hE.locale, hE.out, hE.err]) harr
  simp only at hx herr
  subst herr
  obtain ⟨lines, inp', size, hout, -, h1, h2, -, hd⟩ := hs hx
  rw [show E.files source = some inp' from h1] at hfile
  cases hfile
  rw [h2] at hsize
  cases hsize
  have hd := hd hlen
  rw [List.take_length] at hd
  refine ⟨lines, W', ?_, hd⟩
  rw [e]
  obtain ⟨st, o⟩ := x
  simp only at hx hout
  subst hx hout
  rfl

/-- C78. In every build: if the program fails on a command line with a source, and only one message has its reason, then this message is printed and no other; unless a signal arrived. -/
theorem C78_named (E : Environment) (hT : E.tool.Ok) (hdp : E.dp ≠ some 0) (S : SystemCalls) (hL : Correct ch L) (program : List Nat) (groups : List OptGroup) (source : List Nat) (rest : List (List Nat))
    (hl : SourceLine groups source) (W W' : WorldOf (MixedMem L)) (x : ExitM) (h : Builds.mHmacsum E (.mixed ch L E.tool) S (commandLine program groups (source :: rest)) W = .ok (x, W'))
    (hx : x.exit.status = false) (harr : E.arrival = .never) (m : Message)
    (hm : ∀ m', BuildCause E S ssizeMax (LibraryFails ch L E.dp (lastArgument 112 (optionsOf groups))) (lastArgument 100 (optionsOf groups)) (lastArgument 112 (optionsOf groups)) source m' → m' = m) :
    x.err = [m] ∧ m.isWarning = false :=
  builds_named h (C78_causes E hT hdp S hL program groups source rest hl W W' x h) hx harr m hm

/-- C78. In every build, with nothing else failing: when the digests are not printed although the file could be opened, it is said that the input could not be processed. This is how a failure of a crypto library shows. -/
theorem C78_library_failure (E : Environment) (S : SystemCalls) (hE : StartOk E S) (hL : Correct ch L) (program : List Nat) (groups : List OptGroup) (source : List Nat) (rest : List (List Nat))
    (hl : SourceLine groups source) (W : WorldOf (MixedMem L)) (hfile : E.files source ≠ none) (halloc : ∀ n, E.tool.alloc n = true)
    (hcalls : E.closeOk = true ∧ E.freeOk = true ∧ E.splitOk = true ∧ E.splitFreeOk = true) (hsig : S.attach = true ∧ S.detach = true) (harr : E.arrival = .never)
    (hbuf : UsualSize ssizeMax E.dp (lastArgument 112 (optionsOf groups))) :
    ∃ x W', Builds.mHmacsum E (.mixed ch L E.tool) S (commandLine program groups (source :: rest)) W = .ok (x, W') ∧ (x.exit.status = true ∧ x.err = [] ∨ x.exit.status = false ∧ x.err = [.processInput]) := by
  obtain ⟨x, W', e, -⟩ := C73_success { E with outputOk := S.bufferOut && S.bufferErr } hE.envOk hL program groups source rest hl W
  rw [← Builds.mHmacsum_erase] at e
  obtain ⟨err, e⟩ := Builds.of_erase e
  have hc := C78_causes E hE.tool hE.dp S hL program groups source rest hl W W' _ e
  have hba : BufferArgument E.dp (lastArgument 112 (optionsOf groups)) := hbuf.argument (by decide)
  have only : ∀ m, BuildCause E S ssizeMax (LibraryFails ch L E.dp (lastArgument 112 (optionsOf groups))) (lastArgument 100 (optionsOf groups)) (lastArgument 112 (optionsOf groups)) source m → m = .processInput := fun m hm => by
    cases m with
    | processInput => rfl
    | bufferSize => exact absurd hba hm
    | bufferSizeDefault => exact absurd hbuf hm
    | openInput => exact absurd hm hfile
    | _ => simp_all [BuildCause, hE.locale, hE.out, hE.err]
  refine ⟨_, W', e, ?_⟩
  cases hx : x.status with
  | false => exact .inr ⟨rfl, (builds_named e hc hx harr .processInput only).1⟩
  | true =>
    refine .inl ⟨rfl, ?_⟩
    have hw := (C78_explained E _ S _ W W' _ e).1 hx
    refine List.eq_nil_iff_forall_not_mem.mpr fun m hm => ?_
    have h1 := hw m hm
    rw [only m (hc m hm)] at h1
    cases h1

/-- C78. In every build: a source that cannot be opened, with nothing else failing and without a signal: this is what is told. -/
theorem C78_cannot_open (E : Environment) (S : SystemCalls) (hE : StartOk E S) (hL : Correct ch L) (program : List Nat) (groups : List OptGroup) (source : List Nat) (rest : List (List Nat)) (hl : SourceLine groups source)
    (W : WorldOf (MixedMem L)) (hfile : E.files source = none) (halloc : ∀ n, E.tool.alloc n = true) (hcalls : E.closeOk = true ∧ E.freeOk = true ∧ E.splitOk = true ∧ E.splitFreeOk = true)
    (hsig : S.attach = true ∧ S.detach = true) (harr : E.arrival = .never) (hbuf : UsualSize ssizeMax E.dp (lastArgument 112 (optionsOf groups))) :
    ∃ W', Builds.mHmacsum E (.mixed ch L E.tool) S (commandLine program groups (source :: rest)) W = .ok (⟨⟨false, [.version]⟩, [.openInput]⟩, W') := by
  obtain ⟨Rep, law⟩ := hL.law hE.envOk _ (fun _ B _ => limit_small B) W.mem
  obtain ⟨err, W', e⟩ := builds_missing_file hE law program groups source rest hl W (builds_start W) hfile harr
  have hba : BufferArgument E.dp (lastArgument 112 (optionsOf groups)) := hbuf.argument (by decide)
  have := (C78_named E hE.tool hE.dp S hL program groups source rest hl W W' _ e rfl harr .openInput (fun m hm => by
    cases m with
    | bufferSize => exact absurd hba hm
    | bufferSizeDefault => exact absurd hbuf hm
    | openInput => rfl
    | _ => simp_all [BuildCause, hE.locale, hE.out, hE.err])).1
  simp only at this
  subst this
  exact ⟨W', e⟩

/-- C78. In every build: success with exactly the warnings that are due: the replaced buffer size, the signal handler that could not be attached or detached, in this order. -/
theorem C78_warned (E : Environment) (hT : E.tool.Ok) (hdp : E.dp ≠ some 0) (S : SystemCalls) (hL : Correct ch L) (program : List Nat) (groups : List OptGroup) (source : List Nat) (rest : List (List Nat))
    (hl : SourceLine groups source) (W W' : WorldOf (MixedMem L)) (x : ExitM) (h : Builds.mHmacsum E (.mixed ch L E.tool) S (commandLine program groups (source :: rest)) W = .ok (x, W')) (hx : x.exit.status = true) :
    ∃ b, x.err = b ++ (if S.attach then [] else [.attach]) ++ (if S.detach then [] else [.detach]) ∧ (b = [] ∨ b = [.bufferSizeDefault]) ∧
      (TooLargeSize ssizeMax E.dp (lastArgument 112 (optionsOf groups)) → b = [.bufferSizeDefault]) ∧ (UsualSize ssizeMax E.dp (lastArgument 112 (optionsOf groups)) → b = []) := by
  obtain ⟨Rep, law⟩ := hL.law (E := { E with localeOk := true, outputOk := true }) ⟨hT, hdp, rfl, rfl⟩ _ (fun _ B _ => limit_small B) W.mem
  exact builds_warned law.width hT law hdp program groups source rest hl (builds_start W) h hx

/-! ### Hosts of other widths -/

variable {hb : Nat}

/-- C78. On hosts whose `size_t` has 17 to 64 bits every message has its reason; the bound of the buffer size is the SSIZE_MAX of the host. -/
theorem C78_causes_host (E : Environment) (hT : E.tool.Ok) (hdp : E.dp ≠ some 0) (S : SystemCalls) (h1 : 17 ≤ hb) (h2 : hb ≤ 64) (program : List Nat) (groups : List OptGroup) (source : List Nat) (rest : List (List Nat))
    (hl : SourceLine groups source) (W W' : World) (x : ExitM) (h : Builds.mHmacsum E (.host hb E.tool) S (commandLine program groups (source :: rest)) W = .ok (x, W')) :
    ∀ m ∈ x.err, BuildCause E S (2 ^ (hb - 1) - 1) (fun _ => False) (lastArgument 100 (optionsOf groups)) (lastArgument 112 (optionsOf groups)) source m :=
  builds_causes hT (Builds.host_law h1 h2 hT _) hdp program groups source rest hl (host_start W) (fun _ _ _ _ _ hn _ => ⟨fun _ h => absurd rfl h, .inl hn⟩) h

/-- C78. On such hosts: if nothing fails, the program succeeds without any message, also for files of more than 4 GiB. -/
theorem C78_silent_host (E : Environment) (S : SystemCalls) (hE : StartOk E S) (h1 : 17 ≤ hb) (h2 : hb ≤ 64) (program : List Nat) (groups : List OptGroup) (source : List Nat) (rest : List (List Nat))
    (hl : SourceLine groups source) (W : World) (inp : Input) (hfile : E.files source = some inp) (hsize : inp.size = some inp.content.length) (hreads : ∀ i, ∃ c, inp.reads i = some c ∧ 0 < c)
    (halloc : ∀ n, E.tool.alloc n = true) (hcalls : E.closeOk = true ∧ E.freeOk = true ∧ E.splitOk = true ∧ E.splitFreeOk = true) (hsig : S.attach = true ∧ S.detach = true) (harr : E.arrival = .never)
    (hbuf : UsualSize (2 ^ (hb - 1) - 1) E.dp (lastArgument 112 (optionsOf groups))) (hlen : inp.content.length < 2 ^ 61) :
    ∃ lines W', Builds.mHmacsum E (.host hb E.tool) S (commandLine program groups (source :: rest)) W = .ok (⟨⟨true, .version :: lines⟩, []⟩, W') ∧
      DigestLines (lastArgument 100 (optionsOf groups)) inp.content lines := by
  have hba : BufferArgument E.dp (lastArgument 112 (optionsOf groups)) := hbuf.argument (sizeMax_64 (C := .host hb E.tool) h2)
  obtain ⟨lines, W', e, hd⟩ := C74_completes { E with outputOk := S.bufferOut && S.bufferErr } hE.envOk h1 h2 program groups source rest hl W inp hfile hsize hreads halloc hcalls harr hba hlen
  rw [← Builds.mHmacsum_erase] at e
  obtain ⟨err, e⟩ := Builds.of_erase e
  obtain ⟨-, herr⟩ := builds_quiet e (C78_causes_host E hE.tool hE.dp S h1 h2 program groups source rest hl W W' _ e) (fun m hm => by
    cases m with
    | processInput =>
      obtain ⟨inp', h1, h2⟩ := hm
      rw [hfile] at h1
      cases h1
      rcases h2 with h2 | ⟨n, h2, h3⟩ | ⟨i, h2⟩ | ⟨n, h2⟩ | h2 | h2
      · rw [hsize] at h2; cases h2
      · rw [hsize] at h2; cases h2; omega
      · obtain ⟨c, h3, h4⟩ := hreads i
        have := h2 c h3
        omega
      · rw [halloc] at h2; cases h2
      · exact absurd hba h2
      · exact h2
    | bufferSize => exact absurd hba hm
    | bufferSizeDefault => exact absurd hbuf hm
    | _ => simp_all [BuildCause, hE.locale, hE.out, hE.err]) harr
  simp only at herr
  subst herr
  exact ⟨lines, W', e, hd⟩

/-- C78. On such hosts: success with exactly the warnings that are due. A buffer size above the SSIZE_MAX of the host is replaced, and this is told. -/
theorem C78_warned_host (E : Environment) (hT : E.tool.Ok) (hdp : E.dp ≠ some 0) (S : SystemCalls) (h1 : 17 ≤ hb) (h2 : hb ≤ 64) (program : List Nat) (groups : List OptGroup) (source : List Nat) (rest : List (List Nat))
    (hl : SourceLine groups source) (W W' : World) (x : ExitM) (h : Builds.mHmacsum E (.host hb E.tool) S (commandLine program groups (source :: rest)) W = .ok (x, W')) (hx : x.exit.status = true) :
    ∃ b, x.err = b ++ (if S.attach then [] else [.attach]) ++ (if S.detach then [] else [.detach]) ∧ (b = [] ∨ b = [.bufferSizeDefault]) ∧
      (TooLargeSize (2 ^ (hb - 1) - 1) E.dp (lastArgument 112 (optionsOf groups)) → b = [.bufferSizeDefault]) ∧ (UsualSize (2 ^ (hb - 1) - 1) E.dp (lastArgument 112 (optionsOf groups)) → b = []) :=
  builds_warned ⟨h1, h2⟩ hT (Builds.host_law h1 h2 hT _) hdp program groups source rest hl (host_start W) h hx

/-! ### Command lines that are refused -/

/-- C78. A command line that the program with built-in functions refuses, for an invalid option or because a source is missing, is refused by every build with the same message and the same standard output. -/
theorem C78_same_refusal {M : Type} (E : Environment) (hT : E.tool.Ok) (hdp : E.dp ≠ some 0) (C : Contexts M) (S : SystemCalls) (args : List (List Nat)) (V V' : World) (x : ExitM)
    (h : mHmacsum E S args V = .ok (x, V')) (hx : (∃ a, x.err = [.invalidArgument a]) ∨ x.err = [.missingSource]) (W : WorldOf M) : Builds.mHmacsum E C S args W = .ok (x, W) := by
  unfold mHmacsum at h
  unfold Builds.mHmacsum
  have other : ∀ {m out slot V}, mOnError E out [m] slot V = .ok (x, V') → (∀ a, m ≠ .invalidArgument a) → m ≠ .missingSource → False := fun h h1 h2 => by
    obtain ⟨a, -, h⟩ := Res.bind_eq_ok h
    cases h
    simp only [List.cons.injEq, and_true] at hx
    rcases hx with ⟨a, rfl⟩ | rfl
    · exact h1 a rfl
    · exact h2 rfl
  have err : ∀ {out e}, mOnError E out e none V = .ok (x, V') → Builds.mOnError E C out e none W = .ok (x, W) := fun h => by
    obtain ⟨a, -, h⟩ := Res.bind_eq_ok h
    cases h
    rfl
  split at h
  · exact (other h (by simp) (by simp)).elim
  split at h
  · exact (other h (by simp) (by simp)).elim
  rename_i h1 h2
  rw [if_neg h1, if_neg h2]
  obtain ⟨⟨p, arg⟩, e, h⟩ := Res.bind_eq_ok h
  rw [e]
  simp only [Res.ok_bind]
  cases p with
  | invalid => exact err h
  | missing => exact err h
  | help =>
    cases h
    simp at hx
  | version =>
    cases h
    simp at hx
  | run o source =>
    have hc := runSource_cause hT hdp o source [.version] V.blocks (noneInv_start V) h
    rcases hx with ⟨a, hx⟩ | hx
    · exact False.elim (hc (.invalidArgument a) (by rw [hx]; exact List.mem_singleton.mpr rfl))
    · exact False.elim (hc .missingSource (by rw [hx]; exact List.mem_singleton.mpr rfl))

/-! ### Examples -/

theorem usualSize1 (max : Nat) (h : 2 ^ 20 ≤ max) : UsualSize max (some 46) (lastArgument 112 (optionsOf groups0)) := fun s hs => ⟨46, [1], false, 2, true, .none, rfl, by decide, by
  rw [show lastArgument 112 (optionsOf groups0) = some (codes "1M") by decide] at hs
  cases hs
  decide, by decide, by decide, Nat.le_trans (by decide) h⟩

example (x : ExitM) (W' : WorldOf (MixedMem failingLibrary)) (h : Builds.mHmacsum env1 (.mixed choice0 failingLibrary env1.tool) sysCalls1 (commandLine (codes "hmacsum") groups0 [codes "file"]) (mixed0 _) = .ok (x, W')) :=
  C78_causes env1 tool0_ok (by decide) sysCalls1 failing_correct (codes "hmacsum") groups0 (codes "file") [] line1 (mixed0 _) W' x h

example : ∃ lines W', Builds.mHmacsum env1 (.mixed choice0 exactLibrary env1.tool) sysCalls1 (commandLine (codes "hmacsum") groups0 [codes "file"]) (mixed0 _) = .ok (⟨⟨true, .version :: lines⟩, []⟩, W') ∧
    DigestLines (some (codes "sha1")) input0.content lines := by
  have hlen : input0.content.length = 100000 := List.length_replicate
  exact C78_silent env1 sysCalls1 start1 exact_correct (fun k _ => exact_reliable k) (codes "hmacsum") groups0 (codes "file") [] line1 (mixed0 _) input0 (by simp [env1]) (by rw [hlen]; rfl)
    (fun _ => ⟨1000, rfl, by decide⟩) (fun _ => rfl) ⟨rfl, rfl, rfl, rfl⟩ ⟨rfl, rfl⟩ rfl (usualSize1 _ (by decide)) (.inr (.inl (usualSize1 _ (by decide)))) (by rw [hlen]; decide)

/-- With a library that fails now and then there is success in silence, or one message. -/
example := C78_library_failure env1 sysCalls1 start1 failing_correct (codes "hmacsum") groups0 (codes "file") [] line1 (mixed0 _) (by simp [env1]) (fun _ => rfl) ⟨rfl, rfl, rfl, rfl⟩ ⟨rfl, rfl⟩ rfl
  (usualSize1 _ (by decide))

example : ∃ W', Builds.mHmacsum env1 (.mixed choice0 failingLibrary env1.tool) sysCalls1 (commandLine (codes "hmacsum") groups0 [codes "nofile"]) (mixed0 _) = .ok (⟨⟨false, [.version]⟩, [.openInput]⟩, W') :=
  C78_cannot_open env1 sysCalls1 start1 failing_correct (codes "hmacsum") groups0 (codes "nofile") [] ⟨groups0_ok, by decide, by decide, by decide⟩ (mixed0 _) (by decide) (fun _ => rfl) ⟨rfl, rfl, rfl, rfl⟩ ⟨rfl, rfl⟩ rfl
    (usualSize1 _ (by decide))

example (x : ExitM) (W' : WorldOf (MixedMem failingLibrary))
    (h : Builds.mHmacsum env1 (.mixed choice0 failingLibrary env1.tool) ⟨true, true, false, false⟩ (commandLine (codes "hmacsum") groups0 [codes "file"]) (mixed0 _) = .ok (x, W')) (hx : x.exit.status = true) :
    x.err = [.attach, .detach] := by
  obtain ⟨b, h1, -, -, h2⟩ := C78_warned env1 tool0_ok (by decide) ⟨true, true, false, false⟩ failing_correct (codes "hmacsum") groups0 (codes "file") [] line1 (mixed0 _) W' x h hx
  rw [h1, h2 (usualSize1 _ (by decide))]
  rfl

theorem bigStart : StartOk bigEnv sysCalls1 := ⟨tool0_ok, by decide, rfl, rfl, rfl⟩

/-- A file of more than 4 GiB on a host of 32 bits. -/
example : ∃ lines W', Builds.mHmacsum bigEnv (.host 32 bigEnv.tool) sysCalls1 (commandLine (codes "hmacsum") groups0 [codes "file"]) world0 = .ok (⟨⟨true, .version :: lines⟩, []⟩, W') ∧
    DigestLines (some (codes "sha1")) bigInput.content lines := by
  have hlen : bigInput.content.length = 2 ^ 32 + 5 := List.length_replicate
  exact C78_silent_host bigEnv sysCalls1 bigStart (by decide) (by decide) (codes "hmacsum") groups0 (codes "file") [] line1 world0 bigInput rfl (by rw [hlen]; rfl) (fun _ => ⟨100000, rfl, by decide⟩)
    (fun _ => rfl) ⟨rfl, rfl, rfl, rfl⟩ ⟨rfl, rfl⟩ rfl (usualSize1 _ (by decide)) (by rw [hlen]; decide)

/-- 3 GiB is too large on a host of 32 bits, not on one of 64. -/
example : TooLargeSize (2 ^ 31 - 1) (some 46) (some (codes "3GiB")) ∧ UsualSize (2 ^ 63 - 1) (some 46) (some (codes "3GiB")) :=
  ⟨⟨codes "3GiB", 46, [3], false, 3, true, .iB, rfl, rfl, by decide, by decide, by decide, by decide, by decide⟩, fun s hs => by
    cases hs
    exact ⟨46, [3], false, 3, true, .iB, rfl, by decide, by decide, by decide, by decide, by decide⟩⟩

example (x : ExitM) (W' : World) (h : Builds.mHmacsum bigEnv (.host 32 bigEnv.tool) sysCalls1 (commandLine (codes "hmacsum") groups0 [codes "file"]) world0 = .ok (x, W')) :=
  C78_causes_host bigEnv tool0_ok (by decide) sysCalls1 (by decide) (by decide) (codes "hmacsum") groups0 (codes "file") [] line1 world0 W' x h

/-- "hmacsum -v -vdsha1 -p 1M -vx file" in a build with crypto libraries. -/
example : Builds.mHmacsum env1 (.mixed choice0 failingLibrary env1.tool) sysCalls1 (commandLine (codes "hmacsum") groups0 [codes "-vx", codes "file"]) (mixed0 _) =
    .ok (⟨⟨false, [.version, .usage]⟩, [.invalidArgument (codes "-vx")]⟩, mixed0 _) :=
  C78_same_refusal env1 tool0_ok (by decide) _ sysCalls1 _ world0 world0 _ (C60_named_partial env1 sysCalls1 start1 (codes "hmacsum") (by decide) groups0 [118] 120 [codes "file"] (bad1 [] (by simp)) world0)
    (.inl ⟨_, rfl⟩) (mixed0 _)

/-- A library that never works. -/
def deadLibrary (_ : Kind) : Library where
  State := List Byte
  init _ := none
  update _ m _ := (false, m)
  final _ m o := (false, m, o)
  create _ := true
  cleanup _ := true

/-- With a library that cannot initialise MD5, the program prints no digest and says that the input could not be processed: the second case of `C78_library_failure` occurs. -/
example : ∃ W', Builds.mHmacsum env1 (.mixed choice0 deadLibrary env1.tool) sysCalls1 (commandLine (codes "hmacsum") [] [codes "file"]) (mixed0 _) = .ok (⟨⟨false, [.version]⟩, [.processInput]⟩, W') :=
  ⟨_, by rfl⟩

/-- C78_explained on the program over a library that fails. -/
example : ∃ x W', Builds.mHmacsum env1 (.mixed choice0 deadLibrary env1.tool) sysCalls1 (commandLine (codes "hmacsum") [] [codes "file"]) (mixed0 _) = .ok (x, W') ∧ x.exit.status = false ∧
    ∃ ws m, x.err = ws ++ [m] ∧ (∀ m ∈ ws, m.isWarning = true) ∧ m.isWarning = false := by
  have h : ∃ W', Builds.mHmacsum env1 (.mixed choice0 deadLibrary env1.tool) sysCalls1 (commandLine (codes "hmacsum") [] [codes "file"]) (mixed0 _) = .ok (⟨⟨false, [.version]⟩, [.processInput]⟩, W') := ⟨_, by rfl⟩
  obtain ⟨W', h⟩ := h
  refine ⟨_, W', h, rfl, ?_⟩
  rcases (C78_explained _ _ _ _ _ _ _ h).2 rfl with h | h
  · exact h
  · exact absurd h.2.1 (by decide)

/-- C78_warned_host on a host of 32 bits whose signal handler cannot be attached. -/
example (x : ExitM) (W' : World) (h : Builds.mHmacsum env1 (.host 32 env1.tool) ⟨true, true, false, true⟩ (commandLine (codes "hmacsum") groups0 [codes "file"]) world0 = .ok (x, W')) (hx : x.exit.status = true) : x.err = [.attach] := by
  obtain ⟨b, h1, -, -, h2⟩ := C78_warned_host env1 tool0_ok (by decide) ⟨true, true, false, true⟩ (hb := 32) (by decide) (by decide) (codes "hmacsum") groups0 (codes "file") [] line1 world0 W' x h hx
  rw [h1, h2 (usualSize1 _ (by decide))]
  rfl

/-- C78_named: a source that is not there is the only reason to fail, and it is named. -/
example : ∃ x W', Builds.mHmacsum env1 (.mixed choice0 failingLibrary env1.tool) sysCalls1 (commandLine (codes "hmacsum") groups0 [codes "nofile"]) (mixed0 _) = .ok (x, W') ∧ x.err = [.openInput] := by
  obtain ⟨W', h⟩ := C78_cannot_open env1 sysCalls1 start1 failing_correct (codes "hmacsum") groups0 (codes "nofile") [] ⟨groups0_ok, by decide, by decide, by decide⟩ (mixed0 _) (by decide) (fun _ => rfl) ⟨rfl, rfl, rfl, rfl⟩
    ⟨rfl, rfl⟩ rfl (usualSize1 _ (by decide))
  refine ⟨_, W', h, (C78_named env1 tool0_ok (by decide) sysCalls1 failing_correct (codes "hmacsum") groups0 (codes "nofile") [] ⟨groups0_ok, by decide, by decide, by decide⟩ (mixed0 _) W' _ h rfl rfl .openInput fun m' hc => ?_).1⟩
  have hb : BufferArgument env1.dp (lastArgument 112 (optionsOf groups0)) ∧ UsualSize ssizeMax env1.dp (lastArgument 112 (optionsOf groups0)) := ⟨(usualSize1 ssizeMax (by decide)).argument (by decide), usualSize1 _ (by decide)⟩
  have hn : env1.files (codes "nofile") = none := by simp only [env1]; decide
  cases m' with
  | openInput => rfl
  | processInput =>
    obtain ⟨inp, h1, -⟩ := hc
    rw [hn] at h1
    cases h1
  | bufferSize => exact absurd hb.1 hc
  | bufferSizeDefault => exact absurd hb.2 hc
  | createHandle =>
    obtain ⟨n, h⟩ := hc
    cases h
  | digestTypes =>
    obtain ⟨-, h | h | ⟨n, h⟩⟩ := hc <;> cases h
  | output => rcases hc with h | h <;> cases h
  | _ => cases hc

end Props
