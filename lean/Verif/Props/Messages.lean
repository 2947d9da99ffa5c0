import Verif.Proofs.Messages
import Verif.Props.Hmacsum
/-! C59: what hmacsum tells on standard error. -/

namespace Props

open Model Spec

/-- C59. With its messages the program has the same exit status, standard output and memory; the outcome of the output initialisation is that of the two calls of `setvbuf`. -/
theorem C59_same_program (E : Environment) (C : SystemCalls) (args : List (List Nat)) (W : World) :
    (mHmacsum E C args W >>= fun y => pure (y.1.exit, y.2)) = hmacsum { E with outputOk := C.bufferOut && C.bufferErr } args W := mHmacsum_erase args W

/-- C59. On any command line: exit status 0 comes with warnings only. A failure comes with exactly one message that is not a warning, and it is the last; or, after a signal, with warnings only and the line "ABORTED" on standard output. -/
theorem C59_explained (E : Environment) (C : SystemCalls) (args : List (List Nat)) (W W' : World) (x : ExitM) (h : mHmacsum E C args W = .ok (x, W')) :
    (x.exit.status = true → ∀ m ∈ x.err, m.isWarning = true) ∧
    (x.exit.status = false → (∃ ws m, x.err = ws ++ [m] ∧ (∀ m ∈ ws, m.isWarning = true) ∧ m.isWarning = false) ∨
      (∀ m ∈ x.err, m.isWarning = true) ∧ x.exit.out.getLast? = some .aborted ∧ E.arrival ≠ .never) := by
  rcases mHmacsum_shape h with ⟨h1, h2⟩ | ⟨h1, h2⟩
  · exact ⟨fun _ => h2, fun h => by rw [h1] at h; cases h⟩
  · exact ⟨fun h => absurd (h1.symm.trans h) (by decide), fun _ => h2.imp id fun h => ⟨h.1, h.2.1, fun hn => by rw [hn] at h; exact absurd h.2.2 (by decide)⟩⟩

/-- The argument of -p, if given, is a size that is positive and not larger than SSIZE_MAX, in digits with an optional factor and unit. -/
def UsualBufferSize (dp : Option Nat) (arg : Option (List Nat)) : Prop :=
  ∀ s, arg = some s → ∃ c ds sp f up u, dp = some c ∧ c ∉ sizeChars ∧ s = sizeText c ds none sp f up u ∧ f ≠ 1 ∧ 0 < decimal ds * u.base ^ f.1 ∧ decimal ds * u.base ^ f.1 ≤ ssizeMax

/-- The reason for each message, for a command line with a source: arguments of -d and -p and the source. -/
def Cause (E : Environment) (C : SystemCalls) (digests size : Option (List Nat)) (source : List Nat) : Message → Prop
  | .locale => E.localeOk = false
  | .output => C.bufferOut = false ∨ C.bufferErr = false
  | .invalidArgument _ => False
  | .missingSource => False
  | .createHandle => ∃ n, E.tool.alloc n = false
  | .bufferSize => ¬ BufferArgument E.dp size
  | .bufferSizeDefault => ¬ UsualBufferSize E.dp size
  | .digestTypes => digests ≠ none ∧ (E.splitOk = false ∨ E.splitFreeOk = false ∨ ∃ n, E.tool.alloc n = false)
  | .attach => C.attach = false
  | .openInput => E.files source = none
  | .processInput => ∃ inp, E.files source = some inp ∧ (inp.size = none ∨ (∃ n, inp.size = some n ∧ inp.content.length < n) ∨ (∃ i, ∀ c, inp.reads i = some c → c = 0) ∨
      (∃ n, E.tool.alloc n = false) ∨ ¬ BufferArgument E.dp size)
  | .printHashes => False
  | .closeHandle => E.closeOk = false
  | .detach => C.detach = false
  | .freeHandle => E.freeOk = false

section causes

variable {E : Environment} {C : SystemCalls} {base : Nat → List Nat} {P : Message → Prop}

theorem onError_cause {out : List Line} {err : List Message} {slot : Option Handle} {W W' : World} {x : ExitM} (he : ∀ m ∈ err, P m) (h : mOnError E out err slot W = .ok (x, W')) :
    ∀ m ∈ x.err, P m := by
  obtain ⟨a, -, h⟩ := Res.bind_eq_ok h
  cases h
  exact he

theorem snoc_cause {err : List Message} {m : Message} (he : ∀ m ∈ err, P m) (hm : P m) : ∀ y ∈ err ++ [m], P y := fun y hy => by
  rcases List.mem_append.mp hy with hy | hy
  · exact he y hy
  · rw [List.mem_singleton.mp hy]
    exact hm

theorem onAbort_cause (hT : E.tool.Ok) (hclose : E.closeOk = false → P .closeHandle) (hdetach : C.detach = false → P .detach) (hfree : E.freeOk = false → P .freeHandle) {out : List Line}
    {err : List Message} {blk : List Nat} {hd : Handle} {W W' : World} {x : ExitM} (hI : HandleInv E.tool base blk hd W) (he : ∀ m ∈ err, P m) (h : mOnAbort E C out err hd W = .ok (x, W')) :
    ∀ m ∈ x.err, P m := by
  unfold mOnAbort at h
  split at h
  · rename_i hc
    exact onError_cause (snoc_cause (m := .closeHandle) he (hclose (by cases h : E.closeOk <;> simp_all [closeInput]))) h
  have hw : ∀ m ∈ (if signalDetach C.detach ≠ 1 then err ++ [.detach] else err), P m := by
    split
    · rename_i hd
      exact snoc_cause (m := .detach) he (hdetach (by cases h : C.detach <;> simp_all [signalDetach]))
    · exact he
  obtain ⟨V, e, -⟩ := sumFree_ok hT E.freeOk blk (some hd) W hI
  rw [e] at h
  simp only [Res.ok_bind] at h
  cases hf : E.freeOk with
  | false =>
    rw [hf] at h
    exact onError_cause (snoc_cause (m := .freeHandle) hw (hfree hf)) h
  | true =>
    rw [hf] at h
    simp only [Bool.true_or, if_true, ne_eq, not_true_eq_false, if_false] at h
    split at h <;> cases h <;> simpa only [ne_eq] using hw

theorem runSource_cause (hT : E.tool.Ok) (hdp : E.dp ≠ some 0) (o : Options) (source : List Nat) (out : List Line) (blk : List Nat) {W W' : World} (hW : NoneInv base blk W) {x : ExitM}
    (h : mRunSource E C o source out W = .ok (x, W')) : ∀ m ∈ x.err, Cause E C o.digests o.bufferSize source m := by
  have h0 : ∀ m ∈ ([] : List Message), Cause E C o.digests o.bufferSize source m := fun _ h => by cases h
  unfold mRunSource at h
  rcases sumInitialize_ok hT blk W hW with ⟨hd, W1, e1, hI, hcalc, hctx, hbs, hab, hpos, -⟩ | ⟨W1, extra, e1, hN, hl, -, n, -, hn⟩
  · rw [e1] at h
    simp only [Res.ok_bind, ne_eq, not_true_eq_false, if_false] at h
    obtain ⟨⟨ok, hd2, err⟩, hb, h⟩ := Res.bind_eq_ok h
    have hb : (∀ m ∈ err, Cause E C o.digests o.bufferSize source m) ∧ ∃ n, hd2 = { hd with bufferSize := n } ∧ n ≤ ssizeMax ∧ (BufferArgument E.dp o.bufferSize → 0 < n) := by
      have h32 : 32768 ≤ ssizeMax := by decide
      unfold mApplyBufferSize at hb
      split at hb
      · cases hb
        exact ⟨h0, 32768, by rw [← hbs], h32, fun _ => by decide⟩
      · rename_i s hs
        obtain ⟨r, n, e, hr⟩ := setBufferSize_ok o.verbose E.dp hdp s hd
        have key : ∀ (hh : BufferArgument E.dp (some s)), ∃ v, 0 < v ∧ (r, n) = (if v ≤ ssizeMax then ((1 : Int), v) else (0, hd.bufferSize)) ∧ (UsualBufferSize E.dp (some s) → v ≤ ssizeMax) := by
          intro hh
          have one : ∀ c ds sp f up u, E.dp = some c → c ∉ sizeChars → s = sizeText c ds none sp f up u → f ≠ 1 → decimal ds * u.base ^ f.1 < 2 ^ 64 →
              (r, n) = (if decimal ds * u.base ^ f.1 ≤ ssizeMax then ((1 : Int), decimal ds * u.base ^ f.1) else (0, hd.bufferSize)) := by
            intro c ds sp f up u hd' hc hs' hf hv
            have e2 := C45_value_partial o.verbose c hc ds sp f hf up u hd hv
            rw [← hs', ← hd', e] at e2
            injection e2 with e2
            split at e2
            · rename_i hle
              have a := congrArg (fun x : Int × Handle => x.1) e2
              have b := congrArg (fun x : Int × Handle => x.2.bufferSize) e2
              simp only at a b
              rw [if_pos hle, a, b]
            · rename_i hle
              have a := congrArg (fun x : Int × Handle => x.1) e2
              have b := congrArg (fun x : Int × Handle => x.2.bufferSize) e2
              simp only at a b
              rw [if_neg hle, a, b]
          obtain ⟨c, ds, sp, f, up, u, hd1, hc, hs1, hf, hv0, hv⟩ := hh s rfl
          have e1 := one c ds sp f up u hd1 hc hs1 hf hv
          refine ⟨_, hv0, e1, fun hu => ?_⟩
          obtain ⟨c', ds', sp', f', up', u', hd1', hc', hs1', hf', hv0', hv'⟩ := hu s rfl
          have e2 := one c' ds' sp' f' up' u' hd1' hc' hs1' hf' (Nat.lt_of_le_of_lt hv' (by decide))
          rw [if_pos hv'] at e2
          rw [e2] at e1
          by_contra hgt
          rw [if_neg hgt] at e1
          exact absurd (show (1 : Int) = 0 from congrArg Prod.fst e1) (by decide)
        have usual : UsualBufferSize E.dp (some s) → BufferArgument E.dp (some s) := fun hu s' hs' => by
          obtain ⟨c', ds', sp', f', up', u', hd1', hc', hs1', hf', hv0', hv'⟩ := hu s' hs'
          exact ⟨c', ds', sp', f', up', u', hd1', hc', hs1', hf', hv0', Nat.lt_of_le_of_lt hv' (by decide)⟩
        rw [e] at hb
        simp only [Res.ok_bind] at hb
        have hcase : o.bufferSize = some s := hs
        split at hb
        · rename_i hr1
          cases hb
          have hno : ¬ BufferArgument E.dp (some s) := fun hh => by
            obtain ⟨v, -, e3, -⟩ := key hh
            have e3 := congrArg Prod.fst e3
            split at e3 <;> simp only at e3 <;> omega
          refine ⟨snoc_cause (m := .bufferSize) h0 (by rw [hcase]; exact hno), n, rfl, ?_, fun hh => absurd (by rw [← hcase]; exact hh) hno⟩
          rcases hr with ⟨-, hn⟩ | ⟨-, rfl⟩
          · exact hn
          · omega
        split at hb
        · rename_i hr1 hr0
          cases hb
          refine ⟨snoc_cause (m := .bufferSizeDefault) h0 ?_, 32768, rfl, h32, fun _ => by decide⟩
          rw [hcase]
          intro hu
          obtain ⟨v, hv0, e3, hle⟩ := key (usual hu)
          rw [if_pos (hle hu)] at e3
          cases e3
          have := hle hu
          omega
        · rename_i hr1 hr0
          cases hb
          refine ⟨h0, n, rfl, by omega, fun hh => ?_⟩
          rw [hcase] at hh
          obtain ⟨v, hv0, e3, -⟩ := key hh
          split at e3
          · have := congrArg Prod.snd e3
            simp only at this
            omega
          · have := congrArg Prod.fst e3
            simp only at this
            omega
    obtain ⟨hcb, n, rfl, hn, hn0⟩ := hb
    have hI2 : HandleInv E.tool base blk { hd with bufferSize := n } W1 := hI
    dsimp only at h
    split at h
    · exact onError_cause hcb h
    obtain ⟨⟨ok2, hd3, W2, err2⟩, hd', h⟩ := Res.bind_eq_ok h
    have hd' : (∀ m ∈ err2, Cause E C o.digests o.bufferSize source m) ∧ HandleInv E.tool base blk hd3 W2 ∧ hd3.context = hd.context ∧ hd3.bufferSize = n ∧ hd3.position = 0 ∧ hd3.readCount = hd.readCount := by
      unfold mApplyDigests at hd'
      split at hd'
      · cases hd'
        exact ⟨hcb, hI2, rfl, rfl, hpos, rfl⟩
      · rename_i s hs
        obtain ⟨r, calc', str', W2', e3, h3, hr, -, -, -, h5⟩ := setDigestTypes_ok hT E.mc E.splitOk E.splitFreeOk s blk _ W1 hI2
        rw [e3] at hd'
        cases hd'
        refine ⟨?_, h3, rfl, rfl, hpos, rfl⟩
        split
        · rename_i hr1
          refine snoc_cause (m := .digestTypes) hcb ⟨by rw [hs]; simp, ?_⟩
          by_contra hcon
          simp only [not_or, not_exists, Bool.not_eq_false] at hcon
          have := h5 hcon.1 hcon.2.1 fun n _ => hcon.2.2 n
          omega
        · exact hcb
    obtain ⟨hcd, hI3, hctx3, hbs3, hpos3, hrc3⟩ := hd'
    dsimp only at h
    split at h
    · exact onError_cause hcd h
    generalize herr : (if signalAttach true C.attach ≠ 1 then err2 ++ [Message.attach] else err2) = err3 at h
    have hca : ∀ m ∈ err3, Cause E C o.digests o.bufferSize source m := by
      rw [← herr]
      split
      · rename_i ha
        exact snoc_cause (m := .attach) hcd (show C.attach = false by cases h : C.attach <;> simp_all [signalAttach])
      · exact hcd
    have hab' : ∀ {out err blk hd W W' x}, HandleInv E.tool base blk hd W → (∀ m ∈ err, Cause E C o.digests o.bufferSize source m) → mOnAbort E C out err hd W = .ok (x, W') →
        ∀ m ∈ x.err, Cause E C o.digests o.bufferSize source m := fun hI he h => onAbort_cause hT id id id hI he h
    have eopen : (openInput true hd3).2 = hd3 := by
      cases hd3
      simp only at hpos3
      subst hpos3
      rfl
    unfold mOpenAndProcess at h
    cases hf : E.files source with
    | none =>
      rw [hf] at h
      dsimp only at h
      split at h
      · exact hab' hI3 hca h
      · exact onError_cause (snoc_cause (m := .openInput) hca hf) h
    | some inp =>
      rw [hf] at h
      simp only [eopen] at h
      split at h
      · exact hab' hI3 hca h
      obtain ⟨r1, h1, W3, e4, hI4, -, -⟩ := processInput_inv hT inp E.arrival.atRead blk hd3 W2 hI3
      obtain ⟨⟨b, hrel⟩, hstr, -, -⟩ := hI3
      obtain ⟨r, ctx', str', ab', pos', rc', V, b', e5, -, -, hrv, -, -, -, -, habt, hsuc, hprog⟩ := processInput_ok hT inp E.arrival.atRead hd3 W2 b hrel hstr
      have her : r1 = r := by
        rw [e4] at e5
        injection e5 with e5
        exact congrArg Prod.fst e5
      unfold mProcessAndPrint at h
      rw [e4] at h
      simp only [Res.ok_bind] at h
      split at h
      · exact hab' hI4 hca h
      split at h
      · rename_i hr
        refine onError_cause (snoc_cause (m := .processInput) hca ⟨inp, hf, ?_⟩) h
        by_contra hcon
        simp only [not_or, not_exists, not_and, not_forall, Nat.not_lt, Bool.not_eq_false, Classical.not_not] at hcon
        obtain ⟨c1, c2, c3, c4, c5⟩ := hcon
        obtain ⟨size, hsz⟩ := Option.ne_none_iff_exists'.mp c1
        refine hr (her.trans (hprog size hsz (by rw [hbs3]; exact hn0 c5) (by rw [hbs3]; exact hn) (fun k _ => by rw [hctx3]; exact hctx k) (fun n _ => c4 n)
          (by rw [hpos3]; have := c2 size hsz; omega) fun i _ => ?_))
        obtain ⟨c, hc, hc0⟩ := c3 i
        exact ⟨c, hc, Nat.pos_of_ne_zero hc0⟩
      · obtain ⟨ds, -, h⟩ := Res.bind_eq_ok h
        exact hab' hI4 hca h
  · rw [e1] at h
    simp only [Res.ok_bind] at h
    exact onError_cause (fun m hm => by rw [List.mem_singleton.mp hm]; exact ⟨n, hn⟩) h

end causes

theorem mParse_of {mc : Bool} {args : List (List Nat)} {fuel : Nat} {o : Options} {s : OptState} {p : Parsed} (h : parseOptions mc args fuel o s = .ok p) :
    ∃ arg, mParseOptions mc args fuel o s = .ok (p, arg) := by
  rw [← mParseOptions_erase] at h
  obtain ⟨⟨q, arg⟩, e, h⟩ := Res.bind_eq_ok h
  cases h
  exact ⟨arg, e⟩

/-- The system calls of the start succeed. -/
structure StartOk (E : Environment) (C : SystemCalls) : Prop where
  tool : E.tool.Ok
  dp : E.dp ≠ some 0
  locale : E.localeOk = true
  out : C.bufferOut = true
  err : C.bufferErr = true

theorem StartOk.envOk {E : Environment} {C : SystemCalls} (h : StartOk E C) : EnvOk { E with outputOk := C.bufferOut && C.bufferErr } := ⟨h.tool, h.dp, h.locale, by simp [h.out, h.err]⟩

theorem StartOk.run {E : Environment} {C : SystemCalls} (h : StartOk E C) (args : List (List Nat)) (p : Parsed) (arg : List Nat)
    (hp : mParseOptions E.mc args ((args.map List.length).sum + 1) ⟨none, none, false⟩ optInit = .ok (p, arg)) (W : World) :
    (p = .invalid → mHmacsum E C args W = .ok (⟨⟨false, [.version, .usage]⟩, [.invalidArgument arg]⟩, W)) ∧
    (p = .missing → mHmacsum E C args W = .ok (⟨⟨false, [.version, .usage]⟩, [.missingSource]⟩, W)) := by
  unfold mHmacsum
  rw [h.locale, h.out, h.err, hp]
  exact ⟨fun h => by subst h; rfl, fun h => by subst h; rfl⟩

/-- C59. Every message has its reason, for every command line with a source: for all environments and failures. -/
theorem C59_causes (E : Environment) (hT : E.tool.Ok) (hdp : E.dp ≠ some 0) (C : SystemCalls) (program : List Nat) (groups : List OptGroup) (source : List Nat) (rest : List (List Nat)) (hl : SourceLine groups source)
    (W W' : World) (x : ExitM) (h : mHmacsum E C (commandLine program groups (source :: rest)) W = .ok (x, W')) :
    ∀ m ∈ x.err, Cause E C (lastArgument 100 (optionsOf groups)) (lastArgument 112 (optionsOf groups)) source m := by
  obtain ⟨arg, hp⟩ := mParse_of (parse_source E.mc program groups source rest hl)
  unfold mHmacsum at h
  split at h
  · rename_i hlo
    exact onError_cause (fun m hm => by rw [List.mem_singleton.mp hm]; exact (by simpa using hlo : E.localeOk = false)) h
  split at h
  · rename_i hou
    refine onError_cause (fun m hm => ?_) h
    rw [List.mem_singleton.mp hm]
    change C.bufferOut = false ∨ C.bufferErr = false
    cases h1 : C.bufferOut <;> cases h2 : C.bufferErr <;> simp_all [outputInitialize]
  rw [hp] at h
  exact runSource_cause hT hdp _ source [.version] W.blocks (noneInv_start W) h

/-- C59. If nothing fails, the program succeeds without any message. -/
theorem C59_silent (E : Environment) (C : SystemCalls) (hE : StartOk E C) (program : List Nat) (groups : List OptGroup) (source : List Nat) (rest : List (List Nat)) (hl : SourceLine groups source) (W : World)
    (inp : Input) (hfile : E.files source = some inp) (hsize : inp.size = some inp.content.length) (hreads : ∀ i, ∃ c, inp.reads i = some c ∧ 0 < c)
    (halloc : ∀ n, E.tool.alloc n = true) (hcalls : E.closeOk = true ∧ E.freeOk = true ∧ E.splitOk = true ∧ E.splitFreeOk = true) (hsig : C.attach = true ∧ C.detach = true) (harr : E.arrival = .never)
    (hbuf : UsualBufferSize E.dp (lastArgument 112 (optionsOf groups))) (hlen : ∀ k, Selected (lastArgument 100 (optionsOf groups)) k → k.LengthOk inp.content.length) :
    ∃ lines W', mHmacsum E C (commandLine program groups (source :: rest)) W = .ok (⟨⟨true, .version :: lines⟩, []⟩, W') ∧ DigestLines (lastArgument 100 (optionsOf groups)) inp.content lines := by
  have hba : BufferArgument E.dp (lastArgument 112 (optionsOf groups)) := fun s hs => by
    obtain ⟨c', ds', sp', f', up', u', hd1', hc', hs1', hf', hv0', hv'⟩ := hbuf s hs
    exact ⟨c', ds', sp', f', up', u', hd1', hc', hs1', hf', hv0', Nat.lt_of_le_of_lt hv' (by decide)⟩
  obtain ⟨lines, W', e, hd⟩ := C50_completes _ hE.envOk program groups source rest hl W inp hfile hsize hreads halloc hcalls harr hba hlen
  rw [← mHmacsum_erase] at e
  obtain ⟨err, e⟩ := of_erase e
  have hc := C59_causes E hE.tool hE.dp C program groups source rest hl W W' _ e
  have herr : err = [] := by
    cases err with
    | nil => rfl
    | cons m t =>
      have := hc m (by simp)
      have hno := (hreads · )
      cases m with
      | processInput =>
        obtain ⟨inp', h1, h2⟩ := this
        rw [hfile] at h1
        cases h1
        rcases h2 with h2 | ⟨n, h2, h3⟩ | ⟨i, h2⟩ | ⟨n, h2⟩ | h2
        · rw [hsize] at h2; cases h2
        · rw [hsize] at h2; cases h2; omega
        · obtain ⟨c, h3, h4⟩ := hreads i
          have := h2 c h3
          omega
        · rw [halloc] at h2; cases h2
        · exact absurd hba h2
      | bufferSize => exact absurd hba this
      | bufferSizeDefault => exact absurd hbuf this
      | _ => simp_all [Cause, hE.locale, hE.out, hE.err]
  subst herr
  exact ⟨lines, W', e, hd⟩

/-- C59. If the program fails on a command line with a source, and only one message has its reason, then this message is printed and no other; unless a signal arrived. -/
theorem C59_named (E : Environment) (hT : E.tool.Ok) (hdp : E.dp ≠ some 0) (C : SystemCalls) (program : List Nat) (groups : List OptGroup) (source : List Nat) (rest : List (List Nat)) (hl : SourceLine groups source)
    (W W' : World) (x : ExitM) (h : mHmacsum E C (commandLine program groups (source :: rest)) W = .ok (x, W')) (hx : x.exit.status = false) (harr : E.arrival = .never) (m : Message)
    (hm : ∀ m', Cause E C (lastArgument 100 (optionsOf groups)) (lastArgument 112 (optionsOf groups)) source m' → m' = m) : x.err = [m] ∧ m.isWarning = false := by
  have hc := C59_causes E hT hdp C program groups source rest hl W W' x h
  have hall : ∀ m' ∈ x.err, m' = m := fun m' h' => hm m' (hc m' h')
  rcases (C59_explained E C _ W W' x h).2 hx with ⟨ws, m', e, hw, hm'⟩ | ⟨-, hab⟩
  · have e' : m' = m := hall m' (by rw [e]; simp)
    subst e'
    have : ws = [] := by
      cases ws with
      | nil => rfl
      | cons y t =>
        have h1 := hall y (by rw [e]; simp)
        have h2 := hw y (by simp)
        rw [h1, hm'] at h2
        cases h2
    subst this
    exact ⟨e, hm'⟩
  · exact absurd harr hab.2

/-- C59. A source that cannot be opened, with nothing else failing and without a signal: this is what is told. -/
theorem C59_cannot_open (E : Environment) (C : SystemCalls) (hE : StartOk E C) (program : List Nat) (groups : List OptGroup) (source : List Nat) (rest : List (List Nat)) (hl : SourceLine groups source) (W : World)
    (hfile : E.files source = none) (halloc : ∀ n, E.tool.alloc n = true) (hcalls : E.closeOk = true ∧ E.freeOk = true ∧ E.splitOk = true ∧ E.splitFreeOk = true)
    (hsig : C.attach = true ∧ C.detach = true) (harr : E.arrival = .never) (hbuf : UsualBufferSize E.dp (lastArgument 112 (optionsOf groups))) :
    ∃ W', mHmacsum E C (commandLine program groups (source :: rest)) W = .ok (⟨⟨false, [.version]⟩, [.openInput]⟩, W') := by
  have hba : BufferArgument E.dp (lastArgument 112 (optionsOf groups)) := fun s hs => by
    obtain ⟨c', ds', sp', f', up', u', hd1', hc', hs1', hf', hv0', hv'⟩ := hbuf s hs
    exact ⟨c', ds', sp', f', up', u', hd1', hc', hs1', hf', hv0', Nat.lt_of_le_of_lt hv' (by decide)⟩
  obtain ⟨x, W', extra, e, -, -, -, hr, -⟩ := runSource_ok hE.envOk.tool hE.envOk.dp
    ⟨lastArgument 100 (optionsOf groups), lastArgument 112 (optionsOf groups), (optionsOf groups).any (·.1 = 118)⟩ source [.version] W.blocks W (noneInv_start W)
  rw [← hmacsum_run hE.envOk (parse_source E.mc program groups source rest hl), ← mHmacsum_erase] at e
  obtain ⟨ds, h1, h2, -, h4⟩ := hr.lines
  have hds : ds = [] := by
    by_contra hne
    obtain ⟨inp, -, h5, -⟩ := h4 hne
    exact absurd (hfile.symm.trans h5) (by simp)
  subst hds
  have hx : x.status = false := by
    by_contra hx
    exact (h2 (by simpa using hx)).1 rfl
  have hout : x.out = [.version] := by
    rcases h1 with h1 | ⟨-, -, h1⟩
    · exact h1
    · exact absurd (h1.symm.trans (congrArg Arrival.atFinal harr)) (by decide)
  obtain ⟨err, e⟩ := of_erase e
  have := C59_named E hE.tool hE.dp C program groups source rest hl W W' _ e hx harr .openInput (fun m hm => by
    cases m with
    | bufferSize => exact absurd hba hm
    | bufferSizeDefault => exact absurd hbuf hm
    | openInput => rfl
    | _ => simp_all [Cause, hE.locale, hE.out, hE.err])
  obtain ⟨st, out⟩ := x
  simp only at hx hout this
  rw [hx, hout, this.1] at e
  exact ⟨W', e⟩

/-- C59. Without a source this is told. -/
theorem C59_missing_source (E : Environment) (C : SystemCalls) (hE : StartOk E C) (program : List Nat) (groups : List OptGroup) (hg : ∀ g ∈ groups, g.Ok (codes "d:hp:vV"))
    (hrun : ∀ x ∈ optionsOf groups, x.1 ≠ 104 ∧ x.1 ≠ 86) (W : World) :
    mHmacsum E C (commandLine program groups []) W = .ok (⟨⟨false, [.version, .usage]⟩, [.missingSource]⟩, W) := by
  obtain ⟨oa, hs⟩ := groups_steps E.mc (codes "d:hp:vV") [] groups [program] none hg
  have hend := getopt_operands E.mc (codes "d:hp:vV") ([program] ++ groups.flatMap OptGroup.args) [] oa (fun a ha => by cases ha)
  rw [List.append_assoc] at hend
  obtain ⟨extra, he⟩ := commandLine_size program groups [] hg
  have h1 : ∀ x ∈ optionsOf groups, x.1 = 100 ∨ x.1 = 112 ∨ x.1 = 118 := fun x hx => by
    have := hrun x hx
    rcases optionsOf_kinds hg x hx with h' | h' <;> omega
  have hp := parse_steps hs ⟨none, none, false⟩ (extra + 1) h1
  have hp : parseOptions E.mc (commandLine program groups []) (((commandLine program groups []).map List.length).sum + 1) ⟨none, none, false⟩ optInit = .ok .missing := by
    rw [he]
    refine Eq.trans hp ?_
    rw [parseOptions, hend]
    simp [argVector]
  obtain ⟨arg, hp⟩ := mParse_of hp
  exact (hE.run _ _ arg hp W).2 rfl

theorem onError_status {E : Environment} {out : List Line} {err : List Message} {slot : Option Handle} {W W' : World} {x : ExitM} (h : mOnError E out err slot W = .ok (x, W')) : x.exit.status = false := by
  obtain ⟨a, -, h⟩ := Res.bind_eq_ok h
  cases h
  rfl

theorem onAbort_warned {E : Environment} {C : SystemCalls} {out : List Line} {err : List Message} {hd : Handle} {W W' : World} {x : ExitM} (h : mOnAbort E C out err hd W = .ok (x, W')) (hx : x.exit.status = true) :
    x.err = err ++ if C.detach then [] else [.detach] := by
  unfold mOnAbort at h
  split at h
  · exact absurd ((onError_status h).symm.trans hx) (by decide)
  obtain ⟨⟨r, slot, V⟩, -, h⟩ := Res.bind_eq_ok h
  dsimp only at h
  split at h
  · exact absurd ((onError_status h).symm.trans hx) (by decide)
  split at h
  · cases h
    cases hx
  · cases h
    cases C.detach <;> simp [signalDetach]

theorem openAndProcess_warned {E : Environment} {C : SystemCalls} {source : List Nat} {out : List Line} {err : List Message} {hd : Handle} {W W' : World} {x : ExitM}
    (h : mOpenAndProcess E C source out err hd W = .ok (x, W')) (hx : x.exit.status = true) : x.err = err ++ if C.detach then [] else [.detach] := by
  unfold mOpenAndProcess at h
  split at h
  · split at h
    · exact onAbort_warned h hx
    · exact absurd ((onError_status h).symm.trans hx) (by decide)
  · split at h
    · exact onAbort_warned h hx
    · unfold mProcessAndPrint at h
      obtain ⟨⟨r, h2, V⟩, -, h⟩ := Res.bind_eq_ok h
      dsimp only at h
      split at h
      · exact onAbort_warned h hx
      split at h
      · exact absurd ((onError_status h).symm.trans hx) (by decide)
      obtain ⟨ds, -, h⟩ := Res.bind_eq_ok h
      exact onAbort_warned h hx

/-- The argument of -p is a size above SSIZE_MAX (and below 2^64). -/
def TooLargeBufferSize (dp : Option Nat) (arg : Option (List Nat)) : Prop :=
  ∃ s c ds sp f up u, arg = some s ∧ dp = some c ∧ c ∉ sizeChars ∧ s = sizeText c ds none sp f up u ∧ f ≠ 1 ∧ ssizeMax < decimal ds * u.base ^ f.1 ∧ decimal ds * u.base ^ f.1 < 2 ^ 64

/-- C59. Success with exactly the warnings that are due: the replaced buffer size, the signal handler that could not be attached or detached, in this order. -/
theorem C59_warned (E : Environment) (C : SystemCalls) (program : List Nat) (groups : List OptGroup) (source : List Nat) (rest : List (List Nat)) (hl : SourceLine groups source)
    (W W' : World) (x : ExitM) (h : mHmacsum E C (commandLine program groups (source :: rest)) W = .ok (x, W')) (hx : x.exit.status = true) :
    ∃ b, x.err = b ++ (if C.attach then [] else [.attach]) ++ (if C.detach then [] else [.detach]) ∧ (b = [] ∨ b = [.bufferSizeDefault]) ∧
      (TooLargeBufferSize E.dp (lastArgument 112 (optionsOf groups)) → b = [.bufferSizeDefault]) ∧ (UsualBufferSize E.dp (lastArgument 112 (optionsOf groups)) → b = []) := by
  obtain ⟨arg, hp⟩ := mParse_of (parse_source E.mc program groups source rest hl)
  have no : ∀ {out err slot V}, mOnError E out err slot V = .ok (x, W') → False := fun h => absurd ((onError_status h).symm.trans hx) (by decide)
  unfold mHmacsum at h
  split at h
  · exact (no h).elim
  split at h
  · exact (no h).elim
  rw [hp] at h
  simp only [Res.ok_bind] at h
  unfold mRunSource at h
  obtain ⟨⟨r, slot, V⟩, -, h⟩ := Res.bind_eq_ok h
  dsimp only at h
  split at h
  · exact (no h).elim
  cases slot with
  | none => cases h
  | some hd =>
    dsimp only at h
    obtain ⟨⟨ok, hd2, err⟩, hb, h⟩ := Res.bind_eq_ok h
    dsimp only at h
    cases ok with
    | false => exact (no h).elim
    | true =>
      simp only [Bool.not_true, Bool.false_eq_true, if_false] at h
      obtain ⟨⟨ok, hd3, V2, err2⟩, hb2, h⟩ := Res.bind_eq_ok h
      dsimp only at h
      cases ok with
      | false => exact (no h).elim
      | true =>
        simp only [Bool.not_true, Bool.false_eq_true, if_false] at h
        have hw := openAndProcess_warned h hx
        have he2 : err2 = err := by
          unfold mApplyDigests at hb2
          split at hb2
          · cases hb2
            rfl
          · obtain ⟨⟨r, h2, V2⟩, -, hb2⟩ := Res.bind_eq_ok hb2
            injection hb2 with hb2
            have e1 := congrArg (fun y : Bool × Handle × World × List Message => y.1) hb2
            have e2 := congrArg (fun y : Bool × Handle × World × List Message => y.2.2.2) hb2
            simp only [decide_eq_true_eq] at e1 e2
            rw [← e2, if_neg e1]
        subst he2
        refine ⟨err2, ?_, ?_⟩
        · rw [hw]
          cases C.attach <;> simp [signalAttach]
        · generalize lastArgument 112 (optionsOf groups) = size at hb ⊢
          unfold mApplyBufferSize at hb
          cases size with
          | none =>
            cases hb
            exact ⟨.inl rfl, fun ⟨s, _, _, _, _, _, _, h, _⟩ => absurd h (by simp), fun _ => rfl⟩
          | some s =>
            dsimp only at hb
            obtain ⟨⟨r, h2⟩, e, hb⟩ := Res.bind_eq_ok hb
            dsimp only at hb
            have big : TooLargeBufferSize E.dp (some s) → r = 0 := fun ⟨s', c, ds, sp, f, up, u, hs, hdp, hc, hs', hf, hv0, hv⟩ => by
              cases hs
              have e2 := C45_value_partial ((optionsOf groups).any (·.1 = 118)) c hc ds sp f hf up u hd hv
              rw [← hs', ← hdp, if_neg (by omega)] at e2
              have e := e.symm.trans e2
              injection e with e
              exact congrArg Prod.fst e
            have usual : UsualBufferSize E.dp (some s) → r = 1 ∧ h2.bufferSize ≤ ssizeMax := fun hu => by
              obtain ⟨c, ds, sp, f, up, u, hdp, hc, hs', hf, hv0, hv⟩ := hu s rfl
              have e2 := C45_value_partial ((optionsOf groups).any (·.1 = 118)) c hc ds sp f hf up u hd (Nat.lt_of_le_of_lt hv (by decide))
              rw [← hs', ← hdp, if_pos hv] at e2
              have e := e.symm.trans e2
              injection e with e
              cases e
              exact ⟨rfl, hv⟩
            split at hb
            · cases hb
            split at hb
            · rename_i hr
              cases hb
              exact ⟨.inr rfl, fun _ => rfl, fun hu => by have := usual hu; omega⟩
            · rename_i hr
              cases hb
              exact ⟨.inl rfl, fun ht => by have := big ht; omega, fun _ => rfl⟩

/-! ### Examples -/

def sysCalls1 : SystemCalls := ⟨true, true, true, true⟩

theorem start1 : StartOk env1 sysCalls1 := ⟨tool0_ok, by decide, rfl, rfl, rfl⟩

theorem usual1 : UsualBufferSize (some 46) (lastArgument 112 (optionsOf groups0)) := fun s hs => ⟨46, [1], false, 2, true, .none, rfl, by decide, by
  rw [show lastArgument 112 (optionsOf groups0) = some (codes "1M") by decide] at hs
  cases hs
  decide, by decide, by decide, by decide⟩

/-- "-v -vdsha1 -p 1M file": no message, with digests. -/
example : ∃ lines W', mHmacsum env1 sysCalls1 (commandLine (codes "hmacsum") groups0 [codes "file"]) world0 = .ok (⟨⟨true, .version :: lines⟩, []⟩, W') ∧ DigestLines (some (codes "sha1")) input0.content lines := by
  have hlen : input0.content.length = 100000 := List.length_replicate
  exact C59_silent env1 sysCalls1 start1 (codes "hmacsum") groups0 (codes "file") [] line1 world0 input0 (by simp [env1]) (by rw [hlen]; rfl) (fun _ => ⟨1000, rfl, by decide⟩) (fun _ => rfl) ⟨rfl, rfl, rfl, rfl⟩
    ⟨rfl, rfl⟩ rfl usual1 (fun k _ => by rw [hlen]; cases k <;> decide)

/-- "-v -vdsha1 -p 1M nofile": the message is that the file cannot be opened; the cases of `C59_causes`, `C59_explained` and `C59_named` with a failure. -/
example : ∃ W', mHmacsum env1 sysCalls1 (commandLine (codes "hmacsum") groups0 [codes "nofile"]) world0 = .ok (⟨⟨false, [.version]⟩, [.openInput]⟩, W') :=
  C59_cannot_open env1 sysCalls1 start1 (codes "hmacsum") groups0 (codes "nofile") [] ⟨groups0_ok, by decide, by decide, by decide⟩ world0 (by simp only [env1]; decide) (fun _ => rfl) ⟨rfl, rfl, rfl, rfl⟩
    ⟨rfl, rfl⟩ rfl usual1

/-- The same if signal handlers cannot be set: two warnings. -/
example (x : ExitM) (W' : World) (h : mHmacsum env1 ⟨true, true, false, false⟩ (commandLine (codes "hmacsum") groups0 [codes "file"]) world0 = .ok (x, W')) (hx : x.exit.status = true) :
    x.err = [.attach, .detach] := by
  obtain ⟨b, e, -, -, h4⟩ := C59_warned env1 _ (codes "hmacsum") groups0 (codes "file") [] line1 world0 W' x h hx
  rw [e, h4 usual1]
  rfl

/-- 8E is 2^63. -/
example : TooLargeBufferSize (some 46) (some (codes "8E")) := ⟨codes "8E", 46, [8], false, 6, true, .none, rfl, rfl, by decide, by decide, by decide, by decide, by decide⟩

example := C59_missing_source env1 sysCalls1 start1 (codes "hmacsum") groups0 groups0_ok (by decide) world0

/-! ### C60: the argument named by the message for an invalid option -/

theorem mParse_steps {mc args s os s1} (h : OptSteps mc args (codes "d:hp:vV") s os s1) : ∀ (o : Options) (fuel : Nat), (∀ x ∈ os, x.1 = 100 ∨ x.1 = 112 ∨ x.1 = 118) →
    mParseOptions mc args (os.length + fuel) o s = mParseOptions mc args fuel (os.foldl Options.apply o) s1 := by
  induction h with
  | nil s => intro o fuel _; simp
  | @cons s s1 s2 c a os h ha _ ih =>
    intro o fuel hos
    have hc := hos (c, a) (by simp)
    have ih := fun o => ih o fuel (fun x hx => hos x (by simp [hx]))
    rw [List.length_cons, show os.length + 1 + fuel = (os.length + fuel) + 1 by omega, mParseOptions, h]
    simp only [Res.ok_bind, List.foldl_cons]
    simp only at hc
    rcases hc with rfl | rfl | rfl <;> simp [ha, ih, Options.apply]

/-- A command line with an option that is unknown (`x`), or that lacks its argument at the end: well-formed groups of options without -h and -V, then an argument of letters v, the option and further letters. -/
structure BadLine (groups : List OptGroup) (flags : List Nat) (x : Nat) (tail : List Nat) (rest : List (List Nat)) : Prop where
  options : ∀ g ∈ groups, g.Ok (codes "d:hp:vV")
  run : ∀ x ∈ optionsOf groups, x.1 ≠ 104 ∧ x.1 ≠ 86
  flags : ∀ f ∈ flags, f = 118
  text : x ≠ 0 ∧ x ≠ 45 ∧ 0 ∉ tail
  bad : optionKind (codes "d:hp:vV") x = none ∨ optionKind (codes "d:hp:vV") x = some true ∧ tail = [] ∧ rest = []

/-- What the message names: the argument with the option if the option is its last letter, otherwise the argument before it. -/
theorem invalid_argument (E : Environment) (C : SystemCalls) (hE : StartOk E C) (program : List Nat) (hp0 : 0 ∉ program) (groups : List OptGroup) (flags : List Nat) (x : Nat) (tail : List Nat)
    (rest : List (List Nat)) (h : BadLine groups flags x tail rest) (W : World) :
    mHmacsum E C (commandLine program groups ((45 :: (flags ++ x :: tail)) :: rest)) W =
      .ok (⟨⟨false, [.version, .usage]⟩, [.invalidArgument (if tail = [] then 45 :: (flags ++ x :: tail) else (program :: groups.flatMap OptGroup.args).getLast (by simp))]⟩, W) := by
  obtain ⟨hg, hrun, hflags, ⟨hx0, hx45, ht⟩, hx⟩ := h
  obtain ⟨oa, hs⟩ := groups_steps E.mc (codes "d:hp:vV") ((45 :: (flags ++ x :: tail)) :: rest) groups [program] none hg
  obtain ⟨s1, s2, hs1, hs2, -, -, hind⟩ := bad_steps E.mc (codes "d:hp:vV") ([program] ++ groups.flatMap OptGroup.args) rest flags x tail
    (fun f hf => by rw [hflags f hf]; decide) hx0 hx45 ht hx oa
  rw [List.append_assoc] at hs1 hs2
  have hall := hs.trans hs1
  have h1 : ∀ x ∈ groups.flatMap OptGroup.options ++ flags.map (fun f => (f, none)), x.1 = 100 ∨ x.1 = 112 ∨ x.1 = 118 := fun x hx => by
    rcases List.mem_append.mp hx with hx | hx
    · have := hrun x hx
      rcases optionsOf_kinds hg x hx with h' | h' <;> omega
    · obtain ⟨f, hf, rfl⟩ := List.mem_map.mp hx
      exact .inr (.inr (hflags f hf))
  have hfuel : ∃ extra', ((commandLine program groups ((45 :: (flags ++ x :: tail)) :: rest)).map List.length).sum + 1 =
      (groups.flatMap OptGroup.options ++ flags.map (fun f => ((f, none) : Nat × Option (List Nat)))).length + (extra' + 1) := by
    have h1 := options_length groups hg
    have : ((commandLine program groups ((45 :: (flags ++ x :: tail)) :: rest)).map List.length).sum = program.length + 1 + (((groups.flatMap OptGroup.args).map fun b => b.length + 1).sum +
        ((flags.length + (tail.length + 1)) + 1 + 1 + (rest.map fun b => b.length + 1).sum)) := by
      simp only [commandLine, argVector, List.map_map, List.map_cons, List.map_append, List.sum_cons, List.sum_append]
      simp [Function.comp_def]
      omega
    rw [List.length_append, List.length_map]
    simp only [optionsOf] at h1
    exact ⟨((commandLine program groups ((45 :: (flags ++ x :: tail)) :: rest)).map List.length).sum - ((groups.flatMap OptGroup.options).length + flags.length), by omega⟩
  obtain ⟨extra', hfuel⟩ := hfuel
  have hp := mParse_steps hall ⟨none, none, false⟩ (extra' + 1) h1
  have hpre : ∀ b ∈ program :: groups.flatMap OptGroup.args, 0 ∉ b := fun b hb => by
    rcases List.mem_cons.mp hb with rfl | hb
    · exact hp0
    · obtain ⟨g, hg', hb⟩ := List.mem_flatMap.mp hb
      exact args_no_nul (hg g hg') b hb
  have hbad : argAt (argVector ([program] ++ (groups.flatMap OptGroup.args ++ (45 :: (flags ++ x :: tail)) :: rest))) (s2.optind - 1) =
      .ok (if tail = [] then 45 :: (flags ++ x :: tail) else (program :: groups.flatMap OptGroup.args).getLast (by simp)) := by
    refine argAt_ok _ _ _ ?_ ?_
    · rw [hind, ← List.append_assoc]
      split
      · rw [Nat.add_sub_cancel, List.getElem?_append_right (Nat.le_refl _)]
        simp
      · rw [List.getElem?_append_left (by simp), List.getLast_eq_getElem]
        exact List.getElem?_eq_getElem _
    · split
      · intro h0
        simp only [List.mem_cons, List.mem_append] at h0
        rcases h0 with h | h | h | h
        · cases h
        · have := hflags 0 h
          omega
        · exact hx0 h.symm
        · exact ht h
      · exact hpre _ (List.getLast_mem _)
  have hp : mParseOptions E.mc (commandLine program groups ((45 :: (flags ++ x :: tail)) :: rest)) (((commandLine program groups ((45 :: (flags ++ x :: tail)) :: rest)).map List.length).sum + 1)
      ⟨none, none, false⟩ optInit = .ok (.invalid, if tail = [] then 45 :: (flags ++ x :: tail) else (program :: groups.flatMap OptGroup.args).getLast (by simp)) := by
    rw [hfuel]
    refine Eq.trans hp ?_
    rw [mParseOptions, hs2]
    simp only [Res.ok_bind]
    have hc : ∀ c, c = 63 ∨ c = 58 → c ≠ 100 ∧ c ≠ 104 ∧ c ≠ 112 ∧ c ≠ 118 ∧ c ≠ 86 := by omega
    obtain ⟨c1, c2, c3, c4, c5⟩ := hc (if optionKind (codes "d:hp:vV") x = none then 63 else 58) (by split <;> simp)
    rw [if_neg c1, if_neg c2, if_neg c3, if_neg c4, if_neg c5]
    change (argAt (argVector ([program] ++ (groups.flatMap OptGroup.args ++ (45 :: (flags ++ x :: tail)) :: rest))) (s2.optind - 1) >>= fun a => pure (Parsed.invalid, a)) = _
    rw [hbad]
    rfl
  exact (hE.run _ _ _ hp W).1 rfl

/-- Full statement of C60: the message names the argument that contains the invalid option. -/
def C60Statement : Prop := ∀ (E : Environment) (C : SystemCalls), StartOk E C → ∀ program : List Nat, 0 ∉ program → ∀ groups flags x tail rest, BadLine groups flags x tail rest → ∀ W,
  mHmacsum E C (commandLine program groups ((45 :: (flags ++ x :: tail)) :: rest)) W = .ok (⟨⟨false, [.version, .usage]⟩, [.invalidArgument (45 :: (flags ++ x :: tail))]⟩, W)

/-- C60, for an option that is the last letter of its argument. Missing: an unknown option followed by more letters. -/
theorem C60_named_partial (E : Environment) (C : SystemCalls) (hE : StartOk E C) (program : List Nat) (hp0 : 0 ∉ program) (groups : List OptGroup) (flags : List Nat) (x : Nat)
    (rest : List (List Nat)) (h : BadLine groups flags x [] rest) (W : World) :
    mHmacsum E C (commandLine program groups ((45 :: (flags ++ [x])) :: rest)) W = .ok (⟨⟨false, [.version, .usage]⟩, [.invalidArgument (45 :: (flags ++ [x]))]⟩, W) :=
  invalid_argument E C hE program hp0 groups flags x [] rest h W

/-- "-v -vdsha1 -p 1M -vx file" -/
theorem bad1 (tail : List Nat) (h : 0 ∉ tail) : BadLine groups0 [118] 120 tail [codes "file"] := ⟨groups0_ok, by decide, by decide, ⟨by decide, by decide, h⟩, .inl (by decide)⟩

example : mHmacsum env1 sysCalls1 (commandLine (codes "hmacsum") groups0 [codes "-vx", codes "file"]) world0 = .ok (⟨⟨false, [.version, .usage]⟩, [.invalidArgument (codes "-vx")]⟩, world0) :=
  C60_named_partial env1 sysCalls1 start1 (codes "hmacsum") (by decide) groups0 [118] 120 [codes "file"] (bad1 [] (by simp)) world0

/-- C60 is violated: an unknown option followed by more letters makes the message name the argument before, which is valid: always. -/
theorem C60_names_previous (E : Environment) (C : SystemCalls) (hE : StartOk E C) (program : List Nat) (hp0 : 0 ∉ program) (groups : List OptGroup) (flags : List Nat) (x y : Nat) (tail : List Nat)
    (rest : List (List Nat)) (h : BadLine groups flags x (y :: tail) rest) (W : World) :
    mHmacsum E C (commandLine program groups ((45 :: (flags ++ x :: y :: tail)) :: rest)) W =
      .ok (⟨⟨false, [.version, .usage]⟩, [.invalidArgument ((program :: groups.flatMap OptGroup.args).getLast (by simp))]⟩, W) := by
  have := invalid_argument E C hE program hp0 groups flags x (y :: tail) rest h W
  rwa [if_neg (by simp)] at this

/-- "hmacsum -v -vdsha1 -p 1M -vxd file" complains about the argument "1M". -/
example : mHmacsum env1 sysCalls1 (commandLine (codes "hmacsum") groups0 [codes "-vxd", codes "file"]) world0 = .ok (⟨⟨false, [.version, .usage]⟩, [.invalidArgument (codes "1M")]⟩, world0) :=
  C60_names_previous env1 sysCalls1 start1 (codes "hmacsum") (by decide) groups0 [118] 120 100 [] [codes "file"] (bad1 [100] (by decide)) world0

/-- "hmacsum -xv" complains about the argument "hmacsum". -/
theorem C60_statement_false : ¬ C60Statement := by
  intro h
  have hb : BadLine [] [] 120 [118] [] := ⟨by simp, by simp [optionsOf], by simp, by decide, .inl (by decide)⟩
  have h1 := h env1 sysCalls1 start1 (codes "hmacsum") (by decide) [] [] 120 [118] [] hb world0
  have h2 := C60_names_previous env1 sysCalls1 start1 (codes "hmacsum") (by decide) [] [] 120 118 [] [] hb world0
  have h2 := h1.symm.trans h2
  injection h2 with h2
  have := congrArg (fun y : ExitM × World => y.1.err) h2
  simp only at this
  exact absurd this (by decide)

/-- C59_named: a source that is not there is the only reason to fail, and it is named. -/
example : ∃ x W', mHmacsum env1 sysCalls1 (commandLine (codes "hmacsum") groups0 [codes "nofile"]) world0 = .ok (x, W') ∧ x.err = [.openInput] := by
  obtain ⟨W', h⟩ := C59_cannot_open env1 sysCalls1 start1 (codes "hmacsum") groups0 (codes "nofile") [] ⟨groups0_ok, by decide, by decide, by decide⟩ world0 (by simp only [env1]; decide) (fun _ => rfl) ⟨rfl, rfl, rfl, rfl⟩
    ⟨rfl, rfl⟩ rfl usual1
  refine ⟨_, W', h, (C59_named env1 tool0_ok (by decide) sysCalls1 (codes "hmacsum") groups0 (codes "nofile") [] ⟨groups0_ok, by decide, by decide, by decide⟩ world0 W' _ h rfl rfl .openInput fun m' hc => ?_).1⟩
  have hb : BufferArgument env1.dp (lastArgument 112 (optionsOf groups0)) ∧ UsualBufferSize env1.dp (lastArgument 112 (optionsOf groups0)) := ⟨fun s hs => by
    obtain ⟨c, ds, sp, f, up, u, h1, h2, h3, h4, h5, h6⟩ := usual1 s hs
    exact ⟨c, ds, sp, f, up, u, h1, h2, h3, h4, h5, Nat.lt_of_le_of_lt h6 (by decide)⟩, usual1⟩
  have hn : env1.files (codes "nofile") = none := by simp only [env1]; decide
  cases m' with
  | openInput => rfl
  | processInput =>
    obtain ⟨inp, h1, -⟩ := hc
    rw [hn] at h1
    cases h1
  | bufferSize => exact absurd hb.1 hc
  | bufferSizeDefault => exact absurd hb.2 hc
  | createHandle =>
    obtain ⟨n, h⟩ := hc
    cases h
  | digestTypes =>
    obtain ⟨-, h | h | ⟨n, h⟩⟩ := hc <;> cases h
  | output => rcases hc with h | h <;> cases h
  | _ => cases hc

/-- C59_explained and C59_causes apply to every result of a command line with an option and a source. -/
example (x : ExitM) (W' : World) (h : mHmacsum env1 ⟨true, true, false, false⟩ (commandLine (codes "hmacsum") groups0 [codes "file"]) world0 = .ok (x, W')) :=
  And.intro (C59_explained _ _ _ _ _ _ h) (C59_causes env1 tool0_ok (by decide) ⟨true, true, false, false⟩ (codes "hmacsum") groups0 (codes "file") [] line1 world0 W' x h)

end Props
