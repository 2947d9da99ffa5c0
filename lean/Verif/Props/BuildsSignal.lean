import Verif.Proofs.BuildsSignalMain
import Verif.Props.Signal
import Verif.Props.BuildsMessages
/-! C81: hmacsum and signals that arrive at any moments, in every build and on hosts of other widths. -/

namespace Props

open Model Spec

/-- The state of the process at its end. -/
def finalStateOf {M : Type} : Builds.Fate M → Builds.Proc M
  | .exited _ q => q
  | .killed q => q

/-- The standard output of the process. -/
def printedOf {M : Type} : Builds.Fate M → List Line
  | .exited x _ => x.exit.out
  | .killed q => q.out

/-- The end of a process of C68. -/
def sameFate : Builds.Fate Mem → Fate
  | .exited x p => .exited x ⟨p.attached, p.abort, p.stdin, p.error, p.var, p.out, p.err, p.world, p.handled, p.reads⟩
  | .killed p => .killed ⟨p.attached, p.abort, p.stdin, p.error, p.var, p.out, p.err, p.world, p.handled, p.reads⟩

/-! ### What a program that exits did, for any crypto libraries -/

/-- C81. With every algorithm built in, on a host of 64 bits, it is the program of C68. -/
theorem C81_builtin (E : Environment) (Y : SystemCalls) (S : Signals) (args : List (List Nat)) (W : World) :
    (Builds.sHmacsum E (.builtin E.tool) Y S args W >>= fun f => pure (sameFate f)) = sHmacsum E Y S args W := by
  rw [← Builds.sHmacsum_builtin (E := E) (Y := Y) (S := S) args W]
  refine Res.bind_same fun f => ?_
  cases f <;> rfl

/-- C81. In any build: if the program exits, then with the exit status, output, messages and memory of a run in which one signal or none arrives at one of the four tests of the abort flag. So all that is proved of such
runs (C73, C74, C78) holds. -/
theorem C81_outcome {M : Type} (E : Environment) (C : Contexts M) (Y : SystemCalls) (S : Signals) (args : List (List Nat)) (W : WorldOf M) (x : ExitM) (q : Builds.Proc M)
    (h : Builds.sHmacsum E C Y S args W = .ok (.exited x q)) : ∃ a, Builds.mHmacsum { E with arrival := a } C Y args W = .ok (x, q.world) := by
  obtain ⟨a, -, h1, -⟩ := Builds.sHmacsum_agrees h
  exact ⟨a, h1.1⟩

/-- C81. Exit status 0: the result is that of a run without signals, and no signal was handled, except after the last test of the abort flag if the handler could not be detached. -/
theorem C81_success {M : Type} (E : Environment) (C : Contexts M) (Y : SystemCalls) (S : Signals) (args : List (List Nat)) (W : WorldOf M) (x : ExitM) (q : Builds.Proc M)
    (h : Builds.sHmacsum E C Y S args W = .ok (.exited x q)) (hx : x.exit.status = true) :
    Builds.mHmacsum { E with arrival := .never } C Y args W = .ok (x, q.world) ∧ (q.handled = 0 ∨ 0 < S.count .last ∧ Y.detach = false) := by
  obtain ⟨a, -, h1, h2, h3⟩ := Builds.sHmacsum_agrees h
  have ha := h3 hx
  subst ha
  refine ⟨h1.1, ?_⟩
  rcases h2 hx with h2 | h2
  · exact .inl h2
  · by_cases hd : Y.detach = true
    · obtain ⟨-, -, ⟨-, ⟨x', q', e, hq⟩, -⟩ | ⟨o, source, arg, p, -, e, -⟩⟩ := Builds.sHmacsum_quiet h hx
      · cases e
        exact .inl hq
      · obtain ⟨-, -, -, -, h0, W0, ok1, h1, err1, ok2, h2', W2, err2, inp, ab, h3, W3, ds, -, -, -, -, -, -, -, -, hq, -⟩ := Builds.sRunSource_quiet e hx
        have := hq.ends.last hd
        omega
    · exact .inr ⟨h2, by simpa using hd⟩

/-- The buffer size that the option -p gives on a host with this SSIZE_MAX: the default without the option, and for a number that is too large; else the value of the text. -/
def BufferSizeUpTo (max : Nat) (dp : Option Nat) (arg : Option (List Nat)) (m : Nat) : Prop :=
  arg = none ∧ m = 32768 ∨ ∃ c ds sp f up u, dp = some c ∧ c ∉ sizeChars ∧ arg = some (sizeText c ds none sp f up u) ∧ f ≠ 1 ∧ decimal ds * u.base ^ f.1 < 2 ^ 64 ∧
    m = if decimal ds * u.base ^ f.1 ≤ max then decimal ds * u.base ^ f.1 else 32768

theorem builds_bufferSize_upTo {M : Type} {C : Contexts M} {E : Environment} {o : Options} {h : Handle} (hb : h.bufferSize = 32768) {m : Nat} (hm : BufferSizeUpTo C.sizeMax E.dp o.bufferSize m) :
    Builds.applyBufferSize E C o h = .ok (true, { h with bufferSize := m }) := by
  rcases hm with ⟨hn, rfl⟩ | ⟨c, ds, sp, f, up, u, hc, hcs, hs, hf, hv, rfl⟩
  · unfold Builds.applyBufferSize
    rw [hn, ← hb]
  · have e : scaled (decimal ds) (fracValue none) f.1 u.base = decimal ds * u.base ^ f.1 := if_neg (by simp [fracValue, hundredths])
    unfold Builds.applyBufferSize
    rw [hs, hc]
    dsimp only
    unfold Builds.setBufferSize
    rw [sizeText_eval o.verbose c hcs, if_neg hf, e]
    simp only [Res.ok_bind]
    have hn : (BitVec.ofNat 64 (decimal ds * u.base ^ f.1)).toNat = decimal ds * u.base ^ f.1 := by rw [BitVec.toNat_ofNat, Nat.mod_eq_of_lt hv]
    have hlt := C.sizeMax_lt
    rw [hn]
    generalize decimal ds * u.base ^ f.1 = v at *
    by_cases hle : v ≤ C.sizeMax
    · rw [if_neg (Nat.not_lt.mpr hle), if_pos hle, Nat.mod_eq_of_lt (by omega)]
      simp only [Res.pure_eq]
      rw [if_neg (by decide), if_pos (by decide)]
      simp only [Res.ok_bind]
      rw [if_neg (by decide), if_neg (by rintro (h0 | h0); exact absurd h0 (by decide); exact absurd h0 (Nat.not_lt.mpr hle))]
    · rw [if_pos (Nat.lt_of_not_le hle), if_neg hle]
      simp

/-- C81. In any build, exit status 0 on a command line with a source: no signal arrived from the start of the program on until the end, not before or after any of the reads of the file, nor between any lines of the
output. (After the last test of the abort flag if the handler was detached.) The number of reads is at least the size of the file divided by the buffer size. Whatever the crypto libraries do. -/
theorem C81_undisturbed {M : Type} (E : Environment) (C : Contexts M) (Y : SystemCalls) (S : Signals) (program : List Nat) (groups : List OptGroup) (source : List Nat) (rest : List (List Nat))
    (hl : SourceLine groups source) (W : WorldOf M) (x : ExitM) (q : Builds.Proc M) (h : Builds.sHmacsum E C Y S (commandLine program groups (source :: rest)) W = .ok (.exited x q)) (hx : x.exit.status = true) :
    ∃ inp lines size, E.files source = some inp ∧ inp.size = some size ∧ x.exit.out = .version :: lines ∧ Undisturbed Y S q.reads lines.length ∧
      ∀ m, BufferSizeUpTo C.sizeMax E.dp (lastArgument 112 (optionsOf groups)) m → size ≤ q.reads * m := by
  obtain ⟨arg, hp⟩ := mParse_of (parse_source E.mc program groups source rest hl)
  obtain ⟨b1, b2, ⟨-, -, p, arg', e1, e2⟩ | ⟨o, src, arg', p, e1, e, po, pe, pw⟩⟩ := Builds.sHmacsum_quiet h hx
  · rw [hp] at e1
    cases e1
    rcases e2 with e2 | e2 <;> cases e2
  rw [hp] at e1
  cases e1
  obtain ⟨-, c1, c2, c3, h0, W0, ok1, h1, err1, ok2, h2, W2, err2, inp, ab, h3, W3, ds, i1, i2, i3, i4, hf, i5, hab, i6, hq, x', q', e, hout, hreads⟩ := Builds.sRunSource_quiet e hx
  cases e
  obtain ⟨ka, kb⟩ := Builds.sumInitialize_handle i1
  have kr := Builds.sumInitialize_readCount i1
  have i5' := Builds.processInput_congr (g := fun _ => false) i5 hab
  have hopen : (openInput true h2).2.abort = h2.abort ∧ (openInput true h2).2.readCount = h2.readCount ∧ (openInput true h2).2.bufferSize = h2.bufferSize := ⟨rfl, rfl, rfl⟩
  have ha : h3.abort = false := by
    rw [Builds.processInput_unaborted i5', hopen.1, (Builds.mApplyDigests_keeps i3).1, Builds.mApplyBufferSize_keeps i2, ka]
  obtain ⟨size, hs, hle⟩ := Builds.processInput_reads i5' ha
  rw [hopen.2.1, hopen.2.2, (Builds.mApplyDigests_keeps i3).2, Builds.mApplyDigests_readCount i3, Builds.mApplyBufferSize_readCount i2, kr, Nat.sub_zero] at hle
  rw [hreads]
  refine ⟨inp, ds.map fun d => .digest d.1 d.2, size, hf, hs, by rw [hout, po]; rfl, ⟨⟨b1, b2, c1, c2⟩, c3, hq.read, hq.processed, fun j hj => hq.printing j (by simpa using hj),
    ⟨hq.ends.closing, hq.ends.detached, hq.ends.freeing, hq.ends.ending⟩, hq.ends.last⟩, fun m hm => ?_⟩
  have e4 := builds_bufferSize_upTo (o := ⟨lastArgument 100 (optionsOf groups), lastArgument 112 (optionsOf groups), (optionsOf groups).any (·.1 = 118)⟩) kb hm
  rw [← Builds.mApplyBufferSize_erase _ p.err, i2] at e4
  injection e4 with e4
  have : h1.bufferSize = m := congrArg (fun y : Bool × Handle => y.2.bufferSize) e4
  rwa [this] at hle

/-- C81. In any build: if a signal kills the program, then the handler is not attached at that moment, and what was printed so far is a beginning of what a run that is not killed prints, on standard output and on
standard error. -/
theorem C81_killed {M : Type} (E : Environment) (C : Contexts M) (Y : SystemCalls) (S : Signals) (args : List (List Nat)) (W : WorldOf M) (q : Builds.Proc M) (h : Builds.sHmacsum E C Y S args W = .ok (.killed q)) :
    q.attached = false ∧ ∃ a, ∀ x W', Builds.mHmacsum { E with arrival := a } C Y args W = .ok (x, W') → q.out <+: x.exit.out ∧ q.err <+: x.err := by
  obtain ⟨a, -, h1, -⟩ := Builds.sHmacsum_agrees h
  exact ⟨h1.1, a, h1.2.2⟩

/-- C81. In any build: at the end of the process standard input is closed and the abort flag is set exactly if a signal was handled. -/
theorem C81_standard_input {M : Type} (E : Environment) (C : Contexts M) (Y : SystemCalls) (S : Signals) (args : List (List Nat)) (W : WorldOf M) (f : Builds.Fate M)
    (h : Builds.sHmacsum E C Y S args W = .ok f) :
    ((finalStateOf f).stdin = false ↔ 0 < (finalStateOf f).handled) ∧ ((finalStateOf f).abort = true ↔ 0 < (finalStateOf f).handled) := by
  obtain ⟨a, -, h1, -⟩ := Builds.sHmacsum_agrees h
  have ht : Builds.Tidy (finalStateOf f) := by
    cases f with
    | exited x q => exact h1.2.1
    | killed q => exact h1.2.1
  by_cases h0 : (finalStateOf f).handled = 0
  · have := ht.zero h0
    rw [this.1, this.2, h0]
    simp
  · have := ht.pos (by omega)
    rw [this.1, this.2]
    exact ⟨⟨fun _ => by omega, fun _ => rfl⟩, ⟨fun _ => by omega, fun _ => rfl⟩⟩

/-- C81. In any build, without signals the program is that of C78. -/
theorem C81_without_signals {M : Type} (E : Environment) (C : Contexts M) (Y : SystemCalls) (S : Signals) (hS : ∀ pt, S.count pt = 0) (args : List (List Nat)) (W W' : WorldOf M) (x : ExitM)
    (h : Builds.mHmacsum { E with arrival := .never } C Y args W = .ok (x, W')) : ∃ q, Builds.sHmacsum E C Y S args W = .ok (.exited x q) ∧ q.world = W' := by
  rw [← Builds.sHmacsum_none (S := S) hS] at h
  obtain ⟨f, e, h⟩ := Res.bind_eq_ok h
  cases f with
  | exited y q =>
    cases h
    exact ⟨q, e, rfl⟩
  | killed q => cases h

/-- C81. In any build: if the handler can be attached and stays attached when it runs, signals that arrive only between attaching and detaching it do not kill the program. -/
theorem C81_not_killed {M : Type} (E : Environment) (C : Contexts M) (Y : SystemCalls) (S : Signals) (hr : S.resets = false) (hat : Y.attach = true)
    (hS : ∀ pt, 0 < S.count pt → pt = .opening ∨ (∃ n, pt = .read n) ∨ pt = .processed ∨ (∃ n, pt = .printing n) ∨ pt = .closing) (args : List (List Nat)) (W : WorldOf M) (f : Builds.Fate M)
    (h : Builds.sHmacsum E C Y S args W = .ok f) : ∃ x q, f = .exited x q := by
  refine Builds.sHmacsum_alive hr (fun pt hp => ?_) hat h
  by_contra hn
  rcases hS pt (by omega) with rfl | ⟨n, rfl⟩ | rfl | ⟨n, rfl⟩ | rfl <;> cases hp

/-- C81. In any build: if the handler could not be attached, no signal is handled. -/
theorem C81_unattached {M : Type} (E : Environment) (C : Contexts M) (Y : SystemCalls) (S : Signals) (ha : Y.attach = false) (args : List (List Nat)) (W : WorldOf M) (f : Builds.Fate M)
    (h : Builds.sHmacsum E C Y S args W = .ok f) : (finalStateOf f).handled = 0 := by
  have := Builds.sHmacsum_unattached ha h
  cases f <;> exact this

/-- C81. In any build: a signal that arrives while the n-th read is made is seen right after it, or before: if the program exits, it made no further read. -/
theorem C81_prompt {M : Type} (E : Environment) (C : Contexts M) (Y : SystemCalls) (S : Signals) (n : Nat) (hn : 0 < S.count (.read n)) (args : List (List Nat)) (W : WorldOf M) (x : ExitM) (q : Builds.Proc M)
    (h : Builds.sHmacsum E C Y S args W = .ok (.exited x q)) : q.reads ≤ max n 1 := Builds.sHmacsum_prompt hn h

/-- C81. In any build the error object of a failed call is released before the program exits, unless the program was aborted. Missing, as in C68: opening or processing the file fails and a signal was handled. -/
theorem C81_error_partial {M : Type} (E : Environment) (C : Contexts M) (Y : SystemCalls) (S : Signals) (args : List (List Nat)) (W : WorldOf M) (x : ExitM) (q : Builds.Proc M)
    (h : Builds.sHmacsum E C Y S args W = .ok (.exited x q)) (he : q.error = true) : x.exit.status = false ∧ x.exit.out.getLast? = some .aborted ∧ 0 < q.handled := by
  obtain ⟨a, -, h1, h2, h3⟩ := Builds.sHmacsum_agrees h
  obtain ⟨ho, hx, ha⟩ := h1.2.2 he
  exact ⟨hx, ho, (C81_standard_input E C Y S args W _ h).2.mp ha⟩

/-! ### With crypto libraries that are right if their calls succeed, and on other hosts -/

theorem builds_signal_run {M : Type} {E : Environment} {C : Contexts M} {Y : SystemCalls} {S : Signals} {args : List (List Nat)} {W : WorldOf M} {f : Builds.Fate M} (h : Builds.sHmacsum E C Y S args W = .ok f)
    {P : Line → Prop} (run : ∀ a, ∃ x W', Builds.hmacsum { E with arrival := a, outputOk := Y.bufferOut && Y.bufferErr } C args W = .ok (x, W') ∧ ∀ l ∈ x.out, P l) : ∀ l ∈ printedOf f, P l := by
  have run' : ∀ a, ∃ x W', Builds.mHmacsum { E with arrival := a } C Y args W = .ok (x, W') ∧ ∀ l ∈ x.exit.out, P l := fun a => by
    obtain ⟨x, W', e, hx⟩ := run a
    have e' := C78_same_program { E with arrival := a } C Y args W
    rw [e] at e'
    obtain ⟨⟨y, V⟩, e1, e2⟩ := Res.bind_eq_ok e'
    cases e2
    exact ⟨y, V, e1, hx⟩
  intro l hl
  cases f with
  | exited x q =>
    obtain ⟨a, ha⟩ := C81_outcome E C Y S args W x q h
    obtain ⟨x', W', e, hr⟩ := run' a
    rw [ha] at e
    cases e
    exact hr l hl
  | killed q =>
    obtain ⟨-, a, h1⟩ := C81_killed E C Y S args W q h
    obtain ⟨x', W', e, hr⟩ := run' a
    exact hr l ((h1 x' W' e).1.subset hl)

variable {ch : Kind → Choice} {L : Kind → Library}

/-- C81. In every build, whatever signals arrive, a digest that was printed is right: of a program that exits and of one that is killed. Any call of a crypto library may fail. -/
theorem C81_no_wrong_digest (E : Environment) (Y : SystemCalls) (S : Signals) (hE : StartOk E Y) (hL : Correct ch L) (program : List Nat) (groups : List OptGroup) (source : List Nat) (rest : List (List Nat))
    (hl : SourceLine groups source) (W : WorldOf (MixedMem L)) (f : Builds.Fate (MixedMem L)) (h : Builds.sHmacsum E (.mixed ch L E.tool) Y S (commandLine program groups (source :: rest)) W = .ok f) (k : Kind)
    (text : List Nat) (hk : Line.digest k text ∈ printedOf f) :
    ∃ inp size, E.files source = some inp ∧ inp.size = some size ∧ size ≤ inp.content.length ∧
      (size < 2 ^ 61 → Selected (lastArgument 100 (optionsOf groups)) k ∧ text = hex (k.std.digest (inp.content.take size))) := by
  refine builds_signal_run h (P := fun l => ∀ k text, l = .digest k text → ∃ inp size, E.files source = some inp ∧ inp.size = some size ∧ size ≤ inp.content.length ∧
      (size < 2 ^ 61 → Selected (lastArgument 100 (optionsOf groups)) k ∧ text = hex (k.std.digest (inp.content.take size)))) (fun a => ?_) _ hk k text rfl
  have hE' : EnvOk { E with arrival := a, outputOk := Y.bufferOut && Y.bufferErr } := ⟨hE.tool, hE.dp, hE.locale, by simp [hE.out, hE.err]⟩
  obtain ⟨x, W', e, -⟩ := C73_success _ hE' hL program groups source rest hl W
  exact ⟨x, W', e, fun l hm k text hk => C73_no_wrong_digest _ hE' hL program groups source rest hl W _ _ e k text (hk ▸ hm)⟩

/-- C81. The same on hosts whose `size_t` has 17 to 64 bits. -/
theorem C81_no_wrong_digest_host {hb : Nat} (h1 : 17 ≤ hb) (h2 : hb ≤ 64) (E : Environment) (Y : SystemCalls) (S : Signals) (hE : StartOk E Y) (program : List Nat) (groups : List OptGroup) (source : List Nat)
    (rest : List (List Nat)) (hl : SourceLine groups source) (W : World) (f : Builds.Fate Mem) (h : Builds.sHmacsum E (.host hb E.tool) Y S (commandLine program groups (source :: rest)) W = .ok f) (k : Kind)
    (text : List Nat) (hk : Line.digest k text ∈ printedOf f) :
    ∃ inp size, E.files source = some inp ∧ inp.size = some size ∧ size ≤ inp.content.length ∧
      (size < 2 ^ 61 → Selected (lastArgument 100 (optionsOf groups)) k ∧ text = hex (k.std.digest (inp.content.take size))) := by
  refine builds_signal_run h (P := fun l => ∀ k text, l = .digest k text → ∃ inp size, E.files source = some inp ∧ inp.size = some size ∧ size ≤ inp.content.length ∧
      (size < 2 ^ 61 → Selected (lastArgument 100 (optionsOf groups)) k ∧ text = hex (k.std.digest (inp.content.take size)))) (fun a => ?_) _ hk k text rfl
  have hE' : EnvOk { E with arrival := a, outputOk := Y.bufferOut && Y.bufferErr } := ⟨hE.tool, hE.dp, hE.locale, by simp [hE.out, hE.err]⟩
  obtain ⟨x, W', e, -⟩ := C74_success _ hE' h1 h2 program groups source rest hl W
  exact ⟨x, W', e, fun l hm k text hk => C74_no_wrong_digest _ hE' h1 h2 program groups source rest hl W _ _ e k text (hk ▸ hm)⟩

theorem builds_interrupted {M : Type} {E : Environment} {C : Contexts M} {Y : SystemCalls} {S : Signals} {Good : Prop} {limit : Nat} {Rel : (Kind → Option Nat) → M → Builds.Msgs → Prop}
    (law : Builds.Law C E.tool Good limit Rel) (hE : StartOk E Y) (hr : S.resets = false) (hat : Y.attach = true)
    (hS : ∀ pt, 0 < S.count pt → pt = .opening ∨ (∃ n, pt = .read n) ∨ pt = .processed ∨ (∃ n, pt = .printing n) ∨ pt = .closing) (program : List Nat) (groups : List OptGroup) (source : List Nat)
    (rest : List (List Nat)) (hl : SourceLine groups source) (W : WorldOf M) {blk : List Nat} (hW : Builds.NoneInv Rel blk W)
    (hsig : 0 < S.count .opening ∨ 0 < S.count (.read 0) ∨ 0 < S.count .processed ∨ 0 < S.count (.printing 0) ∨ 0 < S.count .closing ∨
      ∃ j inp size m, 0 < S.count (.read (j + 1)) ∧ BufferSizeUpTo C.sizeMax E.dp (lastArgument 112 (optionsOf groups)) m ∧ E.files source = some inp ∧ inp.size = some size ∧ j * m < size) :
    ∃ x q, Builds.sHmacsum E C Y S (commandLine program groups (source :: rest)) W = .ok (.exited x q) ∧ x.exit.status = false ∧
      (x.exit.out.getLast? = some .aborted ∨ ∃ m ∈ x.err, m.isWarning = false) := by
  have hz : ∀ pt : Point, pt.guarded = false → S.count pt = 0 := fun pt hp => by
    by_contra hn
    rcases hS pt (by omega) with rfl | ⟨n, rfl⟩ | rfl | ⟨n, rfl⟩ | rfl <;> cases hp
  obtain ⟨arg, hp⟩ := mParse_of (parse_source E.mc program groups source rest hl)
  obtain ⟨f, e⟩ := Builds.sHmacsum_parsed (S := S) (Y := Y) hE.tool law hE.dp ⟨hz _ rfl, .inr (hz _ rfl)⟩ hp W hW
  obtain ⟨x, q, rfl⟩ := C81_not_killed E C Y S hr hat hS _ W f e
  have hx : x.exit.status = false := by
    by_contra hx
    obtain ⟨inp, lines, size, hf, hs, -, hu, hsz⟩ := C81_undisturbed E C Y S program groups source rest hl W x q e (by simpa using hx)
    rcases hsig with h | h | h | h | h | ⟨j, inp', size', m, h, h1, h2, h3, h4⟩
    · have := hu.opening; omega
    · have := hu.reading 0 (by omega); omega
    · have := hu.processed; omega
    · have := hu.printing 0 (by omega); omega
    · have := hu.ending.1; omega
    · rw [hf] at h2
      cases h2
      rw [hs] at h3
      cases h3
      have := hsz m h1
      have := hu.reading (j + 1) (by
        by_contra hn
        have : q.reads * m ≤ j * m := Nat.mul_le_mul_right _ (by omega)
        omega)
      omega
  obtain ⟨a, ha⟩ := C81_outcome E C Y S _ W x q e
  refine ⟨x, q, e, hx, ?_⟩
  rcases (C78_explained { E with arrival := a } C Y _ W q.world x ha).2 hx with ⟨ws, m, h1, -, h3⟩ | ⟨-, h2, -⟩
  · exact .inr ⟨m, by rw [h1]; simp, h3⟩
  · exact .inl h2

/-- C81. In every build, signals that arrive only while the handler is attached end the program with a failure, in order: if there is one while the file is opened, or before or after a read that is made (the j-th read is
made if the reads before it cannot have delivered the file), or after the last read, or before the file is closed, then the program exits, with exit status failure, and the last line of standard output is "ABORTED" or
standard error tells a reason. -/
theorem C81_interrupted (E : Environment) (Y : SystemCalls) (S : Signals) (hE : StartOk E Y) (hL : Correct ch L) (hr : S.resets = false) (hat : Y.attach = true)
    (hS : ∀ pt, 0 < S.count pt → pt = .opening ∨ (∃ n, pt = .read n) ∨ pt = .processed ∨ (∃ n, pt = .printing n) ∨ pt = .closing) (program : List Nat) (groups : List OptGroup) (source : List Nat)
    (rest : List (List Nat)) (hl : SourceLine groups source) (W : WorldOf (MixedMem L))
    (hsig : 0 < S.count .opening ∨ 0 < S.count (.read 0) ∨ 0 < S.count .processed ∨ 0 < S.count (.printing 0) ∨ 0 < S.count .closing ∨
      ∃ j inp size m, 0 < S.count (.read (j + 1)) ∧ BufferSizeUpTo (2 ^ 63 - 1) E.dp (lastArgument 112 (optionsOf groups)) m ∧ E.files source = some inp ∧ inp.size = some size ∧ j * m < size) :
    ∃ x q, Builds.sHmacsum E (.mixed ch L E.tool) Y S (commandLine program groups (source :: rest)) W = .ok (.exited x q) ∧ x.exit.status = false ∧
      (x.exit.out.getLast? = some .aborted ∨ ∃ m ∈ x.err, m.isWarning = false) := by
  obtain ⟨Rep, law⟩ := hL.law (E := { E with localeOk := true, outputOk := true }) ⟨hE.tool, hE.dp, rfl, rfl⟩ _ (fun _ B _ => limit_small B) W.mem
  exact builds_interrupted (E := E) (C := .mixed ch L E.tool) law hE hr hat hS program groups source rest hl W (builds_start W) hsig

/-- C81. The same on hosts whose `size_t` has 17 to 64 bits. -/
theorem C81_interrupted_host {hb : Nat} (h1 : 17 ≤ hb) (h2 : hb ≤ 64) (E : Environment) (Y : SystemCalls) (S : Signals) (hE : StartOk E Y) (hr : S.resets = false) (hat : Y.attach = true)
    (hS : ∀ pt, 0 < S.count pt → pt = .opening ∨ (∃ n, pt = .read n) ∨ pt = .processed ∨ (∃ n, pt = .printing n) ∨ pt = .closing) (program : List Nat) (groups : List OptGroup) (source : List Nat)
    (rest : List (List Nat)) (hl : SourceLine groups source) (W : World)
    (hsig : 0 < S.count .opening ∨ 0 < S.count (.read 0) ∨ 0 < S.count .processed ∨ 0 < S.count (.printing 0) ∨ 0 < S.count .closing ∨
      ∃ j inp size m, 0 < S.count (.read (j + 1)) ∧ BufferSizeUpTo (2 ^ (hb - 1) - 1) E.dp (lastArgument 112 (optionsOf groups)) m ∧ E.files source = some inp ∧ inp.size = some size ∧ j * m < size) :
    ∃ x q, Builds.sHmacsum E (.host hb E.tool) Y S (commandLine program groups (source :: rest)) W = .ok (.exited x q) ∧ x.exit.status = false ∧
      (x.exit.out.getLast? = some .aborted ∨ ∃ m ∈ x.err, m.isWarning = false) :=
  builds_interrupted (Builds.host_law h1 h2 hE.tool _) hE hr hat hS program groups source rest hl W (host_start W) hsig

/-! ### Undefined behaviour -/

/-- C81, as a user would want it: no undefined behaviour in any build, whenever signals arrive. (Command lines without an argument "-", see C51.) -/
def C81Statement : Prop := ∀ (ch : Kind → Choice) (L : Kind → Library), Correct ch L → ∀ (E : Environment) (Y : SystemCalls) (S : Signals), E.tool.Ok → E.dp ≠ some 0 → ∀ bodies : List (List Nat), bodies ≠ [] →
  (∀ b ∈ bodies, 0 ∉ b) → (∀ b ∈ bodies.drop 1, b ≠ [45]) → ∀ W : WorldOf (MixedMem L), ∃ f, Builds.sHmacsum E (.mixed ch L E.tool) Y S (argVector bodies) W = .ok f

/-- What holds: no undefined behaviour if no signal arrives between the release of the handle and the clearing of the pointer to it: on the way of a failed program, and, if the handler cannot be detached, on the other
way. Missing: these two stretches. Any call of a crypto library may fail. -/
theorem C81_safe_partial (E : Environment) (Y : SystemCalls) (S : Signals) (hT : E.tool.Ok) (hdp : E.dp ≠ some 0) (hL : Correct ch L) (hrel : S.count .releasing = 0) (hfree : Y.detach = true ∨ S.count .freeing = 0)
    (bodies : List (List Nat)) (hne : bodies ≠ []) (h0 : ∀ b ∈ bodies, 0 ∉ b) (hdash : ∀ b ∈ bodies.drop 1, b ≠ [45]) (W : WorldOf (MixedMem L)) :
    ∃ f, Builds.sHmacsum E (.mixed ch L E.tool) Y S (argVector bodies) W = .ok f := by
  obtain ⟨Rep, law⟩ := hL.law (E := { E with localeOk := true, outputOk := true }) ⟨hT, hdp, rfl, rfl⟩ _ (fun _ B _ => limit_small B) W.mem
  exact Builds.sHmacsum_safe hT law hdp ⟨hrel, hfree⟩ bodies hne h0 hdash W (builds_start W)

/-- The same on hosts whose `size_t` has 17 to 64 bits. -/
theorem C81_safe_host_partial {hb : Nat} (h1 : 17 ≤ hb) (h2 : hb ≤ 64) (E : Environment) (Y : SystemCalls) (S : Signals) (hT : E.tool.Ok) (hdp : E.dp ≠ some 0) (hrel : S.count .releasing = 0)
    (hfree : Y.detach = true ∨ S.count .freeing = 0) (bodies : List (List Nat)) (hne : bodies ≠ []) (h0 : ∀ b ∈ bodies, 0 ∉ b) (hdash : ∀ b ∈ bodies.drop 1, b ≠ [45]) (W : World) :
    ∃ f, Builds.sHmacsum E (.host hb E.tool) Y S (argVector bodies) W = .ok f :=
  Builds.sHmacsum_safe hT (Builds.host_law h1 h2 hT _) hdp ⟨hrel, hfree⟩ bodies hne h0 hdash W (host_start W)

/-- In every build: the file cannot be opened; the program frees the handle with the signal handler attached, and a signal arrives before the pointer to the handle is cleared: the handler writes to freed memory. -/
theorem C81_use_after_free (ch : Kind → Choice) (L : Kind → Library) :
    Builds.sHmacsum env1 (.mixed ch L env1.tool) sysCalls1 (signalsAt [.releasing]) (argVector [codes "hmacsum", codes "absent"]) (mixed0 L) = .ub := rfl

/-- The same on the way of an aborted program if the handler cannot be detached. -/
theorem C81_use_after_free_detach (ch : Kind → Choice) (L : Kind → Library) :
    Builds.sHmacsum env1 (.mixed ch L env1.tool) { sysCalls1 with detach := false } (signalsAt [.opening, .freeing]) (argVector [codes "hmacsum", codes "absent"]) (mixed0 L) = .ub := rfl

/-- On every host. -/
theorem C81_use_after_free_host (hb : Nat) :
    Builds.sHmacsum env1 (.host hb env1.tool) sysCalls1 (signalsAt [.releasing]) (argVector [codes "hmacsum", codes "absent"]) world0 = .ub := rfl

theorem C81_statement_false : ¬ C81Statement := by
  intro h
  obtain ⟨f, e⟩ := h choice0 exactLibrary exact_correct env1 sysCalls1 (signalsAt [.releasing]) tool0_ok (by decide) [codes "hmacsum", codes "absent"] (by simp) (by decide) (by decide) (mixed0 _)
  rw [C81_use_after_free] at e
  cases e

/-- C81, as a user would want it: the error object of a failed call is released before the program exits. -/
def C81ErrorStatement : Prop := ∀ (ch : Kind → Choice) (L : Kind → Library), Correct ch L → ∀ (E : Environment) (Y : SystemCalls) (S : Signals) (args : List (List Nat)) (W : WorldOf (MixedMem L)) (x : ExitM)
  (q : Builds.Proc (MixedMem L)), Builds.sHmacsum E (.mixed ch L E.tool) Y S args W = .ok (.exited x q) → q.error = false

/-- In every build: a signal arrives while the file is opened, and it cannot be opened: the program goes to `on_abort` and leaves the error object. -/
theorem C81_error_left (ch : Kind → Choice) (L : Kind → Library) :
    ∃ x q, Builds.sHmacsum env1 (.mixed ch L env1.tool) sysCalls1 (signalsAt [.opening]) (argVector [codes "hmacsum", codes "absent"]) (mixed0 L) = .ok (.exited x q) ∧ x.exit = ⟨false, [.version, .aborted]⟩ ∧ x.err = [] ∧
      q.error = true := ⟨_, _, rfl, rfl, rfl, rfl⟩

theorem C81_error_statement_false : ¬ C81ErrorStatement := by
  intro h
  obtain ⟨x, q, e, -, -, he⟩ := C81_error_left choice0 exactLibrary
  rw [h choice0 exactLibrary exact_correct _ _ _ _ _ x q e] at he
  cases he

/-! ### Examples -/

/-- A build with MD5 and SHA-224 from a crypto library whose calls may fail, and a host of 32 bits. -/
example := C81_safe_partial env1 sysCalls1 (signalsAt [.opening, .read 3, .printing 1]) tool0_ok (by decide) failing_correct rfl (.inl rfl) [codes "hmacsum", codes "file"] (by simp) (by decide) (by decide) (mixed0 _)
example := C81_safe_host_partial (hb := 32) (by decide) (by decide) env1 sysCalls1 (signalsAt [.opening, .read 3, .printing 1]) tool0_ok (by decide) rfl (.inl rfl) [codes "hmacsum", codes "file"] (by simp) (by decide)
  (by decide) world0

theorem quiet1_builds : ∃ x q, Builds.sHmacsum env1 (.mixed choice0 exactLibrary env1.tool) sysCalls1 (signalsAt []) (commandLine (codes "hmacsum") groups0 [codes "file"]) (mixed0 _) = .ok (.exited x q) ∧
    x.exit.status = true := by
  have hlen : input0.content.length = 100000 := List.length_replicate
  obtain ⟨lines, W', e, -⟩ := C78_silent env1 sysCalls1 start1 exact_correct (fun k _ => exact_reliable k) (codes "hmacsum") groups0 (codes "file") [] line1 (mixed0 _) input0 (by simp [env1]) (by rw [hlen]; rfl)
    (fun _ => ⟨1000, rfl, by decide⟩) (fun _ => rfl) ⟨rfl, rfl, rfl, rfl⟩ ⟨rfl, rfl⟩ rfl usual1 (.inr (.inr (by rw [hlen]; decide))) (by rw [hlen]; decide)
  obtain ⟨q, e, -⟩ := C81_without_signals env1 _ sysCalls1 (signalsAt []) (fun _ => rfl) _ (mixed0 _) W' _ e
  exact ⟨_, q, e, rfl⟩

example := quiet1_builds.imp fun x => Exists.imp fun q h => And.intro (C81_success env1 _ sysCalls1 _ _ (mixed0 _) x q h.1 h.2) (C81_undisturbed env1 _ sysCalls1 _ (codes "hmacsum") groups0 (codes "file") [] line1 (mixed0 _) x q h.1 h.2)

example := C81_interrupted env1 sysCalls1 (signalsAt [.read 1, .read 1, .read 0, .printing 2]) start1 failing_correct rfl rfl (fun pt h => by
  cases pt <;> first | (exact .inl rfl) | (exact .inr (.inl ⟨_, rfl⟩)) | (exact .inr (.inr (.inl rfl))) | (exact .inr (.inr (.inr (.inl ⟨_, rfl⟩)))) | (exact .inr (.inr (.inr (.inr rfl)))) | (exact absurd h (by decide)))
  (codes "hmacsum") groups0 (codes "file") [] line1 (mixed0 _) (.inr (.inl (by decide)))

/-- With the option -p4096 on a host of 32 bits, and a signal while the 24th read of the file of 100000 bytes is made. -/
example := C81_interrupted_host (hb := 32) (by decide) (by decide) env1 sysCalls1 (signalsAt [.read 24]) start1 rfl rfl (fun pt h => by
  cases pt <;> first | (exact .inl rfl) | (exact .inr (.inl ⟨_, rfl⟩)) | (exact .inr (.inr (.inl rfl))) | (exact .inr (.inr (.inr (.inl ⟨_, rfl⟩)))) | (exact .inr (.inr (.inr (.inr rfl)))) | (exact absurd h (by decide)))
  (codes "hmacsum") [⟨[], some (112, codes "4096", true)⟩] (codes "file") [] lineP world0
  (.inr (.inr (.inr (.inr (.inr ⟨23, input0, 100000, 4096, by decide, .inr ⟨46, [4, 0, 9, 6], false, 0, false, .none, rfl, by decide, rfl, by decide, by decide, rfl⟩, by simp [env1], rfl, by decide⟩)))))

/-- The hypotheses of `C81_prompt`, `C81_not_killed` and `C81_no_wrong_digest` are met: a signal while the third read of the file of 100000 bytes is made. The program is aborted after at most three reads, and what it
printed is right. -/
example : ∃ x q, Builds.sHmacsum env1 (.mixed choice0 failingLibrary env1.tool) sysCalls1 (signalsAt [.read 3]) (commandLine (codes "hmacsum") [⟨[], some (112, codes "4096", true)⟩] [codes "file"]) (mixed0 _) = .ok (.exited x q) ∧ q.reads ≤ 3 ∧
    ((q.stdin = false ↔ 0 < q.handled) ∧ (q.abort = true ↔ 0 < q.handled)) := by
  obtain ⟨x, q, e, -⟩ := C81_interrupted env1 sysCalls1 (signalsAt [.read 3]) start1 failing_correct rfl rfl (fun pt h => by
    cases pt <;> first | (exact .inr (.inl ⟨_, rfl⟩)) | (exact .inr (.inr (.inr (.inl ⟨_, rfl⟩)))) | (exact absurd h (by decide)))
    (codes "hmacsum") [⟨[], some (112, codes "4096", true)⟩] (codes "file") [] lineP (mixed0 _) (.inr (.inr (.inr (.inr (.inr ⟨2, input0, 100000, 4096, by decide, .inr ⟨46, [4, 0, 9, 6], false, 0, false, .none, rfl, by decide, rfl, by decide, by decide, rfl⟩, by simp [env1], rfl, by decide⟩)))))
  have := C81_no_wrong_digest env1 sysCalls1 (signalsAt [.read 3]) start1 failing_correct (codes "hmacsum") [⟨[], some (112, codes "4096", true)⟩] (codes "file") [] lineP (mixed0 _) _ e
  exact ⟨x, q, e, C81_prompt _ _ _ _ 3 (by decide) _ _ x q e, C81_standard_input _ _ _ _ _ _ _ e⟩

/-- A signal before the handler is attached kills the program after the version line. -/
example (ch : Kind → Choice) (L : Kind → Library) : ∃ q, Builds.sHmacsum env1 (.mixed ch L env1.tool) sysCalls1 (signalsAt [.create]) (argVector [codes "hmacsum", codes "file"]) (mixed0 L) = .ok (.killed q) ∧ q.out = [.version] ∧
    q.attached = false := ⟨_, rfl, rfl, rfl⟩

/-- C81_outcome: a run without signals is a run of the program without them. -/
example : ∃ (x : ExitM) (q : Builds.Proc (MixedMem exactLibrary)) (a : _), Builds.mHmacsum { env1 with arrival := a } (.mixed choice0 exactLibrary env1.tool) sysCalls1 (commandLine (codes "hmacsum") groups0 [codes "file"]) (mixed0 _) = .ok (x, q.world) := by
  obtain ⟨x, q, h, -⟩ := quiet1_builds
  obtain ⟨a, e⟩ := C81_outcome _ _ _ _ _ _ _ _ h
  exact ⟨x, q, a, e⟩

/-- C81_killed: a signal before the handler is attached kills the program. -/
example : ∃ q, Builds.sHmacsum env1 (.mixed choice0 failingLibrary env1.tool) sysCalls1 (signalsAt [.create]) (argVector [codes "hmacsum", codes "file"]) (mixed0 _) = .ok (.killed q) ∧
    ∃ a, ∀ x W', Builds.mHmacsum { env1 with arrival := a } (.mixed choice0 failingLibrary env1.tool) sysCalls1 (argVector [codes "hmacsum", codes "file"]) (mixed0 _) = .ok (x, W') → q.out <+: x.exit.out ∧ q.err <+: x.err := by
  have h : ∃ q, Builds.sHmacsum env1 (.mixed choice0 failingLibrary env1.tool) sysCalls1 (signalsAt [.create]) (argVector [codes "hmacsum", codes "file"]) (mixed0 _) = .ok (.killed q) := ⟨_, rfl⟩
  obtain ⟨q, h⟩ := h
  exact ⟨q, h, (C81_killed _ _ _ _ _ _ _ h).2⟩

/-- C81_without_signals: a run without signals that cannot open its source. -/
example : ∃ x q, Builds.sHmacsum env1 (.mixed choice0 failingLibrary env1.tool) sysCalls1 (signalsAt []) (commandLine (codes "hmacsum") groups0 [codes "nofile"]) (mixed0 _) = .ok (.exited x q) ∧ x.err = [.openInput] := by
  obtain ⟨W', h⟩ := C78_cannot_open env1 sysCalls1 start1 failing_correct (codes "hmacsum") groups0 (codes "nofile") [] ⟨groups0_ok, by decide, by decide, by decide⟩ (mixed0 _) (by decide) (fun _ => rfl) ⟨rfl, rfl, rfl, rfl⟩
    ⟨rfl, rfl⟩ rfl (usualSize1 _ (by decide))
  obtain ⟨q, e, -⟩ := C81_without_signals env1 _ sysCalls1 (signalsAt []) (fun _ => rfl) _ _ W' _ h
  exact ⟨_, q, e, rfl⟩

/-- C81_not_killed: signals while the file is opened and read, in a build in which library calls fail. -/
example : ∃ x q, Builds.sHmacsum env1 (.mixed choice0 failingLibrary env1.tool) sysCalls1 (signalsAt [.opening, .read 3]) (argVector [codes "hmacsum", codes "file"]) (mixed0 _) = .ok (.exited x q) := by
  obtain ⟨f, h⟩ := C81_safe_partial env1 sysCalls1 (signalsAt [.opening, .read 3]) tool0_ok (by decide) failing_correct rfl (.inl rfl) [codes "hmacsum", codes "file"] (by simp) (by decide) (by decide) (mixed0 _)
  obtain ⟨x, q, rfl⟩ := C81_not_killed env1 _ sysCalls1 (signalsAt [.opening, .read 3]) rfl rfl (fun pt h => by
    cases pt <;> first | (exact .inl rfl) | (exact .inr (.inl ⟨_, rfl⟩)) | (exact .inr (.inr (.inr (.inl ⟨_, rfl⟩)))) | (exact absurd h (by decide))) _ _ f h
  exact ⟨x, q, h⟩

/-- C81_unattached: the handler cannot be attached, and a signal arrives while the file is read. -/
example : ∃ f, Builds.sHmacsum env1 (.mixed choice0 failingLibrary env1.tool) ⟨true, true, false, true⟩ (signalsAt [.read 1]) (argVector [codes "hmacsum", codes "file"]) (mixed0 _) = .ok f ∧ (finalStateOf f).handled = 0 := by
  obtain ⟨f, h⟩ := C81_safe_partial env1 ⟨true, true, false, true⟩ (signalsAt [.read 1]) tool0_ok (by decide) failing_correct rfl (.inl rfl) [codes "hmacsum", codes "file"] (by simp) (by decide) (by decide) (mixed0 _)
  exact ⟨f, h, C81_unattached env1 _ ⟨true, true, false, true⟩ _ rfl _ _ f h⟩

/-- C81_error_partial: the error object that is left was left by an aborted program. -/
example : ∃ x q, Builds.sHmacsum env1 (.mixed choice0 failingLibrary env1.tool) sysCalls1 (signalsAt [.opening]) (argVector [codes "hmacsum", codes "absent"]) (mixed0 _) = .ok (.exited x q) ∧ q.error = true ∧ 0 < q.handled := by
  obtain ⟨x, q, h, -, -, he⟩ := C81_error_left choice0 failingLibrary
  exact ⟨x, q, h, he, (C81_error_partial _ _ _ _ _ _ x q h he).2.2⟩

/-- C81_no_wrong_digest_host on a host of 32 bits. -/
example (f : Builds.Fate Mem) (k : Kind) (text : List Nat) (hk : Line.digest k text ∈ printedOf f) (h : Builds.sHmacsum env1 (.host 32 env1.tool) sysCalls1 (signalsAt [.printing 1]) (commandLine (codes "hmacsum") groups0 [codes "file"]) world0 = .ok f) :=
  C81_no_wrong_digest_host (hb := 32) (by decide) (by decide) env1 sysCalls1 (signalsAt [.printing 1]) start1 (codes "hmacsum") groups0 (codes "file") [] line1 world0 f h k text hk

end Props
