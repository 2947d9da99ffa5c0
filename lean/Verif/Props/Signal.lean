import Verif.Proofs.SignalPrompt
import Verif.Props.Messages
/-! C68: hmacsum and signals that arrive at any moments, any number of them. -/

namespace Props

open Model Spec

/-- The state of the process at its end. -/
def finalState : Fate → Proc
  | .exited _ q => q
  | .killed q => q

/-- The standard output of the process. -/
def printed : Fate → List Line
  | .exited x _ => x.exit.out
  | .killed q => q.out

/-! ### What a program that exits did -/

/-- C68. However many signals arrive and whenever they do: if the program exits, then with the exit status, output, messages and memory of a run in which one signal or none arrives at one of the four tests of the abort
flag. So all that is proved of such runs (C50, C51, C59) holds. -/
theorem C68_outcome (E : Environment) (C : SystemCalls) (S : Signals) (args : List (List Nat)) (W : World) (x : ExitM) (q : Proc) (h : sHmacsum E C S args W = .ok (.exited x q)) :
    ∃ a, mHmacsum { E with arrival := a } C args W = .ok (x, q.world) := by
  obtain ⟨a, -, h1, -⟩ := sHmacsum_agrees h
  exact ⟨a, h1.1⟩

/-- C68. Exit status 0: the result is that of a run without signals, and no signal was handled, except after the last test of the abort flag if the handler could not be detached. -/
theorem C68_success (E : Environment) (C : SystemCalls) (S : Signals) (args : List (List Nat)) (W : World) (x : ExitM) (q : Proc) (h : sHmacsum E C S args W = .ok (.exited x q)) (hx : x.exit.status = true) :
    mHmacsum { E with arrival := .never } C args W = .ok (x, q.world) ∧ (q.handled = 0 ∨ 0 < S.count .last ∧ C.detach = false) := by
  obtain ⟨a, -, h1, h2, h3⟩ := sHmacsum_agrees h
  have ha := h3 hx
  subst ha
  refine ⟨h1.1, ?_⟩
  rcases h2 hx with h2 | h2
  · exact .inl h2
  · by_cases hd : C.detach = true
    · obtain ⟨-, -, ⟨-, ⟨x', q', e, hq⟩, -⟩ | ⟨o, source, arg, p, -, e, -⟩⟩ := sHmacsum_quiet h hx
      · cases e
        exact .inl hq
      · obtain ⟨-, -, -, -, h0, W0, ok1, h1, err1, ok2, h2', W2, err2, inp, ab, h3, W3, ds, -, -, -, -, -, -, -, -, hq, -⟩ := sRunSource_quiet e hx
        have := hq.ends.last hd
        omega
    · exact .inr ⟨h2, by simpa using hd⟩

/-- No signal arrives while the program reads a file of this size, prints this number of lines, and does the rest. `reads` is the number of reads that are made. -/
structure Undisturbed (C : SystemCalls) (S : Signals) (reads lines : Nat) : Prop where
  start : S.count .begin = 0 ∧ S.count .parsing = 0 ∧ S.count .create = 0 ∧ S.count .configured = 0
  opening : S.count .opening = 0
  reading : ∀ j, j ≤ reads → S.count (.read j) = 0
  processed : S.count .processed = 0
  printing : ∀ j, j ≤ lines → S.count (.printing j) = 0
  ending : S.count .closing = 0 ∧ S.count .detached = 0 ∧ S.count .freeing = 0 ∧ S.count .ending = 0
  last : C.detach = true → S.count .last = 0

theorem offered_le (inp : Input) (m : Nat) : ∀ n i, inp.offered m i n ≤ n * m
  | 0, _ => Nat.zero_le _
  | n + 1, i => by
    have := offered_le inp m n (i + 1)
    have h := Nat.min_le_right ((inp.reads i).getD 0) m
    simp only [Input.offered, Nat.add_mul, Nat.one_mul]
    omega

/-- The buffer size that the option -p gives: the default without the option, and for a number that is too large; else the value of the text. (A factor K is rejected, see C41.) -/
def BufferSizeIs (dp : Option Nat) (arg : Option (List Nat)) (m : Nat) : Prop :=
  arg = none ∧ m = 32768 ∨ ∃ c ds sp f up u, dp = some c ∧ c ∉ sizeChars ∧ arg = some (sizeText c ds none sp f up u) ∧ f ≠ 1 ∧ decimal ds * u.base ^ f.1 < 2 ^ 64 ∧
    m = if decimal ds * u.base ^ f.1 ≤ 2 ^ 63 - 1 then decimal ds * u.base ^ f.1 else 32768

theorem applyBufferSize_is {E : Environment} {o : Options} {h : Handle} (hb : h.bufferSize = 32768) {m : Nat} (hm : BufferSizeIs E.dp o.bufferSize m) :
    applyBufferSize E o h = .ok (true, { h with bufferSize := m }) := by
  rcases hm with ⟨hn, rfl⟩ | ⟨c, ds, sp, f, up, u, hc, hcs, hs, hf, hv, rfl⟩
  · unfold applyBufferSize
    rw [hn, ← hb]
  · have e : scaled (decimal ds) (fracValue none) f.1 u.base = decimal ds * u.base ^ f.1 := if_neg (by simp [fracValue, hundredths])
    unfold applyBufferSize
    rw [hs, hc]
    dsimp only
    unfold setBufferSize
    rw [sizeText_eval o.verbose c hcs, if_neg hf, e]
    simp only [Res.ok_bind]
    have hn : (BitVec.ofNat 64 (decimal ds * u.base ^ f.1)).toNat = decimal ds * u.base ^ f.1 := by rw [BitVec.toNat_ofNat, Nat.mod_eq_of_lt hv]
    rw [hn, show ssizeMax = 2 ^ 63 - 1 from rfl]
    generalize decimal ds * u.base ^ f.1 = v at *
    by_cases hle : v ≤ 2 ^ 63 - 1
    · rw [if_neg (Nat.not_lt.mpr hle), if_pos hle]
      simp only [Res.pure_eq]
      rw [if_neg (by decide), if_pos (by decide)]
      simp only [Res.ok_bind]
      rw [if_neg (by decide), if_neg (by rintro (h0 | h0); exact absurd h0 (by decide); exact absurd h0 (Nat.not_lt.mpr hle))]
    · rw [if_pos (Nat.lt_of_not_le hle), if_neg hle]
      simp

/-- C68. Exit status 0 on a command line with a source: no signal arrived from the start of the program on until the end, not before or after any of the reads of the file, nor between any lines of the output. (After the
last test of the abort flag if the handler was detached.) The number of reads is at least the size of the file divided by the buffer size. -/
theorem C68_undisturbed (E : Environment) (C : SystemCalls) (S : Signals) (hT : E.tool.Ok) (hdp : E.dp ≠ some 0) (program : List Nat) (groups : List OptGroup) (source : List Nat) (rest : List (List Nat)) (hl : SourceLine groups source)
    (W : World) (x : ExitM) (q : Proc) (h : sHmacsum E C S (commandLine program groups (source :: rest)) W = .ok (.exited x q)) (hx : x.exit.status = true) :
    ∃ inp lines size, E.files source = some inp ∧ inp.size = some size ∧ x.exit.out = .version :: lines ∧ Undisturbed C S q.reads lines.length ∧
      ∀ m, BufferSizeIs E.dp (lastArgument 112 (optionsOf groups)) m → size ≤ q.reads * m := by
  obtain ⟨arg, hp⟩ := mParse_of (parse_source E.mc program groups source rest hl)
  obtain ⟨b1, b2, ⟨-, -, p, arg', e1, e2⟩ | ⟨o, src, arg', p, e1, e, po, pe, pw⟩⟩ := sHmacsum_quiet h hx
  · rw [hp] at e1
    cases e1
    rcases e2 with e2 | e2 <;> cases e2
  rw [hp] at e1
  cases e1
  obtain ⟨-, c1, c2, c3, h0, W0, ok1, h1, err1, ok2, h2, W2, err2, inp, ab, h3, W3, ds, i1, i2, i3, i4, hf, i5, hab, i6, hq, x', q', e, hout, hreads⟩ := sRunSource_quiet e hx
  cases e
  rcases sumInitialize_ok hT p.world.blocks p.world (noneInv_start p.world) with ⟨g, V, e0, hI, -, -, hbs, hga, hpos, hrc⟩ | ⟨V, extra, e0, -⟩
  swap
  · rw [i1] at e0
    cases e0
  rw [i1] at e0
  cases e0
  obtain ⟨ok, m, j1, -, -⟩ := applyBufferSize_ok hdp ⟨lastArgument 100 (optionsOf groups), lastArgument 112 (optionsOf groups), (optionsOf groups).any (·.1 = 118)⟩ h0 hbs
  have hm : ∀ m', BufferSizeIs E.dp (lastArgument 112 (optionsOf groups)) m' → m = m' := fun m' hm' => by
    rw [applyBufferSize_is (o := ⟨lastArgument 100 (optionsOf groups), lastArgument 112 (optionsOf groups), (optionsOf groups).any (·.1 = 118)⟩) hbs hm'] at j1
    injection j1 with j1
    exact (congrArg (fun y : Bool × Handle => y.2.bufferSize) j1).symm
  rw [← mApplyBufferSize_erase _ p.err, i2] at j1
  cases j1
  have hI2 : HandleInv E.tool (fun w => (p.world.mem.live w).map (·.1)) p.world.blocks { h0 with bufferSize := m } W0 := hI
  have key : HandleInv E.tool (fun w => (p.world.mem.live w).map (·.1)) p.world.blocks h2 W2 ∧ h2.bufferSize = m ∧ h2.abort = false ∧ h2.readCount = 0 := by
    have e4 := mApplyDigests_erase (E := E) ⟨lastArgument 100 (optionsOf groups), lastArgument 112 (optionsOf groups), (optionsOf groups).any (·.1 = 118)⟩ err1 { h0 with bufferSize := m } W0
    rw [i3] at e4
    unfold applyDigests at e4
    split at e4
    · cases e4
      exact ⟨hI2, rfl, hga, hrc⟩
    · rename_i s hd
      obtain ⟨r, calc', str', V2, e3, h3, -⟩ := setDigestTypes_ok hT E.mc E.splitOk E.splitFreeOk s p.world.blocks _ W0 hI2
      rw [e3] at e4
      cases e4
      exact ⟨h3, rfl, hga, hrc⟩
  obtain ⟨⟨⟨b, hrel⟩, hstr, -, -⟩, kb, ka, kr⟩ := key
  obtain ⟨r, ctx', str', ab', pos', rc', V, b', e2, -, -, -, -, -, -, -, habt, hsuc, -⟩ := processInput_ok hT inp ab (openInput true h2).2 W2 b hrel hstr
  rw [i5] at e2
  injection e2 with e2
  have hr : (1 : Int) = r := congrArg Prod.fst e2
  have hh := congrArg (fun y => y.2.1) e2
  dsimp only at hh
  have hrc' : h3.readCount = rc' := by rw [hh]
  obtain ⟨size, d, hs, -, -, -, -, -, -, hd, hof, -, -⟩ := hsuc hr.symm
  have hd : d.length = size := by
    rcases hd with hd | hd
    · exact hd
    · rcases habt hd with h | ⟨n, -, hn, h⟩
      · exact absurd (ka.symm.trans h) (by decide)
      · rw [hab n (by omega)] at h
        cases h
  rw [hreads]
  refine ⟨inp, ds.map fun d => .digest d.1 d.2, size, hf, hs, by rw [hout, po]; rfl, ⟨⟨b1, b2, c1, c2⟩, c3, hq.read, hq.processed, fun j hj => hq.printing j (by simpa using hj),
    ⟨hq.ends.closing, hq.ends.detached, hq.ends.freeing, hq.ends.ending⟩, hq.ends.last⟩, fun m' hn => ?_⟩
  have hof := Nat.le_trans hof (offered_le inp _ _ _)
  rw [hd, show (openInput true h2).2.bufferSize = m from kb, show (openInput true h2).2.readCount = 0 from kr, hm m' hn, ← hrc'] at hof
  simpa using hof

/-! ### A program that is killed, standard input -/

/-- C68. If a signal kills the program, then the handler is not attached at that moment, and what was printed so far is a beginning of what a run that is not killed prints, on standard output and on standard error. -/
theorem C68_killed (E : Environment) (C : SystemCalls) (S : Signals) (args : List (List Nat)) (W : World) (q : Proc) (h : sHmacsum E C S args W = .ok (.killed q)) :
    q.attached = false ∧ ∃ a, ∀ x W', mHmacsum { E with arrival := a } C args W = .ok (x, W') → q.out <+: x.exit.out ∧ q.err <+: x.err := by
  obtain ⟨a, -, h1, -⟩ := sHmacsum_agrees h
  exact ⟨h1.1, a, h1.2.2⟩

/-- C68. The handler closes standard input and sets the abort flag, and nothing else does: at the end of the process they are closed and set exactly if a signal was handled. -/
theorem C68_standard_input (E : Environment) (C : SystemCalls) (S : Signals) (args : List (List Nat)) (W : World) (f : Fate) (h : sHmacsum E C S args W = .ok f) :
    ((finalState f).stdin = false ↔ 0 < (finalState f).handled) ∧ ((finalState f).abort = true ↔ 0 < (finalState f).handled) := by
  obtain ⟨a, -, h1, -⟩ := sHmacsum_agrees h
  have ht : Tidy (finalState f) := by
    cases f with
    | exited x q => exact h1.2.1
    | killed q => exact h1.2.1
  by_cases h0 : (finalState f).handled = 0
  · have := ht.zero h0
    rw [this.1, this.2, h0]
    simp
  · have := ht.pos (by omega)
    rw [this.1, this.2]
    exact ⟨⟨fun _ => by omega, fun _ => rfl⟩, ⟨fun _ => by omega, fun _ => rfl⟩⟩

/-- C68. Whatever signals arrive, a digest that was printed is right: of a program that exits and of one that is killed. -/
theorem C68_no_wrong_digest (E : Environment) (C : SystemCalls) (S : Signals) (hE : StartOk E C) (program : List Nat) (groups : List OptGroup) (source : List Nat) (rest : List (List Nat))
    (hl : SourceLine groups source) (W : World) (f : Fate) (h : sHmacsum E C S (commandLine program groups (source :: rest)) W = .ok f) (k : Kind) (text : List Nat) (hk : Line.digest k text ∈ printed f) :
    ∃ inp size, E.files source = some inp ∧ inp.size = some size ∧ size ≤ inp.content.length ∧
      ((∀ k, Selected (lastArgument 100 (optionsOf groups)) k → k.LengthOk size) → Selected (lastArgument 100 (optionsOf groups)) k ∧ text = hex (k.std.digest (inp.content.take size))) := by
  have run : ∀ a, ∃ x W', mHmacsum { E with arrival := a } C (commandLine program groups (source :: rest)) W = .ok (x, W') ∧ (Line.digest k text ∈ x.exit.out →
      ∃ inp size, E.files source = some inp ∧ inp.size = some size ∧ size ≤ inp.content.length ∧
        ((∀ k, Selected (lastArgument 100 (optionsOf groups)) k → k.LengthOk size) → Selected (lastArgument 100 (optionsOf groups)) k ∧ text = hex (k.std.digest (inp.content.take size)))) := fun a => by
    have hE' : EnvOk { E with arrival := a, outputOk := C.bufferOut && C.bufferErr } := ⟨hE.tool, hE.dp, hE.locale, by simp [hE.out, hE.err]⟩
    obtain ⟨x, W', e, -⟩ := C50_success _ hE' program groups source rest hl W
    have e' := C59_same_program { E with arrival := a } C (commandLine program groups (source :: rest)) W
    rw [e] at e'
    obtain ⟨⟨y, V⟩, e1, e2⟩ := Res.bind_eq_ok e'
    cases e2
    exact ⟨y, V, e1, fun hin => C50_no_wrong_digest _ hE' program groups source rest hl W _ _ e k text hin⟩
  cases f with
  | exited x q =>
    obtain ⟨a, -, h1, -⟩ := sHmacsum_agrees h
    obtain ⟨x', W', e, hr⟩ := run a
    rw [show mHmacsum { E with arrival := a } C _ W = .ok (x, q.world) from h1.1] at e
    cases e
    exact hr hk
  | killed q =>
    obtain ⟨-, a, h1⟩ := C68_killed E C S _ W q h
    obtain ⟨x', W', e, hr⟩ := run a
    exact hr ((h1 x' W' e).1.subset hk)

/-! ### Without signals, and with signals while the handler is attached -/

/-- C68. Without signals the program is that of C50, C51 and C59. -/
theorem C68_without_signals (E : Environment) (C : SystemCalls) (S : Signals) (hS : ∀ pt, S.count pt = 0) (args : List (List Nat)) (W W' : World) (x : ExitM)
    (h : mHmacsum { E with arrival := .never } C args W = .ok (x, W')) : ∃ q, sHmacsum E C S args W = .ok (.exited x q) ∧ q.world = W' := by
  rw [← sHmacsum_none (S := S) hS] at h
  obtain ⟨f, e, h⟩ := Res.bind_eq_ok h
  cases f with
  | exited y q =>
    cases h
    exact ⟨q, e, rfl⟩
  | killed q => cases h

/-- C68. If the handler can be attached and stays attached when it runs, signals that arrive only between attaching and detaching it do not kill the program. -/
theorem C68_not_killed (E : Environment) (C : SystemCalls) (S : Signals) (hr : S.resets = false) (hat : C.attach = true)
    (hS : ∀ pt, 0 < S.count pt → pt = .opening ∨ (∃ n, pt = .read n) ∨ pt = .processed ∨ (∃ n, pt = .printing n) ∨ pt = .closing) (args : List (List Nat)) (W : World) (f : Fate)
    (h : sHmacsum E C S args W = .ok f) : ∃ x q, f = .exited x q := by
  refine sHmacsum_alive hr (fun pt hp => ?_) hat h
  by_contra hn
  rcases hS pt (by omega) with rfl | ⟨n, rfl⟩ | rfl | ⟨n, rfl⟩ | rfl <;> cases hp

/-- C68. Such signals end the program with a failure, in order: if there is one while the file is opened, or before or after a read that is made (the j-th read is made if the reads before it cannot have delivered the
file), or after the last read, or before the file is closed, then the program exits, with exit status failure, and the last line of standard output is "ABORTED" or standard error tells a
reason. -/
theorem C68_interrupted (E : Environment) (C : SystemCalls) (S : Signals) (hE : StartOk E C) (hr : S.resets = false) (hat : C.attach = true)
    (hS : ∀ pt, 0 < S.count pt → pt = .opening ∨ (∃ n, pt = .read n) ∨ pt = .processed ∨ (∃ n, pt = .printing n) ∨ pt = .closing) (program : List Nat) (groups : List OptGroup) (source : List Nat)
    (rest : List (List Nat)) (hl : SourceLine groups source) (W : World)
    (hsig : 0 < S.count .opening ∨ 0 < S.count (.read 0) ∨ 0 < S.count .processed ∨ 0 < S.count (.printing 0) ∨ 0 < S.count .closing ∨
      ∃ j inp size m, 0 < S.count (.read (j + 1)) ∧ BufferSizeIs E.dp (lastArgument 112 (optionsOf groups)) m ∧ E.files source = some inp ∧ inp.size = some size ∧ j * m < size) :
    ∃ x q, sHmacsum E C S (commandLine program groups (source :: rest)) W = .ok (.exited x q) ∧ x.exit.status = false ∧
      (x.exit.out.getLast? = some .aborted ∨ ∃ m ∈ x.err, m.isWarning = false) := by
  have hz : ∀ pt : Point, pt.guarded = false → S.count pt = 0 := fun pt hp => by
    by_contra hn
    rcases hS pt (by omega) with rfl | ⟨n, rfl⟩ | rfl | ⟨n, rfl⟩ | rfl <;> cases hp
  obtain ⟨arg, hp⟩ := mParse_of (parse_source E.mc program groups source rest hl)
  obtain ⟨f, e⟩ := sHmacsum_parsed (S := S) (C := C) hE.tool hE.dp ⟨hz _ rfl, .inr (hz _ rfl)⟩ hp W
  obtain ⟨x, q, rfl⟩ := C68_not_killed E C S hr hat hS _ W f e
  have hx : x.exit.status = false := by
    by_contra hx
    obtain ⟨inp, lines, size, hf, hs, -, hu, hsz⟩ := C68_undisturbed E C S hE.tool hE.dp program groups source rest hl W x q e (by simpa using hx)
    rcases hsig with h | h | h | h | h | ⟨j, inp', size', m, h, h1, h2, h3, h4⟩
    · have := hu.opening; omega
    · have := hu.reading 0 (by omega); omega
    · have := hu.processed; omega
    · have := hu.printing 0 (by omega); omega
    · have := hu.ending.1; omega
    · rw [hf] at h2
      cases h2
      rw [hs] at h3
      cases h3
      have := hsz m h1
      have := hu.reading (j + 1) (by
        by_contra hn
        have : q.reads * m ≤ j * m := Nat.mul_le_mul_right _ (by omega)
        omega)
      omega
  obtain ⟨a, ha⟩ := C68_outcome E C S _ W x q e
  refine ⟨x, q, e, hx, ?_⟩
  rcases (C59_explained { E with arrival := a } C _ W q.world x ha).2 hx with ⟨ws, m, h1, -, h3⟩ | ⟨-, h2, -⟩
  · exact .inr ⟨m, by rw [h1]; simp, h3⟩
  · exact .inl h2

/-! ### Undefined behaviour -/

/-- C68, as a user would want it: no undefined behaviour, whenever signals arrive. (Command lines without an argument "-", see C51.) -/
def C68Statement : Prop := ∀ (E : Environment) (C : SystemCalls) (S : Signals), E.tool.Ok → E.dp ≠ some 0 → ∀ bodies : List (List Nat), bodies ≠ [] → (∀ b ∈ bodies, 0 ∉ b) → (∀ b ∈ bodies.drop 1, b ≠ [45]) → ∀ W,
  ∃ f, sHmacsum E C S (argVector bodies) W = .ok f

/-- Signals at some points. -/
def signalsAt (pts : List Point) : Signals := ⟨fun x => pts.countP fun pt => match pt, x with
  | .begin, .begin | .parsing, .parsing | .told, .told | .create, .create | .configured, .configured | .opening, .opening | .processed, .processed | .closing, .closing | .detached, .detached
  | .freeing, .freeing | .ending, .ending | .last, .last | .failing, .failing | .releasing, .releasing | .failed, .failed => true
  | .read m, .read n | .printing m, .printing n => m = n
  | _, _ => false, false⟩

/-- The file cannot be opened; the program frees the handle with the signal handler attached, and a signal arrives before the pointer to the handle is cleared: the handler writes to freed memory. -/
theorem C68_use_after_free : sHmacsum env1 sysCalls1 (signalsAt [.releasing]) (argVector [codes "hmacsum", codes "absent"]) world0 = .ub := rfl

/-- The same on the way of an aborted program if the handler cannot be detached. -/
theorem C68_use_after_free_detach : sHmacsum env1 { sysCalls1 with detach := false } (signalsAt [.opening, .freeing]) (argVector [codes "hmacsum", codes "absent"]) world0 = .ub := rfl

theorem C68_statement_false : ¬ C68Statement := by
  intro h
  obtain ⟨f, e⟩ := h env1 sysCalls1 (signalsAt [.releasing]) tool0_ok (by decide) [codes "hmacsum", codes "absent"] (by simp) (by decide) (by decide) world0
  rw [C68_use_after_free] at e
  cases e

/-- What holds: no undefined behaviour if no signal arrives between the release of the handle and the clearing of the pointer to it: on the way of a failed program, and, if the handler cannot be detached, on the other
way. Missing: these two stretches. -/
theorem C68_safe_partial (E : Environment) (C : SystemCalls) (S : Signals) (hT : E.tool.Ok) (hdp : E.dp ≠ some 0) (hrel : S.count .releasing = 0) (hfree : C.detach = true ∨ S.count .freeing = 0)
    (bodies : List (List Nat)) (hne : bodies ≠ []) (h0 : ∀ b ∈ bodies, 0 ∉ b) (hdash : ∀ b ∈ bodies.drop 1, b ≠ [45]) (W : World) : ∃ f, sHmacsum E C S (argVector bodies) W = .ok f :=
  sHmacsum_safe hT hdp ⟨hrel, hfree⟩ bodies hne h0 hdash W

/-- Two signals at every other moment, with a handler that is reset. -/
example := C68_safe_partial env1 sysCalls1 ⟨fun pt => match pt with | .releasing => 0 | _ => 2, true⟩ tool0_ok (by decide) rfl (.inl rfl) [codes "hmacsum", codes "-dsha1", codes "file"] (by simp) (by decide) (by decide) world0

/-! ### When a signal is seen -/

/-- C68. If the handler could not be attached, no signal is handled: one that arrives kills the program. -/
theorem C68_unattached (E : Environment) (C : SystemCalls) (S : Signals) (ha : C.attach = false) (args : List (List Nat)) (W : World) (f : Fate) (h : sHmacsum E C S args W = .ok f) : (finalState f).handled = 0 := by
  have := sHmacsum_unattached ha h
  cases f <;> exact this

/-- A signal while reading kills the program if the handler could not be attached. -/
example : ∃ q, sHmacsum { env1 with files := fun _ => some { input0 with size := none } } { sysCalls1 with attach := false } (signalsAt [.read 0]) (argVector [codes "hmacsum", codes "file"]) world0 = .ok (.killed q) ∧
    q.err = [.attach] ∧ q.handled = 0 := ⟨_, rfl, rfl, rfl⟩

/-- C68. A signal that arrives while the n-th read is made is seen right after it, or before: if the program exits, it made no further read. One that arrives before the first read is seen after the first read. -/
theorem C68_prompt (E : Environment) (C : SystemCalls) (S : Signals) (n : Nat) (hn : 0 < S.count (.read n)) (args : List (List Nat)) (W : World) (x : ExitM) (q : Proc)
    (h : sHmacsum E C S args W = .ok (.exited x q)) : q.reads ≤ max n 1 := sHmacsum_prompt hn h

/-! ### The error object -/

/-- C68, as a user would want it: the error object of a failed call is released before the program exits. -/
def C68ErrorStatement : Prop := ∀ (E : Environment) (C : SystemCalls) (S : Signals) (args : List (List Nat)) (W : World) (x : ExitM) (q : Proc), sHmacsum E C S args W = .ok (.exited x q) → q.error = false

/-- What holds: it is, unless the program was aborted. Missing: opening or processing the file fails and a signal was handled. -/
theorem C68_error_partial (E : Environment) (C : SystemCalls) (S : Signals) (args : List (List Nat)) (W : World) (x : ExitM) (q : Proc) (h : sHmacsum E C S args W = .ok (.exited x q)) (he : q.error = true) :
    x.exit.status = false ∧ x.exit.out.getLast? = some .aborted ∧ 0 < q.handled := by
  obtain ⟨a, -, h1, h2, h3⟩ := sHmacsum_agrees h
  obtain ⟨ho, hx, ha⟩ := h1.2.2 he
  exact ⟨hx, ho, (C68_standard_input E C S args W _ h).2.mp ha⟩

/-- The file cannot be opened and a signal was handled: the program ends without releasing the error object. -/
theorem C68_error_left : ∃ x q, sHmacsum env1 sysCalls1 (signalsAt [.opening]) (argVector [codes "hmacsum", codes "absent"]) world0 = .ok (.exited x q) ∧ x.exit = ⟨false, [.version, .aborted]⟩ ∧ x.err = [] ∧
    q.error = true := ⟨_, _, rfl, rfl, rfl, rfl⟩

/-- So it does if the file cannot be processed. -/
theorem C68_error_left_processing : ∃ x q, sHmacsum { env1 with files := fun _ => some { input0 with size := none } } sysCalls1 (signalsAt [.processed]) (argVector [codes "hmacsum", codes "file"]) world0 =
    .ok (.exited x q) ∧ x.exit = ⟨false, [.version, .aborted]⟩ ∧ x.err = [] ∧ q.error = true := ⟨_, _, rfl, rfl, rfl, rfl⟩

theorem C68_error_statement_false : ¬ C68ErrorStatement := by
  intro h
  obtain ⟨x, q, e, -, -, he⟩ := C68_error_left
  rw [h _ _ _ _ _ x q e] at he
  cases he

/-! ### Examples -/

/-- The hypotheses of `C68_success` and `C68_undisturbed` are met: a file of 100000 bytes, no signals. -/
theorem quiet1 : ∃ x q, sHmacsum env1 sysCalls1 (signalsAt []) (commandLine (codes "hmacsum") groups0 [codes "file"]) world0 = .ok (.exited x q) ∧ x.exit.status = true := by
  have hlen : input0.content.length = 100000 := List.length_replicate
  obtain ⟨lines, W', e, -⟩ := C59_silent env1 sysCalls1 start1 (codes "hmacsum") groups0 (codes "file") [] line1 world0 input0 (by simp [env1]) (by rw [hlen]; rfl) (fun _ => ⟨1000, rfl, by decide⟩)
    (fun _ => rfl) ⟨rfl, rfl, rfl, rfl⟩ ⟨rfl, rfl⟩ rfl usual1 (fun k _ => by rw [hlen]; cases k <;> decide)
  obtain ⟨q, e, -⟩ := C68_without_signals env1 sysCalls1 (signalsAt []) (fun _ => rfl) _ world0 W' _ e
  exact ⟨_, q, e, rfl⟩

example := quiet1.imp fun x => Exists.imp fun q h => And.intro (C68_success env1 sysCalls1 _ _ world0 x q h.1 h.2) (C68_undisturbed env1 sysCalls1 _ tool0_ok (by decide) (codes "hmacsum") groups0 (codes "file") [] line1 world0 x q h.1 h.2)

/-- The hypotheses of `C68_prompt` are met: a signal while the third read of the file of 100000 bytes is made. The program is aborted after at most three reads. -/
example : ∃ x q, sHmacsum env1 sysCalls1 (signalsAt [.read 3]) (commandLine (codes "hmacsum") groups0 [codes "file"]) world0 = .ok (.exited x q) ∧ q.reads ≤ 3 := by
  obtain ⟨arg, hp⟩ := mParse_of (parse_source env1.mc (codes "hmacsum") groups0 (codes "file") [] line1)
  obtain ⟨f, e⟩ := sHmacsum_parsed (S := signalsAt [.read 3]) (C := sysCalls1) start1.tool start1.dp ⟨rfl, .inr rfl⟩ hp world0
  obtain ⟨x, q, rfl⟩ := C68_not_killed env1 sysCalls1 (signalsAt [.read 3]) rfl rfl (fun pt h => by
    cases pt <;> first | (exact .inr (.inl ⟨_, rfl⟩)) | (exact .inr (.inr (.inr (.inl ⟨_, rfl⟩)))) | (exact absurd h (by decide))) _ world0 f e
  exact ⟨x, q, e, C68_prompt _ _ _ 3 (by decide) _ _ x q e⟩

/-- Two signals after the first read and one after the second line: the program exits and tells it. -/
example := C68_interrupted env1 sysCalls1 (signalsAt [.read 1, .read 1, .read 0, .printing 2]) start1 rfl rfl (fun pt h => by
  cases pt <;> first | (exact .inl rfl) | (exact .inr (.inl ⟨_, rfl⟩)) | (exact .inr (.inr (.inl rfl))) | (exact .inr (.inr (.inr (.inl ⟨_, rfl⟩)))) | (exact .inr (.inr (.inr (.inr rfl)))) | (exact absurd h (by decide)))
  (codes "hmacsum") groups0 (codes "file") [] line1 world0 (.inr (.inl (by decide)))

/-- The command line "hmacsum -p4096 file". -/
theorem lineP : SourceLine [⟨[], some (112, codes "4096", true)⟩] (codes "file") :=
  ⟨fun g hg => by cases List.mem_singleton.mp hg; exact ⟨by decide, by decide, fun o v a h => by cases h; decide⟩, by decide, by decide, by decide⟩

/-- The same with the option -p4096 and a signal while the 24th read of the file of 100000 bytes is made. -/
example := C68_interrupted env1 sysCalls1 (signalsAt [.read 24]) start1 rfl rfl (fun pt h => by
  cases pt <;> first | (exact .inl rfl) | (exact .inr (.inl ⟨_, rfl⟩)) | (exact .inr (.inr (.inl rfl))) | (exact .inr (.inr (.inr (.inl ⟨_, rfl⟩)))) | (exact .inr (.inr (.inr (.inr rfl)))) | (exact absurd h (by decide)))
  (codes "hmacsum") [⟨[], some (112, codes "4096", true)⟩] (codes "file") [] lineP world0
  (.inr (.inr (.inr (.inr (.inr ⟨23, input0, 100000, 4096, by decide, .inr ⟨46, [4, 0, 9, 6], false, 0, false, .none, rfl, by decide, rfl, by decide, by decide, rfl⟩, by simp [env1], rfl, by decide⟩)))))

/-- A signal before the handler is attached kills the program after the version line. -/
example : ∃ q, sHmacsum env1 sysCalls1 (signalsAt [.create]) (argVector [codes "hmacsum", codes "file"]) world0 = .ok (.killed q) ∧ q.out = [.version] ∧ q.attached = false := ⟨_, rfl, rfl, rfl⟩

/-- C68_outcome on a run without signals. -/
example : ∃ (x : ExitM) (q : Proc) (a : _), mHmacsum { env1 with arrival := a } sysCalls1 (commandLine (codes "hmacsum") groups0 [codes "file"]) world0 = .ok (x, q.world) := by
  obtain ⟨x, q, h, -⟩ := quiet1
  obtain ⟨a, e⟩ := C68_outcome _ _ _ _ _ _ _ h
  exact ⟨x, q, a, e⟩

/-- C68_killed and C68_standard_input: a signal before the handler is attached kills the program, and standard input stays open. -/
example : ∃ q, sHmacsum env1 sysCalls1 (signalsAt [.create]) (argVector [codes "hmacsum", codes "file"]) world0 = .ok (.killed q) ∧ (q.stdin = false ↔ 0 < q.handled) ∧
    ∃ a, ∀ x W', mHmacsum { env1 with arrival := a } sysCalls1 (argVector [codes "hmacsum", codes "file"]) world0 = .ok (x, W') → q.out <+: x.exit.out ∧ q.err <+: x.err := by
  have h : ∃ q, sHmacsum env1 sysCalls1 (signalsAt [.create]) (argVector [codes "hmacsum", codes "file"]) world0 = .ok (.killed q) := ⟨_, rfl⟩
  obtain ⟨q, h⟩ := h
  exact ⟨q, h, (C68_standard_input _ _ _ _ _ _ h).1, (C68_killed _ _ _ _ _ _ h).2⟩

/-- C68_without_signals: a run without signals that cannot open its source. -/
example : ∃ x q, sHmacsum env1 sysCalls1 (signalsAt []) (commandLine (codes "hmacsum") groups0 [codes "nofile"]) world0 = .ok (.exited x q) ∧ x.err = [.openInput] := by
  obtain ⟨W', h⟩ := C59_cannot_open env1 sysCalls1 start1 (codes "hmacsum") groups0 (codes "nofile") [] ⟨groups0_ok, by decide, by decide, by decide⟩ world0 (by simp only [env1]; decide) (fun _ => rfl) ⟨rfl, rfl, rfl, rfl⟩
    ⟨rfl, rfl⟩ rfl usual1
  obtain ⟨q, e, -⟩ := C68_without_signals env1 sysCalls1 (signalsAt []) (fun _ => rfl) _ _ W' _ h
  exact ⟨_, q, e, rfl⟩

/-- C68_error_partial: the error object that is left was left by an aborted program. -/
example : ∃ x q, sHmacsum env1 sysCalls1 (signalsAt [.opening]) (argVector [codes "hmacsum", codes "absent"]) world0 = .ok (.exited x q) ∧ q.error = true ∧ 0 < q.handled := by
  have h : ∃ x q, sHmacsum env1 sysCalls1 (signalsAt [.opening]) (argVector [codes "hmacsum", codes "absent"]) world0 = .ok (.exited x q) ∧ q.error = true := ⟨_, _, rfl, rfl⟩
  obtain ⟨x, q, h, he⟩ := h
  exact ⟨x, q, h, he, (C68_error_partial _ _ _ _ _ x q h he).2.2⟩

/-- C68_no_wrong_digest with a signal while the second line is printed. -/
example (f : Fate) (k : Kind) (text : List Nat) (hk : Line.digest k text ∈ printed f) (h : sHmacsum env1 sysCalls1 (signalsAt [.printing 1]) (commandLine (codes "hmacsum") groups0 [codes "file"]) world0 = .ok f) :=
  C68_no_wrong_digest env1 sysCalls1 (signalsAt [.printing 1]) start1 (codes "hmacsum") groups0 (codes "file") [] line1 world0 f h k text hk

end Props
