import Verif.Props.HostBackend
import Verif.Props.BuildsSignal
/-! C91: the messages of hmacsum in every build, on hosts whose `size_t` has another number of bits. -/

namespace Props

open Model Spec

variable {hb : Nat} {ch : Kind → Choice} {L : Kind → Library}

/-- The limit of a build, and what fits. -/
theorem mixedHost_fit (h2 : hb ≤ 64) (E : Environment) (size : Option (List Nat)) : ∃ limit, (∀ k B, ch k = .crypto B → limit ≤ B.maxUpdate) ∧
    ∀ inp sz n, inp.size = some sz → ¬ LibraryFails ch L E.dp size inp → n ≤ (Contexts.mixedHost hb ch L E.tool).sizeMax → (∀ m, 32768 ≤ m → m < 2 ^ 64 → UsualSize m E.dp size → n ≤ m) →
      (∀ k, ch k ≠ .builtin → Reliable (L k)) ∧ (n ≤ limit ∨ sz ≤ limit) := by
  have rel : ∀ {inp}, ¬ LibraryFails ch L E.dp size inp → ∀ k, ch k ≠ .builtin → Reliable (L k) := fun h k hk => by
    by_contra hr
    exact h (.inl ⟨k, hk, hr⟩)
  have ssize : (Contexts.mixedHost hb ch L E.tool).sizeMax ≤ ssizeMax := Nat.sub_le_sub_right (Nat.pow_le_pow_right (by decide) (by show hb - 1 ≤ 63; omega)) 1
  by_cases hd : ∃ k, ch k = .crypto (.direct true)
  · refine ⟨2 ^ 32 - 1, fun _ B _ => limit_small B, fun inp sz n hsz hf hn hm => ⟨rel hf, ?_⟩⟩
    by_cases hu : UsualSize (2 ^ 32 - 1) E.dp size
    · exact .inl (hm _ (by decide) (by decide) hu)
    · right
      by_contra hgt
      exact hf (.inr ⟨hd, hu, sz, hsz, by omega⟩)
  · refine ⟨ssizeMax, fun k B hk => ?_, fun inp sz n hsz hf hn hm => ⟨rel hf, .inl (Nat.le_trans hn ssize)⟩⟩
    rcases B with (_ | _) | _ | _
    · exact Nat.le_refl _
    · exact absurd ⟨k, hk⟩ hd
    · exact Nat.le_refl _
    · exact Nat.le_refl _

/-- C91. In every build, on a host whose `size_t` has 17 to 64 bits with crypto libraries that are correct if their calls succeed, every message has its reason, for every command line with a source: for all environments and failures. -/
theorem C91_causes (E : Environment) (hT : E.tool.Ok) (hdp : E.dp ≠ some 0) (S : SystemCalls) (hL : Correct ch L) (h1 : 17 ≤ hb) (h2 : hb ≤ 64) (program : List Nat) (groups : List OptGroup) (source : List Nat) (rest : List (List Nat))
    (hl : SourceLine groups source) (W W' : WorldOf (MixedMem L)) (x : ExitM) (h : Builds.mHmacsum E (.mixedHost hb ch L E.tool) S (commandLine program groups (source :: rest)) W = .ok (x, W')) :
    ∀ m ∈ x.err, BuildCause E S (2 ^ (hb - 1) - 1) (LibraryFails ch L E.dp (lastArgument 112 (optionsOf groups))) (lastArgument 100 (optionsOf groups)) (lastArgument 112 (optionsOf groups)) source m := by
  obtain ⟨limit, hlim, hfit⟩ := mixedHost_fit (ch := ch) (L := L) h2 E (lastArgument 112 (optionsOf groups))
  obtain ⟨Rep, law⟩ := hL.hostLaw (E := E) h1 h2 hT limit hlim W.mem
  exact builds_causes hT law hdp program groups source rest hl (builds_start W) hfit h

/-- C91. In every build, on a host whose `size_t` has 17 to 64 bits: if nothing fails, the program succeeds without any message. With sizes of 32 bits passed to the library, the file has less than 4 GiB or the buffer does. -/
theorem C91_silent (E : Environment) (S : SystemCalls) (hE : StartOk E S) (hL : Correct ch L) (h1 : 17 ≤ hb) (h2 : hb ≤ 64) (hrel : ∀ k, ch k ≠ .builtin → Reliable (L k)) (program : List Nat) (groups : List OptGroup) (source : List Nat)
    (rest : List (List Nat)) (hl : SourceLine groups source) (W : WorldOf (MixedMem L))
    (inp : Input) (hfile : E.files source = some inp) (hsize : inp.size = some inp.content.length) (hreads : ∀ i, ∃ c, inp.reads i = some c ∧ 0 < c)
    (halloc : ∀ n, E.tool.alloc n = true) (hcalls : E.closeOk = true ∧ E.freeOk = true ∧ E.splitOk = true ∧ E.splitFreeOk = true) (hsig : S.attach = true ∧ S.detach = true) (harr : E.arrival = .never)
    (hbuf : UsualSize (2 ^ (hb - 1) - 1) E.dp (lastArgument 112 (optionsOf groups)))
    (hfit : (∀ k, ch k ≠ .crypto (.direct true)) ∨ UsualSize (2 ^ 32 - 1) E.dp (lastArgument 112 (optionsOf groups)) ∨ inp.content.length < 2 ^ 32) (hlen : inp.content.length < 2 ^ 61) :
    ∃ lines W', Builds.mHmacsum E (.mixedHost hb ch L E.tool) S (commandLine program groups (source :: rest)) W = .ok (⟨⟨true, .version :: lines⟩, []⟩, W') ∧
      DigestLines (lastArgument 100 (optionsOf groups)) inp.content lines := by
  obtain ⟨x, W', e, hs⟩ := C85_success { E with outputOk := S.bufferOut && S.bufferErr } hE.envOk hL h1 h2 program groups source rest hl W
  rw [← Builds.mHmacsum_erase] at e
  obtain ⟨err, e⟩ := Builds.of_erase e
  have hc := C91_causes E hE.tool hE.dp S hL h1 h2 program groups source rest hl W W' _ e
  have hba : BufferArgument E.dp (lastArgument 112 (optionsOf groups)) := hbuf.argument (sizeMax_64 (C := .mixedHost hb ch L E.tool) h2)
  obtain ⟨hx, herr⟩ := builds_quiet e hc (fun m hm => by
    cases m with
    | processInput =>
      obtain ⟨inp', h1, h2⟩ := hm
      rw [hfile] at h1
      cases h1
      rcases h2 with h2 | ⟨n, h2, h3⟩ | ⟨i, h2⟩ | ⟨n, h2⟩ | h2 | ⟨k, h2, h3⟩ | ⟨⟨k, h2⟩, h3, n, h4, h5⟩
      · rw [hsize] at h2; cases h2
      · rw [hsize] at h2; cases h2; omega
      · obtain ⟨c, h3, h4⟩ := hreads i
        have := h2 c h3
        omega
      · rw [halloc] at h2; cases h2
      · exact absurd hba h2
      · exact h3 (hrel k h2)
      · rw [hsize] at h4
        cases h4
        rcases hfit with h | h | h
        · exact h k h2
        · exact h3 h
        · omega
    | bufferSize => exact absurd hba hm
    | bufferSizeDefault => exact absurd hbuf hm
    | _ => simp_all [BuildCause, hE.locale, hE.out, hE.err]) harr
  simp only at hx herr
  subst herr
  obtain ⟨lines, inp', size, hout, -, h1, h2, -, hd⟩ := hs hx
  rw [show E.files source = some inp' from h1] at hfile
  cases hfile
  rw [h2] at hsize
  cases hsize
  have hd := hd hlen
  rw [List.take_length] at hd
  refine ⟨lines, W', ?_, hd⟩
  rw [e]
  obtain ⟨st, o⟩ := x
  simp only at hx hout
  subst hx hout
  rfl

/-- C91. In every build, on a host whose `size_t` has 17 to 64 bits: if the program fails on a command line with a source, and only one message has its reason, then this message is printed and no other; unless a signal arrived. -/
theorem C91_named (E : Environment) (hT : E.tool.Ok) (hdp : E.dp ≠ some 0) (S : SystemCalls) (hL : Correct ch L) (h1 : 17 ≤ hb) (h2 : hb ≤ 64) (program : List Nat) (groups : List OptGroup) (source : List Nat) (rest : List (List Nat))
    (hl : SourceLine groups source) (W W' : WorldOf (MixedMem L)) (x : ExitM) (h : Builds.mHmacsum E (.mixedHost hb ch L E.tool) S (commandLine program groups (source :: rest)) W = .ok (x, W'))
    (hx : x.exit.status = false) (harr : E.arrival = .never) (m : Message)
    (hm : ∀ m', BuildCause E S (2 ^ (hb - 1) - 1) (LibraryFails ch L E.dp (lastArgument 112 (optionsOf groups))) (lastArgument 100 (optionsOf groups)) (lastArgument 112 (optionsOf groups)) source m' → m' = m) :
    x.err = [m] ∧ m.isWarning = false :=
  builds_named h (C91_causes E hT hdp S hL h1 h2 program groups source rest hl W W' x h) hx harr m hm

/-- C91. In every build, on a host whose `size_t` has 17 to 64 bits, with nothing else failing: when the digests are not printed although the file could be opened, it is said that the input could not be processed. This is how a failure of a crypto library shows. -/
theorem C91_library_failure (E : Environment) (S : SystemCalls) (hE : StartOk E S) (hL : Correct ch L) (h1 : 17 ≤ hb) (h2 : hb ≤ 64) (program : List Nat) (groups : List OptGroup) (source : List Nat) (rest : List (List Nat))
    (hl : SourceLine groups source) (W : WorldOf (MixedMem L)) (hfile : E.files source ≠ none) (halloc : ∀ n, E.tool.alloc n = true)
    (hcalls : E.closeOk = true ∧ E.freeOk = true ∧ E.splitOk = true ∧ E.splitFreeOk = true) (hsig : S.attach = true ∧ S.detach = true) (harr : E.arrival = .never)
    (hbuf : UsualSize (2 ^ (hb - 1) - 1) E.dp (lastArgument 112 (optionsOf groups))) :
    ∃ x W', Builds.mHmacsum E (.mixedHost hb ch L E.tool) S (commandLine program groups (source :: rest)) W = .ok (x, W') ∧ (x.exit.status = true ∧ x.err = [] ∨ x.exit.status = false ∧ x.err = [.processInput]) := by
  obtain ⟨x, W', e, -⟩ := C85_success { E with outputOk := S.bufferOut && S.bufferErr } hE.envOk hL h1 h2 program groups source rest hl W
  rw [← Builds.mHmacsum_erase] at e
  obtain ⟨err, e⟩ := Builds.of_erase e
  have hc := C91_causes E hE.tool hE.dp S hL h1 h2 program groups source rest hl W W' _ e
  have hba : BufferArgument E.dp (lastArgument 112 (optionsOf groups)) := hbuf.argument (sizeMax_64 (C := .mixedHost hb ch L E.tool) h2)
  have only : ∀ m, BuildCause E S (2 ^ (hb - 1) - 1) (LibraryFails ch L E.dp (lastArgument 112 (optionsOf groups))) (lastArgument 100 (optionsOf groups)) (lastArgument 112 (optionsOf groups)) source m → m = .processInput := fun m hm => by
    cases m with
    | processInput => rfl
    | bufferSize => exact absurd hba hm
    | bufferSizeDefault => exact absurd hbuf hm
    | openInput => exact absurd hm hfile
    | _ => simp_all [BuildCause, hE.locale, hE.out, hE.err]
  refine ⟨_, W', e, ?_⟩
  cases hx : x.status with
  | false => exact .inr ⟨rfl, (builds_named e hc hx harr .processInput only).1⟩
  | true =>
    refine .inl ⟨rfl, ?_⟩
    have hw := (C78_explained E _ S _ W W' _ e).1 hx
    refine List.eq_nil_iff_forall_not_mem.mpr fun m hm => ?_
    have h1 := hw m hm
    rw [only m (hc m hm)] at h1
    cases h1

/-- C91. In every build, on a host whose `size_t` has 17 to 64 bits: a source that cannot be opened, with nothing else failing and without a signal: this is what is told. -/
theorem C91_cannot_open (E : Environment) (S : SystemCalls) (hE : StartOk E S) (hL : Correct ch L) (h1 : 17 ≤ hb) (h2 : hb ≤ 64) (program : List Nat) (groups : List OptGroup) (source : List Nat) (rest : List (List Nat)) (hl : SourceLine groups source)
    (W : WorldOf (MixedMem L)) (hfile : E.files source = none) (halloc : ∀ n, E.tool.alloc n = true) (hcalls : E.closeOk = true ∧ E.freeOk = true ∧ E.splitOk = true ∧ E.splitFreeOk = true)
    (hsig : S.attach = true ∧ S.detach = true) (harr : E.arrival = .never) (hbuf : UsualSize (2 ^ (hb - 1) - 1) E.dp (lastArgument 112 (optionsOf groups))) :
    ∃ W', Builds.mHmacsum E (.mixedHost hb ch L E.tool) S (commandLine program groups (source :: rest)) W = .ok (⟨⟨false, [.version]⟩, [.openInput]⟩, W') := by
  obtain ⟨Rep, law⟩ := hL.hostLaw (E := E) h1 h2 hE.tool _ (fun _ B _ => limit_small B) W.mem
  obtain ⟨err, W', e⟩ := builds_missing_file hE law program groups source rest hl W (builds_start W) hfile harr
  have hba : BufferArgument E.dp (lastArgument 112 (optionsOf groups)) := hbuf.argument (sizeMax_64 (C := .mixedHost hb ch L E.tool) h2)
  have := (C91_named E hE.tool hE.dp S hL h1 h2 program groups source rest hl W W' _ e rfl harr .openInput (fun m hm => by
    cases m with
    | bufferSize => exact absurd hba hm
    | bufferSizeDefault => exact absurd hbuf hm
    | openInput => rfl
    | _ => simp_all [BuildCause, hE.locale, hE.out, hE.err])).1
  simp only at this
  subst this
  exact ⟨W', e⟩

/-- C91. In every build, on a host whose `size_t` has 17 to 64 bits: success with exactly the warnings that are due: the replaced buffer size, the signal handler that could not be attached or detached, in this order. -/
theorem C91_warned (E : Environment) (hT : E.tool.Ok) (hdp : E.dp ≠ some 0) (S : SystemCalls) (hL : Correct ch L) (h1 : 17 ≤ hb) (h2 : hb ≤ 64) (program : List Nat) (groups : List OptGroup) (source : List Nat) (rest : List (List Nat))
    (hl : SourceLine groups source) (W W' : WorldOf (MixedMem L)) (x : ExitM) (h : Builds.mHmacsum E (.mixedHost hb ch L E.tool) S (commandLine program groups (source :: rest)) W = .ok (x, W')) (hx : x.exit.status = true) :
    ∃ b, x.err = b ++ (if S.attach then [] else [.attach]) ++ (if S.detach then [] else [.detach]) ∧ (b = [] ∨ b = [.bufferSizeDefault]) ∧
      (TooLargeSize (2 ^ (hb - 1) - 1) E.dp (lastArgument 112 (optionsOf groups)) → b = [.bufferSizeDefault]) ∧ (UsualSize (2 ^ (hb - 1) - 1) E.dp (lastArgument 112 (optionsOf groups)) → b = []) := by
  obtain ⟨Rep, law⟩ := hL.hostLaw (E := E) h1 h2 hT _ (fun _ B _ => limit_small B) W.mem
  exact builds_warned law.width hT law hdp program groups source rest hl (builds_start W) h hx

/-- C81 in every build, on hosts whose `size_t` has 17 to 64 bits: no undefined behaviour if no signal arrives between the release of the handle and the clearing of the pointer to it. Missing: these two stretches, as in
`C81_safe_partial`. -/
theorem C81_safe_build_host_partial (h1 : 17 ≤ hb) (h2 : hb ≤ 64) (E : Environment) (Y : SystemCalls) (S : Signals) (hT : E.tool.Ok) (hdp : E.dp ≠ some 0) (hL : Correct ch L) (hrel : S.count .releasing = 0)
    (hfree : Y.detach = true ∨ S.count .freeing = 0) (bodies : List (List Nat)) (hne : bodies ≠ []) (h0 : ∀ b ∈ bodies, 0 ∉ b) (hdash : ∀ b ∈ bodies.drop 1, b ≠ [45]) (W : WorldOf (MixedMem L)) :
    ∃ f, Builds.sHmacsum E (.mixedHost hb ch L E.tool) Y S (argVector bodies) W = .ok f := by
  obtain ⟨Rep, law⟩ := hL.hostLaw (E := E) h1 h2 hT _ (fun _ B _ => limit_small B) W.mem
  exact Builds.sHmacsum_safe hT law hdp ⟨hrel, hfree⟩ bodies hne h0 hdash W (builds_start W)

/-! ### Examples -/

example (x : ExitM) (W' : WorldOf (MixedMem failingLibrary)) (h : Builds.mHmacsum env1 (.mixedHost 32 choice0 failingLibrary env1.tool) sysCalls1 (commandLine (codes "hmacsum") groups0 [codes "file"]) (mixed0 _) = .ok (x, W')) :=
  C91_causes env1 tool0_ok (by decide) sysCalls1 failing_correct (by decide) (by decide) (codes "hmacsum") groups0 (codes "file") [] line1 (mixed0 _) W' x h

/-- Nothing fails on a host of 32 bits. -/
example : ∃ lines W', Builds.mHmacsum env1 (.mixedHost 32 choice0 exactLibrary env1.tool) sysCalls1 (commandLine (codes "hmacsum") groups0 [codes "file"]) (mixed0 _) = .ok (⟨⟨true, .version :: lines⟩, []⟩, W') ∧
    DigestLines (some (codes "sha1")) input0.content lines := by
  have hlen : input0.content.length = 100000 := List.length_replicate
  exact C91_silent env1 sysCalls1 start1 exact_correct (by decide) (by decide) (fun k _ => exact_reliable k) (codes "hmacsum") groups0 (codes "file") [] line1 (mixed0 _) input0 (by simp [env1]) (by rw [hlen]; rfl)
    (fun _ => ⟨1000, rfl, by decide⟩) (fun _ => rfl) ⟨rfl, rfl, rfl, rfl⟩ ⟨rfl, rfl⟩ rfl (usualSize1 _ (by decide)) (.inr (.inl (usualSize1 _ (by decide)))) (by rw [hlen]; decide)

example := C91_library_failure (hb := 20) env1 sysCalls1 start1 failing_correct (by decide) (by decide) (codes "hmacsum") [] (codes "file") [] ⟨by simp, by decide, by decide, by decide⟩ (mixed0 _) (by simp [env1]) (fun _ => rfl)
  ⟨rfl, rfl, rfl, rfl⟩ ⟨rfl, rfl⟩ rfl (fun s hs => by cases hs)

/-- C91_cannot_open: the source is not there, on a host of 32 bits. -/
example : ∃ W', Builds.mHmacsum env1 (.mixedHost 32 choice0 failingLibrary env1.tool) sysCalls1 (commandLine (codes "hmacsum") groups0 [codes "nofile"]) (mixed0 _) = .ok (⟨⟨false, [.version]⟩, [.openInput]⟩, W') :=
  C91_cannot_open env1 sysCalls1 start1 failing_correct (by decide) (by decide) (codes "hmacsum") groups0 (codes "nofile") [] ⟨groups0_ok, by decide, by decide, by decide⟩ (mixed0 _) (by decide) (fun _ => rfl)
    ⟨rfl, rfl, rfl, rfl⟩ ⟨rfl, rfl⟩ rfl (usualSize1 _ (by decide))

/-- C91_warned: 1 MiB is too large on a host whose `size_t` has 20 bits, and usual on one of 32. -/
example (hb : Nat) (h1 : 17 ≤ hb) (h2 : hb ≤ 64) (x : ExitM) (W' : WorldOf (MixedMem failingLibrary))
    (h : Builds.mHmacsum env1 (.mixedHost hb choice0 failingLibrary env1.tool) ⟨true, true, false, false⟩ (commandLine (codes "hmacsum") groups0 [codes "file"]) (mixed0 _) = .ok (x, W')) (hx : x.exit.status = true) :
    (hb = 20 → x.err = [.bufferSizeDefault, .attach, .detach]) ∧ (hb = 32 → x.err = [.attach, .detach]) := by
  obtain ⟨b, e, -, k1, k2⟩ := C91_warned env1 tool0_ok (by decide) ⟨true, true, false, false⟩ failing_correct h1 h2 (codes "hmacsum") groups0 (codes "file") [] line1 (mixed0 _) W' x h hx
  refine ⟨fun h => ?_, fun h => ?_⟩ <;> subst h
  · rw [e, k1 ⟨codes "1M", 46, [1], false, 2, true, .none, by decide, rfl, by decide, by decide, by decide, by decide, by decide⟩]
    rfl
  · rw [e, k2 (usualSize1 _ (by decide))]
    rfl

example := C81_safe_build_host_partial (hb := 32) (by decide) (by decide) env1 sysCalls1 (signalsAt [.opening, .read 3, .printing 1]) tool0_ok (by decide) failing_correct rfl (.inl rfl) [codes "hmacsum", codes "file"]
  (by simp) (by decide) (by decide) (mixed0 _)

/-- C91_named: a source that is not there is the only reason to fail, and it is named. -/
example : ∃ x W', Builds.mHmacsum env1 (.mixedHost 32 choice0 failingLibrary env1.tool) sysCalls1 (commandLine (codes "hmacsum") groups0 [codes "nofile"]) (mixed0 _) = .ok (x, W') ∧ x.err = [.openInput] := by
  obtain ⟨W', h⟩ := C91_cannot_open (hb := 32) env1 sysCalls1 start1 failing_correct (by decide) (by decide) (codes "hmacsum") groups0 (codes "nofile") [] ⟨groups0_ok, by decide, by decide, by decide⟩ (mixed0 _) (by decide) (fun _ => rfl) ⟨rfl, rfl, rfl, rfl⟩
    ⟨rfl, rfl⟩ rfl (usualSize1 _ (by decide))
  refine ⟨_, W', h, (C91_named env1 tool0_ok (by decide) sysCalls1 failing_correct (by decide) (by decide) (codes "hmacsum") groups0 (codes "nofile") [] ⟨groups0_ok, by decide, by decide, by decide⟩ (mixed0 _) W' _ h rfl rfl .openInput fun m' hc => ?_).1⟩
  have hb : BufferArgument env1.dp (lastArgument 112 (optionsOf groups0)) ∧ UsualSize (2 ^ 31 - 1) env1.dp (lastArgument 112 (optionsOf groups0)) := ⟨(usualSize1 (2 ^ 31 - 1) (by decide)).argument (by decide), usualSize1 _ (by decide)⟩
  have hn : env1.files (codes "nofile") = none := by simp only [env1]; decide
  cases m' with
  | openInput => rfl
  | processInput =>
    obtain ⟨inp, h1, -⟩ := hc
    rw [hn] at h1
    cases h1
  | bufferSize => exact absurd hb.1 hc
  | bufferSizeDefault => exact absurd hb.2 hc
  | createHandle =>
    obtain ⟨n, h⟩ := hc
    cases h
  | digestTypes =>
    obtain ⟨-, h | h | ⟨n, h⟩⟩ := hc <;> cases h
  | output => rcases hc with h | h <;> cases h
  | _ => cases hc

end Props
