import Verif.Proofs.HandleOps
import Verif.Props.Client
/-! The sum handle of hmacsum: hashing of a file, digest selection, buffer size, sequences of calls. -/

namespace Props

open Model Spec

/-- The handle and memory are what some sequence of calls of the functions of sum_handle.h made of a NULL handle variable. -/
def Reached (T : Tool) (h : Handle) (W : World) : Prop :=
  ∃ ops W0 rs, (∀ op ∈ ops, op.Valid) ∧ handleRun T ops none W0 = .ok (rs, some h, W)

theorem VarInv_start (T : Tool) (W : World) : VarInv T (fun w => (W.mem.live w).map (·.1)) W.blocks none W := ⟨fun _ => List.Perm.refl _, List.Perm.refl _⟩

theorem Reached.inv {T : Tool} (hT : T.Ok) {h : Handle} {W : World} (hr : Reached T h W) :
    ∃ base blk, HandleInv T base blk h W ∧ h.bufferSize ≤ ssizeMax ∧ h.calculate .md5 = true := by
  obtain ⟨ops, W0, rs, hv, e⟩ := hr
  obtain ⟨extra, h1, h2, -⟩ := handleRun_inv hT ops W0.blocks none W0 hv (VarInv_start T W0) (fun _ hh => by cases hh) rs (some h) W e
  exact ⟨_, _, h1, h2 h rfl⟩

/-- Tool, memory and handle for the examples: every allocation succeeds, memory is filled with something. -/
def tool0 : Tool where
  alloc := fun _ => true
  envs := fun w => ⟨fun _ => true, fun _ => ⟨1, [], 2, []⟩, fun _ _ => 0xa5, ⟨[], []⟩⟩
  unrolled := fun _ => true
  scr := fun k _ => junk0 k
  hashJunk := fun k => List.replicate k.hashSize 0xee
  stringJunk := fun k => List.replicate (stringSize k) 7
  bufferJunk := fun n => List.replicate n 0x11

theorem tool0_ok : tool0.Ok where
  scr := fun k _ => junk0_ok k
  hashJunk := fun k => by simp [tool0]
  stringJunk := fun k => by simp [tool0]
  bufferJunk := fun n => by simp [tool0]

def world0 : World := ⟨⟨[1, 2, 3], 4, fun _ => [], fun _ => []⟩, [2]⟩

/-- A new handle. -/
def handle0 : Handle := ⟨4, some 5, fun k => k = .md5, fun _ => none, fun k => if k = .md5 then some (6, tool0.stringJunk .md5) else none, 32768, false, 0, 0⟩

def world1 : World := ⟨⟨[1, 2, 3], 7, fun _ => [], fun _ => []⟩, [6, 5, 4, 2]⟩

theorem handle0_reached : Reached tool0 handle0 world1 := ⟨[.init], world0, [1], by intro op hop; simp at hop; subst hop; trivial, rfl⟩

/-- A file of 100000 bytes, read in pieces of 1000 bytes. -/
def input0 : Input := ⟨List.replicate 100000 0x61, some 100000, fun _ => some 1000⟩

/-! ### C36 -/

/-- C36. When processing reports success and no abort was signalled, the string of every enabled digest holds the hexadecimal standard digest of the `size` bytes from the
position of the input on, for every content, buffer size and read schedule, and the strings of the others are unchanged. (SHA-512: less than 2^61 bytes.) -/
theorem C36_digest (T : Tool) (hT : T.Ok) (h : Handle) (W : World) (hr : Reached T h W) (inp : Input) (aborted : Nat → Bool) (size : Nat) (hs : inp.size = some size)
    (h' : Handle) (W' : World) (e : processInput T inp aborted h W = .ok (1, h', W')) (ha : h'.abort = false) :
    h.position + size ≤ inp.content.length + (if size = 0 then h.position else 0) ∧ h'.calculate = h.calculate ∧
    ∀ k, if h.calculate k = true then k.LengthOk size → ∃ p, h'.hashString k = some (p, hex (k.std.digest ((inp.content.drop h.position).take size)) ++ [0])
      else h'.hashString k = h.hashString k := by
  obtain ⟨base, blk, ⟨⟨b, hrel⟩, hstr, -, -⟩, -⟩ := hr.inv hT
  obtain ⟨r, ctx', str', ab', pos', rc', W2, b', e2, -, -, -, -, -, -, -, -, hsuc, -⟩ := processInput_ok hT inp aborted h W b hrel hstr
  rw [e] at e2
  cases e2
  obtain ⟨size', d, hs', -, -, -, hpre, -, -, hd, -, -, hk⟩ := hsuc rfl
  rw [hs] at hs'
  cases hs'
  simp only at ha
  have hd : d.length = size := by simpa [ha] using hd
  have hdt : d = (inp.content.drop h.position).take size := hd ▸ (List.prefix_iff_eq_take.mp hpre)
  refine ⟨?_, rfl, fun k => ?_⟩
  · have := hpre.length_le
    rw [List.length_drop] at this
    split <;> omega
  · have := hk k
    split
    · rename_i hc
      rw [if_pos hc] at this
      obtain ⟨p, s, -, h2⟩ := this
      intro hl
      refine ⟨p, ?_⟩
      have hl' : k.LengthOk d.length := hd ▸ hl
      rw [len64_digest _ _ hl'] at h2
      rw [← hdt]
      exact h2
    · rename_i hc
      rwa [if_neg hc] at this

/-- C36. In particular after opening a file whose size is reported correctly, it is the digest of its whole content. -/
theorem C36_whole_file (T : Tool) (hT : T.Ok) (h : Handle) (W : World) (hr : Reached T h W) (inp : Input) (aborted : Nat → Bool) (hs : inp.size = some inp.content.length)
    (h' : Handle) (W' : World) (e : processInput T inp aborted (openInput true h).2 W = .ok (1, h', W')) (ha : h'.abort = false) (k : Kind) (hk : h.calculate k = true)
    (hl : k.LengthOk inp.content.length) : ∃ p, h'.hashString k = some (p, hex (k.std.digest inp.content) ++ [0]) := by
  have hr' : Reached T (openInput true h).2 W := by
    obtain ⟨ops, W0, rs, hv, e⟩ := hr
    refine ⟨ops ++ [.open true], W0, rs ++ [1], ?_, ?_⟩
    · intro op hop
      rcases List.mem_append.mp hop with hop | hop
      · exact hv op hop
      · simp at hop
        subst hop
        trivial
    · rw [handleRun_append, e]
      rfl
  have := (C36_digest T hT _ W hr' inp aborted _ hs h' W' e ha).2.2 k
  rw [if_pos (show (openInput true h).2.calculate k = true from hk)] at this
  obtain ⟨p, hp⟩ := this hl
  refine ⟨p, ?_⟩
  simpa [openInput] using hp

/-- C36. Processing does succeed if the buffer size is not zero, the handle holds no contexts from earlier processing, allocations succeed, the size is that of the data
and every read delivers something. -/
theorem C36_success (T : Tool) (hT : T.Ok) (h : Handle) (W : World) (hr : Reached T h W) (inp : Input) (aborted : Nat → Bool) (size : Nat) (hs : inp.size = some size)
    (hb : 0 < h.bufferSize) (hctx : ∀ k, h.calculate k = true → h.context k = none) (hal : ∀ n, T.alloc n = true) (hsz : h.position + size ≤ inp.content.length)
    (hreads : ∀ i, ∃ c, inp.reads i = some c ∧ 0 < c) :
    ∃ h' W', processInput T inp aborted h W = .ok (1, h', W') := by
  obtain ⟨base, blk, ⟨⟨b, hrel⟩, hstr, -, -⟩, hbs, -⟩ := hr.inv hT
  obtain ⟨r, ctx', str', ab', pos', rc', W2, b', e2, -, -, -, -, -, -, -, -, -, hprog⟩ := processInput_ok hT inp aborted h W b hrel hstr
  obtain rfl := hprog size hs hb hbs hctx (fun n _ => hal n) hsz (fun i _ => hreads i)
  exact ⟨_, W2, e2⟩

theorem input0_success (aborted : Nat → Bool) : ∃ h' W', processInput tool0 input0 aborted handle0 world1 = .ok (1, h', W') :=
  C36_success tool0 tool0_ok handle0 world1 handle0_reached input0 aborted 100000 rfl (by decide) (fun _ _ => rfl) (fun _ => rfl) (by rw [show input0.content.length = 100000 from List.length_replicate]; exact Nat.le_of_eq (Nat.zero_add _)) (fun _ => ⟨1000, rfl, by decide⟩)

/-! ### C37 -/

theorem offered_mono (inp : Input) (bs : Nat) : ∀ n n' m, n ≤ n' → inp.offered bs m n ≤ inp.offered bs m n'
  | 0, _, _, _ => Nat.zero_le _
  | n + 1, 0, _, h => by omega
  | n + 1, n' + 1, m, h => by
    have := offered_mono inp bs n n' (m + 1) (by omega)
    simp only [Input.offered]
    omega

/-- C37. If read number `i` fails or delivers nothing although the reads before it were not enough for the reported size, and no abort was signalled up to then, processing
returns -1 and leaves all digest strings as they were. -/
theorem C37_read_failure (T : Tool) (hT : T.Ok) (h : Handle) (W : World) (hr : Reached T h W) (inp : Input) (aborted : Nat → Bool) (size : Nat) (hs : inp.size = some size)
    (i : Nat) (hi : h.readCount ≤ i) (hfail : inp.reads i = none ∨ inp.reads i = some 0) (hbefore : inp.offered h.bufferSize h.readCount (i - h.readCount) < size)
    (ha : h.abort = false) (hab : ∀ n, n ≤ i → aborted n = false) :
    ∃ h' W', processInput T inp aborted h W = .ok (-1, h', W') ∧ h'.hashString = h.hashString := by
  obtain ⟨base, blk, ⟨⟨b, hrel⟩, hstr, -, -⟩, hbs, -⟩ := hr.inv hT
  obtain ⟨r, ctx', str', ab', pos', rc', W2, b', e2, -, -, hrv, hneg, -, -, -, habt, hsuc, -⟩ := processInput_ok hT inp aborted h W b hrel hstr
  rcases hrv with rfl | rfl
  · exfalso
    obtain ⟨size', d, hs', -, -, -, -, -, -, hd, hoff, hok, -⟩ := hsuc rfl
    rw [hs] at hs'
    cases hs'
    have hrc : rc' ≤ i := by
      by_contra hlt
      obtain ⟨c, hc, hc0⟩ := hok i hi (by omega)
      rcases hfail with hf | hf <;> rw [hf] at hc <;> cases hc
      omega
    have hab' : ab' = false := by
      by_contra hab'
      rcases habt (by simpa using hab') with h1 | ⟨n, -, h2, h3⟩
      · rw [ha] at h1; cases h1
      · rw [hab n (by omega)] at h3; cases h3
    have hd : d.length = size := by simpa [hab'] using hd
    have := offered_mono inp h.bufferSize (rc' - h.readCount) (i - h.readCount) h.readCount (by omega)
    omega
  · exact ⟨_, W2, e2, hneg rfl⟩

/-- The fourth read fails. -/
example : ∃ h' W', processInput tool0 { input0 with reads := fun i => if i = 3 then none else some 1000 } (fun _ => false) handle0 world1 = .ok (-1, h', W') ∧
    h'.hashString = handle0.hashString :=
  C37_read_failure tool0 tool0_ok handle0 world1 handle0_reached _ _ 100000 rfl 3 (by decide) (.inl rfl) (by decide) rfl (fun _ _ => rfl)

/-- C37. If there is less data than the reported size, or the size cannot be determined, and no abort is signalled, processing returns -1 and leaves all digest strings as they were. -/
theorem C37_premature_end (T : Tool) (hT : T.Ok) (h : Handle) (W : World) (hr : Reached T h W) (inp : Input) (aborted : Nat → Bool)
    (hs : inp.size = none ∨ ∃ size, inp.size = some size ∧ 0 < size ∧ inp.content.length < h.position + size)
    (ha : h.abort = false) (hab : ∀ n, aborted n = false) :
    ∃ h' W', processInput T inp aborted h W = .ok (-1, h', W') ∧ h'.hashString = h.hashString := by
  obtain ⟨base, blk, ⟨⟨b, hrel⟩, hstr, -, -⟩, hbs, -⟩ := hr.inv hT
  obtain ⟨r, ctx', str', ab', pos', rc', W2, b', e2, -, -, hrv, hneg, -, -, -, habt, hsuc, -⟩ := processInput_ok hT inp aborted h W b hrel hstr
  rcases hrv with rfl | rfl
  · exfalso
    obtain ⟨size', d, hs', -, -, -, hpre, -, -, hd, -, -, -⟩ := hsuc rfl
    rcases hs with hs | ⟨size, hs, hs0, hlt⟩
    · rw [hs] at hs'; cases hs'
    obtain rfl : size = size' := by rw [hs] at hs'; cases hs'; rfl
    have hab' : ab' = false := by
      by_contra hab'
      rcases habt (by simpa using hab') with h1 | ⟨n, -, h2, h3⟩
      · rw [ha] at h1; cases h1
      · rw [hab n] at h3; cases h3
    have hd : d.length = size := by simpa [hab'] using hd
    have := hpre.length_le
    rw [List.length_drop] at this
    omega
  · exact ⟨_, W2, e2, hneg rfl⟩

example : ∃ h' W', processInput tool0 { input0 with size := some 100001 } (fun _ => false) handle0 world1 = .ok (-1, h', W') ∧ h'.hashString = handle0.hashString :=
  C37_premature_end tool0 tool0_ok handle0 world1 handle0_reached _ _ (.inr ⟨100001, rfl, by decide, by rw [show input0.content.length = 100000 from List.length_replicate]; exact Nat.lt_of_lt_of_eq (by decide : 100000 < 100001) (Nat.zero_add _).symm⟩) rfl (fun _ => rfl)

/-! ### C38: the processing function; the tool is in Props/Hmacsum.lean. -/

/-- C38. If the abort flag is set when it is tested after read number `n`, no further read is made; if it is set when processing starts, at most one read is made. No read takes
more than one buffer of data. -/
theorem C38_stops (T : Tool) (hT : T.Ok) (h : Handle) (W : World) (hr : Reached T h W) (inp : Input) (aborted : Nat → Bool) :
    ∃ r h' W', processInput T inp aborted h W = .ok (r, h', W') ∧ (∀ n, h.readCount < n → aborted n = true → h'.readCount ≤ n) ∧
      (h.abort = true → h'.readCount ≤ h.readCount + 1) := by
  obtain ⟨base, blk, ⟨⟨b, hrel⟩, hstr, -, -⟩, hbs, -⟩ := hr.inv hT
  obtain ⟨r, ctx', str', ab', pos', rc', W2, b', e2, -, -, -, -, -, h1, h2, -⟩ := processInput_ok hT inp aborted h W b hrel hstr
  exact ⟨r, _, W2, e2, h1, h2⟩

example := C38_stops tool0 tool0_ok handle0 world1 handle0_reached input0 (fun n => decide (n ≥ 7))

/-! ### C39 -/

/-- C39. Whatever was done with the handle before, a successful call stores digests of exactly the data read in this call, and it was made without left-over contexts. -/
theorem C39_own_data (T : Tool) (hT : T.Ok) (h : Handle) (W : World) (hr : Reached T h W) (inp : Input) (aborted : Nat → Bool)
    (h' : Handle) (W' : World) (e : processInput T inp aborted h W = .ok (1, h', W')) :
    ∃ d, d <+: inp.content.drop h.position ∧ h'.position = h.position + d.length ∧
      ∀ k, h.calculate k = true → h.context k = none ∧ (k.LengthOk d.length → ∃ p, h'.hashString k = some (p, hex (k.std.digest d) ++ [0])) := by
  obtain ⟨base, blk, ⟨⟨b, hrel⟩, hstr, -, -⟩, hbs, -⟩ := hr.inv hT
  obtain ⟨r, ctx', str', ab', pos', rc', W2, b', e2, -, -, -, -, -, -, -, -, hsuc, -⟩ := processInput_ok hT inp aborted h W b hrel hstr
  rw [e] at e2
  cases e2
  obtain ⟨size, d, -, -, -, hctx, hpre, hpos, -, -, -, -, hk⟩ := hsuc rfl
  refine ⟨d, hpre, hpos, fun k hc => ⟨(hctx k hc).1, fun hl => ?_⟩⟩
  have := hk k
  rw [if_pos hc] at this
  obtain ⟨p, s, -, h2⟩ := this
  rw [len64_digest _ _ hl] at h2
  exact ⟨p, h2⟩

/-- C39. After a successful call and any calls other than processing and freeing (also opening another file), the next processing fails and leaves the digest strings alone. -/
theorem C39_second_fails (T : Tool) (hT : T.Ok) (h : Handle) (W : World) (hr : Reached T h W) (inp : Input) (aborted : Nat → Bool)
    (h1 : Handle) (W1 : World) (e1 : processInput T inp aborted h W = .ok (1, h1, W1)) (ops : List HandleOp) (hv : ∀ op ∈ ops, op.Valid)
    (hops : ∀ op ∈ ops, (∀ inp a, op ≠ .process inp a) ∧ ∀ c, op ≠ .free c) (rs : List Int) (slot : Option Handle) (W2 : World)
    (e2 : handleRun T ops (some h1) W1 = .ok (rs, slot, W2)) (inp2 : Input) (aborted2 : Nat → Bool) :
    ∃ h2, slot = some h2 ∧ ∃ h3 W3, processInput T inp2 aborted2 h2 W2 = .ok (-1, h3, W3) ∧ h3.hashString = h2.hashString := by
  obtain ⟨base, blk, hI, hbs, hmd5⟩ := hr.inv hT
  obtain ⟨r1, g1, V1, e1', hI1, hcalc1, hbs1⟩ := processInput_inv hT inp aborted blk h W hI
  rw [e1] at e1'
  cases e1'
  obtain ⟨⟨b, hrel⟩, hstr, -, -⟩ := hI
  obtain ⟨r, ctx', str', ab', pos', rc', V2, b', e3, -, -, -, -, -, -, -, -, hsuc, -⟩ := processInput_ok hT inp aborted h W b hrel hstr
  rw [e1] at e3
  cases e3
  obtain ⟨size, d, -, -, -, hctx, -⟩ := hsuc rfl
  have hc1 := (hctx .md5 hmd5).2
  have hz : SizeOk (some { h with context := ctx', hashString := str', abort := ab', position := pos', readCount := rc' }) := fun g hg => by
    cases hg
    exact ⟨hbs, hmd5⟩
  obtain ⟨x, hI3, hz3, -⟩ := handleRun_inv (base := base) hT ops blk (some { h with context := ctx', hashString := str', abort := ab', position := pos', readCount := rc' }) W1 hv hI1 hz rs slot W2 e2
  obtain ⟨h2, rfl, hc2⟩ := handleRun_context hT ops blk _ W1 hv hops hI1 hz rs slot W2 e2
  refine ⟨h2, rfl, ?_⟩
  obtain ⟨⟨b2, hrel2⟩, hstr2, -, -⟩ := hI3
  obtain ⟨r3, ctx3, str3, ab3, pos3, rc3, W3, b3, e4, -, -, hrv, hneg, -, -, -, -, hsuc3, -⟩ := processInput_ok hT inp2 aborted2 h2 W2 b2 hrel2 hstr2
  rcases hrv with rfl | rfl
  · exfalso
    obtain ⟨-, -, -, -, -, hctx3, -⟩ := hsuc3 rfl
    have := (hctx3 .md5 (hz3 h2 rfl).2).1
    rw [hc2] at this
    exact hc1 this
  · exact ⟨_, W3, e4, hneg rfl⟩

example (h1 : Handle) (W1 : World) (e : processInput tool0 input0 (fun _ => false) handle0 world1 = .ok (1, h1, W1)) :=
  C39_second_fails tool0 tool0_ok handle0 world1 handle0_reached input0 _ h1 W1 e [.close true, .open true]
    (by intro op hop; simp at hop; rcases hop with rfl | rfl <;> trivial)
    (by intro op hop; simp at hop; rcases hop with rfl | rfl <;> simp) _ _ _ rfl input0 (fun _ => false)

/-! ### C40 -/

/-- C40. Setting the digest types succeeds with result 0 when libcsplit and the allocator succeed, and then enables exactly the algorithms that were enabled before or stand in the
comma-separated list under one of their names; a failure never disables an algorithm or enables one not named. The strings of the algorithms that were enabled are kept. Both builds of the string comparison. -/
theorem C40_enabled (T : Tool) (hT : T.Ok) (h : Handle) (W : World) (hr : Reached T h W) (mc splitOk splitFreeOk : Bool) (string : List Nat) :
    ∃ r h' W', setDigestTypes T mc splitOk splitFreeOk string h W = .ok (r, h', W') ∧ (r = 0 ∨ r = -1) ∧
      (r = 0 → ∀ k, h'.calculate k = true ↔ h.calculate k = true ∨ k.Named string) ∧
      (∀ k, h.calculate k = true → h'.calculate k = true ∧ h'.hashString k = h.hashString k) ∧ (∀ k, h'.calculate k = true → h.calculate k = true ∨ k.Named string) ∧
      (splitOk = true → splitFreeOk = true → (∀ n, T.alloc n = true) → r = 0) := by
  obtain ⟨base, blk, hI, -⟩ := hr.inv hT
  obtain ⟨r, calc', str', W', e, -, h1, h2, h3, h4, h5⟩ := setDigestTypes_ok hT mc splitOk splitFreeOk string blk h W hI
  exact ⟨r, _, W', e, h1, h2, h3, h4, fun a b c => h5 a b fun n _ => c n⟩

/-- Names joined by commas. -/
def joinNames : List (List Nat) → List Nat
  | [] => []
  | [s] => s
  | s :: t => s ++ 44 :: joinNames t

theorem splitAt_prefix (s : List Nat) (hs : 44 ∉ s) (t : List Nat) : splitAt 44 (s ++ 44 :: t) = s :: splitAt 44 t := by
  induction s with
  | nil => simp [splitAt]
  | cons x s ih =>
    have hx : x ≠ 44 := fun h => hs (by simp [h])
    simp only [List.cons_append, splitAt, if_neg hx, ih (fun h => hs (by simp [h]))]

theorem splitAt_single (s : List Nat) (hs : 44 ∉ s) : splitAt 44 s = [s] := by
  induction s with
  | nil => rfl
  | cons x s ih =>
    have hx : x ≠ 44 := fun h => hs (by simp [h])
    simp only [splitAt, if_neg hx, ih (fun h => hs (by simp [h]))]

theorem splitAt_join : ∀ names : List (List Nat), names ≠ [] → (∀ s ∈ names, 44 ∉ s) → splitAt 44 (joinNames names) = names
  | [], h, _ => absurd rfl h
  | [s], _, hc => splitAt_single s (hc s (by simp))
  | s :: t :: ts, _, hc => by
    rw [joinNames, splitAt_prefix s (hc s (by simp)), splitAt_join (t :: ts) (by simp) (fun x hx => hc x (by simp [hx]))]
    simp

/-- C40. For a list of names: exactly the algorithms of these names are named by it, whatever the order and repetitions are and whatever unknown names are in it. -/
theorem C40_names (names : List (List Nat)) (h0 : names ≠ []) (hc : ∀ s ∈ names, 44 ∉ s) (k : Kind) : k.Named (joinNames names) ↔ ∃ s ∈ names, s ∈ k.names := by
  unfold Kind.Named
  constructor
  · rintro ⟨s, h1, h2⟩
    exact ⟨s, by rw [← splitAt_join names h0 hc]; exact (mem_splitAt s _).mpr h2, h1⟩
  · rintro ⟨s, h1, h2⟩
    exact ⟨s, h2, (mem_splitAt s _).mp (by rw [splitAt_join names h0 hc]; exact h1)⟩

/-- "sha_256,x,MD5,sha_256" -/
example : ∃ r h' W', setDigestTypes tool0 false true true (codes "sha_256,x,MD5,sha_256") handle0 world1 = .ok (r, h', W') ∧ r = 0 ∧
    h'.calculate .sha256 = true ∧ h'.calculate .sha1 = false := by
  obtain ⟨r, h', W', e, h1, h2, h3, h4, h5⟩ := C40_enabled tool0 tool0_ok handle0 world1 handle0_reached false true true (codes "sha_256,x,MD5,sha_256")
  have hr := h5 rfl rfl (fun _ => rfl)
  have e' : codes "sha_256,x,MD5,sha_256" = joinNames [codes "sha_256", codes "x", codes "MD5", codes "sha_256"] := by decide
  refine ⟨r, h', W', e, hr, ?_, ?_⟩
  · rw [h2 hr, e', C40_names _ (by simp) (by decide)]
    exact .inr ⟨codes "sha_256", by simp, by decide⟩
  · rw [← Bool.not_eq_true, h2 hr, e', C40_names _ (by simp) (by decide)]
    decide

/-! ### C45 -/

/-- C45. Setting the buffer size gives 1 and a size up to SSIZE_MAX, or 0 or -1 and the previous size. -/
theorem C45_bounds (verbose : Bool) (dp : Option Nat) (hdp : dp ≠ some 0) (string : List Nat) (h : Handle) :
    ∃ r n, setBufferSize verbose dp string h = .ok (r, { h with bufferSize := n }) ∧ (r = 1 ∧ n ≤ ssizeMax ∨ (r = 0 ∨ r = -1) ∧ n = h.bufferSize) :=
  setBufferSize_ok verbose dp hdp string h

example := C45_bounds true (some 46) (by decide) (codes "64 MiB") handle0

/-- C45. A handle never has a size above SSIZE_MAX, and processing with size 0 returns -1 without reading. -/
theorem C45_zero (T : Tool) (hT : T.Ok) (h : Handle) (W : World) (hr : Reached T h W) (inp : Input) (aborted : Nat → Bool) :
    h.bufferSize ≤ ssizeMax ∧ (h.bufferSize = 0 → processInput T inp aborted h W = .ok (-1, h, W)) := by
  obtain ⟨-, -, -, h1, -⟩ := hr.inv hT
  exact ⟨h1, fun h0 => by rw [processInput, if_pos (.inl h0)]⟩

example : Reached tool0 { handle0 with bufferSize := 0 } world1 :=
  ⟨[.init, .bufferSize false (some 46) (codes "0")], world0, [1, 1], by intro op hop; simp at hop; rcases hop with rfl | rfl <;> simp [HandleOp.Valid], by
    have e : setBufferSize false (some 46) (codes "0") handle0 = .ok (1, { handle0 with bufferSize := 0 }) := by
      have : byteSizeConvert false (some 46) (some (codes "0" ++ [0])) (codes "0").length (some 0) = .ok (1, some 0) := by decide +kernel
      unfold setBufferSize
      rw [this]
      rfl
    have e0 : handleStep tool0 .init none world0 = .ok (1, some handle0, world1) := rfl
    have e1 : handleStep tool0 (.bufferSize false (some 46) (codes "0")) (some handle0) world1 = .ok (1, some { handle0 with bufferSize := 0 }, world1) := by
      simp only [handleStep]
      rw [e]
      rfl
    simp only [handleRun, e0, Res.ok_bind, e1, Res.pure_eq]⟩

/-- Full statement of the value part of C45: the value of a size text is set if it is not above SSIZE_MAX, otherwise the previous size stays. -/
def C45Statement : Prop := ∀ (verbose : Bool) (dp : Nat), dp ∉ sizeChars → ∀ (ds : List (Fin 10)) (sp : Bool) (f : Fin 9) (up : Bool) (u : SizeUnit) (h : Handle),
  setBufferSize verbose (some dp) (sizeText dp ds none sp f up u) h =
    .ok (if decimal ds * u.base ^ f.1 ≤ ssizeMax then (1, { h with bufferSize := decimal ds * u.base ^ f.1 }) else (0, h))

/-- What holds: for values below 2^64 with a factor other than K. Missing: larger values, which are reduced modulo 2^64, and the factor K, which is rejected with -1. -/
theorem C45_value_partial (verbose : Bool) (dp : Nat) (hdp : dp ∉ sizeChars) (ds : List (Fin 10)) (sp : Bool) (f : Fin 9) (hf : f ≠ 1) (up : Bool) (u : SizeUnit) (h : Handle)
    (hv : decimal ds * u.base ^ f.1 < 2 ^ 64) :
    setBufferSize verbose (some dp) (sizeText dp ds none sp f up u) h =
      .ok (if decimal ds * u.base ^ f.1 ≤ ssizeMax then (1, { h with bufferSize := decimal ds * u.base ^ f.1 }) else (0, h)) := by
  have e : scaled (decimal ds) (fracValue none) f.1 u.base = decimal ds * u.base ^ f.1 := if_neg (by simp [fracValue, hundredths])
  unfold setBufferSize
  rw [sizeText_eval verbose dp hdp, if_neg hf, e]
  simp only [Res.ok_bind]
  have hn : (BitVec.ofNat 64 (decimal ds * u.base ^ f.1)).toNat = decimal ds * u.base ^ f.1 := by rw [BitVec.toNat_ofNat, Nat.mod_eq_of_lt hv]
  rw [hn]
  by_cases hle : decimal ds * u.base ^ f.1 ≤ ssizeMax
  · simp [hle, Nat.not_lt.mpr hle]
  · simp [hle, Nat.lt_of_not_le hle]

/-- "16 MiB" -/
example : setBufferSize false (some 46) (codes "16 MiB") handle0 = .ok (1, { handle0 with bufferSize := 16777216 }) :=
  C45_value_partial false 46 (by decide) [1, 6] true 2 (by decide) true .iB handle0 (by decide)

/-- The number 2^64 sets the size 0 and reports success. -/
theorem C45_wraps (h : Handle) : setBufferSize false (some 46) (codes "18446744073709551616") h = .ok (1, { h with bufferSize := 0 }) := by
  have : byteSizeConvert false (some 46) (some (codes "18446744073709551616" ++ [0])) (codes "18446744073709551616").length (some 0) = .ok (1, some 0) := by decide +kernel
  unfold setBufferSize
  rw [this]
  rfl

theorem C45_statement_false : ¬ C45Statement := by
  intro h
  have h1 := h false 46 (by decide) [1, 8, 4, 4, 6, 7, 4, 4, 0, 7, 3, 7, 0, 9, 5, 5, 1, 6, 1, 6] false 0 true .none handle0
  have e : sizeText 46 [1, 8, 4, 4, 6, 7, 4, 4, 0, 7, 3, 7, 0, 9, 5, 5, 1, 6, 1, 6] none false 0 true .none = codes "18446744073709551616" := by decide
  rw [e, C45_wraps, if_neg (by decide +kernel)] at h1
  injection h1 with h1
  exact absurd (congrArg Prod.fst h1) (by decide)

/-! ### C49 -/

/-- Full statement of C49. -/
def C49Statement : Prop := ∀ (T : Tool), T.Ok → ∀ (ops : List HandleOp), (∀ op ∈ ops, op.Valid) → ∀ (c : Bool) (W : World),
  ∃ rs W', handleRun T (ops ++ [.free c]) none W = .ok (rs, none, W') ∧ W'.blocks.Perm W.blocks

/-- What holds: every sequence of calls on a handle variable, on every memory, for every outcome of allocations, input files, read schedules, signals and strings, runs without undefined
behaviour (access outside a buffer or of freed memory, double free) and terminates, if the digests are not printed, or if the allocator returns strings that contain a terminator.
Missing: printing of a digest string that was never written. -/
theorem C49_no_ub_partial (T : Tool) (hT : T.Ok) (ops : List HandleOp) (hv : ∀ op ∈ ops, op.Valid) (hp : HandleOp.print ∉ ops ∨ ∀ k, 0 ∈ T.stringJunk k) (W : World) :
    ∃ rs slot' W', handleRun T ops none W = .ok (rs, slot', W') ∧ rs.length = ops.length := by
  obtain ⟨⟨rs, slot', W'⟩, e⟩ := handleRun_total hT ops W.blocks none W (fun op ho => ⟨hv op ho, fun hpr => by
    rcases hp with hp | hp
    · exact absurd (hpr ▸ ho) hp
    · exact hp⟩) (VarInv_start T W) (fun _ hh => by cases hh)
  obtain ⟨-, -, -, h3, -⟩ := handleRun_inv hT ops W.blocks none W hv (VarInv_start T W) (fun _ hh => by cases hh) rs slot' W' e
  exact ⟨rs, slot', W', e, h3⟩

/-- A sequence with two files, an allocation failure and misuse. -/
def ops0 : List HandleOp :=
  [.print, .init, .init, .open true, .digests true true true (codes "sha1,sha512"), .process input0 (fun n => n = 3), .print, .process input0 (fun _ => false), .close true,
    .bufferSize true (some 46) (codes "1 M"), .open true, .process { input0 with size := none } (fun _ => true), .abort, .free false, .free true, .close true]

theorem ops0_ok : ∀ op ∈ ops0, op.Valid := by
  intro op hop
  simp only [ops0, List.mem_cons, List.not_mem_nil, or_false] at hop
  rcases hop with rfl | rfl | rfl | rfl | rfl | rfl | rfl | rfl | rfl | rfl | rfl | rfl | rfl | rfl | rfl | rfl <;> simp [HandleOp.Valid]

/-- A tool with zeroed strings and a failing allocation. -/
def tool1 : Tool := { tool0 with alloc := fun n => n ≠ 9, stringJunk := fun k => List.replicate (stringSize k) 0 }

theorem tool1_ok : tool1.Ok := ⟨tool0_ok.scr, tool0_ok.hashJunk, fun k => by simp [tool1], tool0_ok.bufferJunk⟩

example := C49_no_ub_partial tool1 tool1_ok ops0 ops0_ok (.inr fun k => by cases k <;> decide) world0

/-- C49. After a successful call of processing, and then any calls that do not enable digests, process or free, printing is safe: what is printed are the hexadecimal digests
stored by that processing, for the selected algorithms in the order MD5, SHA-1, SHA-224, SHA-256, SHA-512. -/
theorem C49_print_after_success (T : Tool) (hT : T.Ok) (h : Handle) (W : World) (hr : Reached T h W) (inp : Input) (aborted : Nat → Bool)
    (h1 : Handle) (W1 : World) (e1 : processInput T inp aborted h W = .ok (1, h1, W1)) (ops : List HandleOp) (hops : ∀ op ∈ ops, op.Valid ∧ op.quiet = true) :
    ∃ d, d <+: inp.content.drop h.position ∧ ((∀ k : Kind, k.LengthOk d.length) → ∃ rs h2, handleRun T ops (some h1) W1 = .ok (rs, some h2, W1) ∧
      printHashes digestOrder h2 = .ok ((printOrder.filter h.calculate).map fun k => (k, hex (k.std.digest d)))) := by
  obtain ⟨d, hpre, -, hd⟩ := C39_own_data T hT h W hr inp aborted h1 W1 e1
  obtain ⟨base, blk, hI, -⟩ := hr.inv hT
  obtain ⟨r1, g1, V1, e1', -, hcalc, -⟩ := processInput_inv hT inp aborted blk h W hI
  rw [e1] at e1'
  cases e1'
  refine ⟨d, hpre, fun hl => ?_⟩
  have hs : ∀ k, h1.calculate k = true → ∃ p s, h1.hashString k = some (p, s) ∧ 0 ∈ s := fun k hk => by
    rw [hcalc] at hk
    obtain ⟨p, hp⟩ := (hd k hk).2 (hl k)
    exact ⟨p, _, hp, by simp⟩
  obtain ⟨rs, h2, e2, hc2, hs2⟩ := handleRun_quiet T ops hops h1 W1 hs
  refine ⟨rs, h2, e2, ?_⟩
  rw [printHashes_ok h2 (by rw [hc2, hs2]; exact hs) digestOrder, hc2, hcalc, show digestOrder = printOrder from rfl]
  congr 1
  refine List.map_congr_left fun k hk => ?_
  obtain ⟨p, hp⟩ := (hd k (List.mem_filter.mp hk).2).2 (hl k)
  simp only [Handle.text, hs2, hp, Option.map_some, Option.getD_some]
  rw [takeWhile_hex]

example (h1 : Handle) (W1 : World) (e : processInput tool0 input0 (fun _ => false) handle0 world1 = .ok (1, h1, W1)) :=
  C49_print_after_success tool0 tool0_ok handle0 world1 handle0_reached input0 _ h1 W1 e [.close true, .print, .open true, .abort, .bufferSize true (some 46) (codes "1 M")]
    (by intro op hop; simp at hop; rcases hop with rfl | rfl | rfl | rfl | rfl <;> simp [HandleOp.Valid, HandleOp.quiet])

/-- Printing without processing reads uninitialised memory, here beyond the end of the string. -/
theorem C49_print_ub : handleRun tool0 [.init, .print] none world0 = .ub := rfl

/-- What is released: after a sequence that ends with freeing the handle, the live memory consists of what was live before, and of at most one block for every failed initialise call.
Missing: those blocks. They occur only if an allocation failed. -/
theorem C49_released_partial (T : Tool) (hT : T.Ok) (ops : List HandleOp) (hv : ∀ op ∈ ops, op.Valid) (rs0 : List Int) (slot : Option Handle) (c : Bool) (W W1 : World)
    (e : handleRun T ops none W = .ok (rs0, slot, W1)) :
    ∃ r W' leaked, handleRun T (ops ++ [.free c]) none W = .ok (rs0 ++ [r], none, W') ∧
      (∀ w, ((W'.mem.live w).map (·.1)).Perm ((W.mem.live w).map (·.1))) ∧ W'.blocks.Perm (leaked ++ W.blocks) ∧
      leaked.length ≤ failedInits ops rs0 ∧ ((∀ n, T.alloc n = true) → leaked = []) := by
  obtain ⟨extra, h1, h2, h3, h4, h5⟩ := handleRun_inv hT ops W.blocks none W hv (VarInv_start T W) (fun _ hh => by cases hh) rs0 slot W1 e
  obtain ⟨W2, e2, h6, h7⟩ := sumFree_ok hT c (extra ++ W.blocks) slot W1 h1
  refine ⟨if c || slot.isNone then 1 else -1, W2, extra, ?_, h6, h7, h4, fun hal => ?_⟩
  · rw [handleRun_append, e]
    simp only [Res.ok_bind, handleRun, handleStep, e2, Res.pure_eq]
  · by_contra hne
    obtain ⟨n, hn⟩ := h5 hne
    rw [hal n] at hn
    cases hn

example : ∃ rs slot W1, handleRun tool1 ops0 none world0 = .ok (rs, slot, W1) ∧ ∃ r W' leaked, handleRun tool1 (ops0 ++ [.free true]) none world0 = .ok (rs ++ [r], none, W') ∧
    W'.blocks.Perm (leaked ++ world0.blocks) := by
  obtain ⟨rs, slot, W1, e, -⟩ := C49_no_ub_partial tool1 tool1_ok ops0 ops0_ok (.inr fun k => by cases k <;> decide) world0
  obtain ⟨r, W', leaked, e', -, h, -⟩ := C49_released_partial tool1 tool1_ok ops0 ops0_ok rs slot true world0 W1 e
  exact ⟨rs, slot, W1, e, r, W', leaked, e', h⟩

/-- The code does not satisfy the full statement also for another reason: if the allocation of the MD5 string fails in initialise, the input handle is lost. -/
theorem C49_initialize_leak (c : Bool) : handleRun { tool0 with alloc := fun n => n ≠ 6 } [.init, .free c] none world0 =
    .ok ([-1, 1], none, ⟨⟨[1, 2, 3], 7, fun _ => [], fun _ => []⟩, [5, 2]⟩) := by
  cases c <;> rfl

theorem C49_statement_false : ¬ C49Statement := by
  intro h
  obtain ⟨rs, W', e, hp⟩ := h { tool0 with alloc := fun n => n ≠ 6 } ⟨tool0_ok.scr, tool0_ok.hashJunk, tool0_ok.stringJunk, tool0_ok.bufferJunk⟩ [.init]
    (by intro op hop; simp at hop; subst hop; trivial) true world0
  have e' := C49_initialize_leak true
  rw [List.singleton_append, e'] at e
  cases e
  exact absurd hp.length_eq (by decide)

end Props
