import Verif.Proofs.Transform
import Verif.Proofs.ByteOrder
import Verif.Props.Histories
/-! C23, C24, C25, C34: the block transform, for all five algorithms and both build variants (`u`: unrolled). The transform is called with a
context that has a chaining value of the declared length; nothing else is assumed of the context. -/

namespace Props

open Model Spec

theorem blockSize_pos (k : Kind) : 0 < k.blockSize := by cases k <;> decide

/-- A context for the examples. -/
def ctx0 (k : Kind) : Ctx k.width := ⟨77, List.replicate k.words 5, 3, List.replicate (2 * k.blockSize) 1⟩

/-- C24. For valid arguments the transform replaces the chaining value by the standard's over the whole blocks of the first `size` bytes, changes
nothing else in the context, and returns `size` rounded down to the block size. Only the whole blocks need to exist in memory: the tail is not
read. -/
theorem C24_transform_whole_blocks (k : Kind) (u : Bool) (scr : Scr k.width) (c : Ctx k.width) (buf : List Byte) (size : Nat)
    (hscr : Kind.Junk k scr) (hc : c.hashValues.length = k.words) (hs : size ≤ maxSize) (hb : size / k.blockSize * k.blockSize ≤ buf.length) :
    ∃ scr', transform (algOf k) u scr (some c) (some buf) size =
      .ok (((size / k.blockSize * k.blockSize : Nat) : Int),
        some { c with hashValues := k.std.chain c.hashValues (blocks k.blockSize (buf.take (size / k.blockSize * k.blockSize))) }, scr') := by
  obtain ⟨enc, L⟩ := lawful k
  rw [← algOf_blockSize] at *
  obtain ⟨scr₁, scr', e, -⟩ := transform_blocks L u scr c buf size (fun _ _ => True) (fun _ _ _ _ _ _ _ _ _ => trivial) hs hb
    (by rw [hc, algOf_nHash]) (scrOk_of_junk hscr)
  rw [len64_chain] at e
  exact ⟨scr', e⟩

example (k : Kind) : Kind.Junk k (junk0 k) ∧ (ctx0 k).hashValues.length = k.words ∧ 300 ≤ maxSize ∧
    300 / k.blockSize * k.blockSize ≤ (List.replicate 256 (7 : Byte)).length :=
  ⟨junk0_ok k, by simp [ctx0], by decide, by rw [List.length_replicate]; cases k <;> decide⟩

/-- C24. The bytes after the whole blocks do not matter. -/
theorem C24_transform_tail_unread (k : Kind) (u : Bool) (scr : Scr k.width) (c : Ctx k.width) (buf₁ buf₂ : List Byte) (size : Nat)
    (hscr : Kind.Junk k scr) (hc : c.hashValues.length = k.words) (hs : size ≤ maxSize) (hb : size / k.blockSize * k.blockSize ≤ buf₁.length)
    (heq : buf₁.take (size / k.blockSize * k.blockSize) = buf₂.take (size / k.blockSize * k.blockSize)) :
    ∃ r c' scr₁ scr₂, transform (algOf k) u scr (some c) (some buf₁) size = .ok (r, c', scr₁) ∧
      transform (algOf k) u scr (some c) (some buf₂) size = .ok (r, c', scr₂) := by
  have hb₂ : size / k.blockSize * k.blockSize ≤ buf₂.length := by
    have := congrArg List.length heq
    simp only [List.length_take] at this
    omega
  obtain ⟨s₁, e₁⟩ := C24_transform_whole_blocks k u scr c buf₁ size hscr hc hs hb
  obtain ⟨s₂, e₂⟩ := C24_transform_whole_blocks k u scr c buf₂ size hscr hc hs hb₂
  rw [heq] at e₁
  exact ⟨_, _, s₁, s₂, e₁, e₂⟩

example (k : Kind) : (List.replicate 128 (7 : Byte) ++ [1, 2, 3]).take (131 / k.blockSize * k.blockSize) =
    (List.replicate 128 (7 : Byte)).take (131 / k.blockSize * k.blockSize) := by
  rw [List.take_append_of_le_length]
  rw [List.length_replicate]; cases k <;> decide

/-- C24. The transform fails exactly for a missing context, a missing buffer or a size above SSIZE_MAX, and then changes nothing. -/
theorem C24_transform_rejects (k : Kind) (u : Bool) (scr : Scr k.width) (ctx : Option (Ctx k.width)) (buf : Option (List Byte)) (size : Nat)
    (hscr : Kind.Junk k scr) (hc : ∀ c, ctx = some c → c.hashValues.length = k.words)
    (hb : ∀ b, buf = some b → size ≤ maxSize → size / k.blockSize * k.blockSize ≤ b.length) :
    ∃ r c' scr', transform (algOf k) u scr ctx buf size = .ok (r, c', scr') ∧
      (r = -1 ↔ ctx = none ∨ buf = none ∨ maxSize < size) ∧ (r = -1 → c' = ctx ∧ scr' = scr) := by
  cases ctx with
  | none => exact ⟨-1, none, scr, by simp [transform], by simp, by simp⟩
  | some c =>
    cases buf with
    | none => exact ⟨-1, some c, scr, by simp [transform], by simp, by simp⟩
    | some b =>
      by_cases hs : size ≤ maxSize
      · obtain ⟨scr', e⟩ := C24_transform_whole_blocks k u scr c b size hscr (hc c rfl) hs (hb b rfl hs)
        refine ⟨_, _, scr', e, ?_, ?_⟩
        · simp only [reduceCtorEq, false_or]
          exact ⟨fun h => h.elim, fun h => by omega⟩
        · intro h
          have h0 := Int.natCast_nonneg (size / k.blockSize * k.blockSize)
          rw [h] at h0
          exact absurd h0 (by decide)
      · have hs' : ssizeMax < size := by rw [← maxSize_eq]; omega
        exact ⟨-1, some c, scr, by simp [transform, hs'], by simp; omega, by simp⟩

example (k : Kind) : (∀ c, some (ctx0 k) = some c → c.hashValues.length = k.words) ∧
    (∀ b : List Byte, (some [] : Option (List Byte)) = some b → 2 ^ 63 ≤ maxSize → 2 ^ 63 / k.blockSize * k.blockSize ≤ b.length) :=
  ⟨by rintro c ⟨⟩; simp [ctx0], by rintro b ⟨⟩ h; exact absurd h (by decide)⟩

/-- C23. The unrolled and the loop variant of the transform return the same result and leave the same context, for every context, buffer and size, and
whatever their local arrays contained. -/
theorem C23_unrolled_eq_loop (k : Kind) (scr₁ scr₂ : Scr k.width) (c : Ctx k.width) (buf : List Byte) (size : Nat)
    (h₁ : Kind.Junk k scr₁) (h₂ : Kind.Junk k scr₂) (hc : c.hashValues.length = k.words) (hs : size ≤ maxSize) (hb : size ≤ buf.length) :
    ∃ r c' t₁ t₂, transform (algOf k) true scr₁ (some c) (some buf) size = .ok (r, c', t₁) ∧
      transform (algOf k) false scr₂ (some c) (some buf) size = .ok (r, c', t₂) := by
  have hb' : size / k.blockSize * k.blockSize ≤ buf.length := le_trans (Nat.div_mul_le_self _ _) hb
  obtain ⟨t₁, e₁⟩ := C24_transform_whole_blocks k true scr₁ c buf size h₁ hc hs hb'
  obtain ⟨t₂, e₂⟩ := C24_transform_whole_blocks k false scr₂ c buf size h₂ hc hs hb'
  exact ⟨_, _, t₁, t₂, e₁, e₂⟩

example (k : Kind) : Kind.Junk k (junk0 k) ∧ (ctx0 k).hashValues.length = k.words ∧ 300 ≤ maxSize ∧ 300 ≤ (List.replicate 300 (7 : Byte)).length :=
  ⟨junk0_ok k, by simp [ctx0], by decide, by rw [List.length_replicate]⟩

/-- C23. Hence the build option is unobservable: every call history gives the same replies (result codes and digests). -/
theorem C23_build_option_unobservable (k : Kind) (env : Env k.width) (calls : List (ApiCall × Scr k.width)) (s : St k.width) (hv : ValidCalls k calls) :
    ∃ rs p₁ s₁ p₂ s₂, run (algOf k) true env calls none s = .ok (rs, p₁, s₁) ∧ run (algOf k) false env calls none s = .ok (rs, p₂, s₂) :=
  C13_indeterminate_values_unobservable k true false env env calls calls s s hv hv rfl rfl rfl

example (k : Kind) : ValidCalls k (calls0 k) := calls0_ok k

/-- C25, for all algorithms but SHA-1. After a transform that succeeded the local copies of the chaining value and the message schedule are zero. -/
theorem C25_scratch_wiped (k : Kind) (hk : k ≠ .sha1) (u : Bool) (scr scr' : Scr k.width) (c : Ctx k.width) (c' : Option (Ctx k.width)) (buf : List Byte)
    (size : Nat) (r : Int) (hscr : Kind.Junk k scr) (hc : c.hashValues.length = k.words) (hb : size ≤ buf.length)
    (hrun : transform (algOf k) u scr (some c) (some buf) size = .ok (r, c', scr')) (hr : r ≠ -1) :
    scr'.hv = List.replicate scr.hv.length 0 ∧ scr'.vals = List.replicate scr.vals.length 0 := by
  obtain ⟨enc, L⟩ := lawful k
  by_cases hs : size ≤ ssizeMax
  · obtain ⟨scr₁, t, e, ⟨l1, l2⟩, h1, h2, -⟩ := transform_blocks L u scr c buf size (fun _ _ => True) (fun _ _ _ _ _ _ _ _ _ => trivial) hs
      (le_trans (Nat.div_mul_le_self _ _) hb) (by rw [hc, algOf_nHash]) (scrOk_of_junk hscr)
    rw [hrun] at e
    simp only [Res.ok.injEq, Prod.mk.injEq] at e
    obtain ⟨l3, l4⟩ := scrOk_of_junk hscr
    have hw : (algOf k).wipeHv = (algOf k).nHash ∧ (algOf k).wipeVals = (algOf k).nVals := by
      cases k <;> first | exact ⟨rfl, rfl⟩ | exact absurd rfl hk
    rw [e.2.2, h1, h2, hw.1, hw.2, List.drop_eq_nil_of_le (by omega), List.drop_eq_nil_of_le (by omega), l3, l4, List.append_nil, List.append_nil]
    exact ⟨rfl, rfl⟩
  · rw [show transform (algOf k) u scr (some c) (some buf) size = .ok (-1, some c, scr) by simp [transform, show ssizeMax < size by omega]] at hrun
    simp only [Res.ok.injEq, Prod.mk.injEq] at hrun
    exact absurd hrun.1.symm hr

example (k : Kind) : ∃ c' scr', transform (algOf k) true (junk0 k) (some (ctx0 k)) (some (List.replicate 300 7)) 300 =
    .ok (((300 / k.blockSize * k.blockSize : Nat) : Int), c', scr') := by
  obtain ⟨scr', e⟩ := C24_transform_whole_blocks k true (junk0 k) (ctx0 k) (List.replicate 300 7) 300 (junk0_ok k) (by simp [ctx0]) (by decide)
    (by rw [List.length_replicate]; exact Nat.div_mul_le_self _ _)
  exact ⟨_, scr', e⟩

/-- C25, SHA-1, partial: only the chaining value and the first 16 of the 80 schedule words are zeroed. Missing: the other 64 words, which are left
(`C25_sha1_schedule_left`). -/
theorem C25_sha1_scratch_wiped_partial (u : Bool) (scr scr' : Scr 32) (c : Ctx 32) (c' : Option (Ctx 32)) (buf : List Byte)
    (size : Nat) (r : Int) (hscr : Kind.Junk .sha1 scr) (hc : c.hashValues.length = 5) (hb : size ≤ buf.length)
    (hrun : transform Model.sha1 u scr (some c) (some buf) size = .ok (r, c', scr')) (hr : r ≠ -1) :
    scr'.hv = List.replicate 5 0 ∧ scr'.vals.take 16 = List.replicate 16 0 := by
  by_cases hs : size ≤ ssizeMax
  · obtain ⟨scr₁, t, e, ⟨l1, l2⟩, h1, h2, -⟩ := transform_blocks sha1Lawful u scr c buf size (fun _ _ => True) (fun _ _ _ _ _ _ _ _ _ => trivial) hs
      (le_trans (Nat.div_mul_le_self _ _) hb) hc (scrOk_of_junk (k := .sha1) hscr)
    rw [hrun] at e
    simp only [Res.ok.injEq, Prod.mk.injEq] at e
    have l1' : scr₁.hv.length = 5 := l1
    rw [e.2.2, h1, h2]
    refine ⟨?_, List.take_left' (by rw [List.length_replicate]; rfl)⟩
    rw [List.drop_eq_nil_of_le (by rw [l1']; decide), List.append_nil]
    rfl
  · rw [show transform Model.sha1 u scr (some c) (some buf) size = .ok (-1, some c, scr) by simp [transform, show ssizeMax < size by omega]] at hrun
    simp only [Res.ok.injEq, Prod.mk.injEq] at hrun
    exact absurd hrun.1.symm hr

/-- C25, violated by SHA-1: after every successful transform of at least one block, the last 64 words of the local schedule array are the schedule
words 16 to 79 of the last block, in the clear. -/
theorem C25_sha1_schedule_left (u : Bool) (scr : Scr 32) (c : Ctx 32) (buf : List Byte) (size : Nat) (hscr : Kind.Junk .sha1 scr)
    (hc : c.hashValues.length = 5) (hs : size ≤ maxSize) (hb : size ≤ buf.length) (h1 : 64 ≤ size) :
    ∃ r c' scr', transform Model.sha1 u scr (some c) (some buf) size = .ok (r, c', scr') ∧
      ∀ t, 16 ≤ t → t < 80 → scr'.vals[t]? = some (sha1W ((buf.drop ((size / 64 - 1) * 64)).take 64) t) := by
  obtain ⟨scr₁, t, e, ⟨l1, l2⟩, h2, h3, hq⟩ := transform_blocks sha1Lawful u scr c buf size (fun b s => Sched1Inv b 80 s.vals)
    (fun hv off scr r g1 g2 g3 g4 g5 => by
      obtain ⟨scr', e, -, hi⟩ := sha1Block_ok u hv buf off scr g1 g2 g3 g4
      have : (Res.ok r : Res _) = .ok _ := g5.symm.trans e
      rw [Res.ok.inj this]
      exact hi) hs (le_trans (Nat.div_mul_le_self _ _) hb) hc (scrOk_of_junk (k := .sha1) hscr)
  refine ⟨_, _, t, e, fun i h16 h80 => ?_⟩
  rw [h3, List.getElem?_append_right (by rw [List.length_replicate]; exact h16), List.length_replicate, List.getElem?_drop,
    show Model.sha1.wipeVals + (i - Model.sha1.wipeVals) = i from by show 16 + (i - 16) = i; omega]
  exact (hq h1).2 i h80

/-- C25, violated by SHA-1: what is left determines the last block completely, so all of its 64 bytes (for HMAC the padded key) can be recovered from
the stack. -/
theorem C25_sha1_block_recoverable (b₁ b₂ : List Byte) (h₁ : b₁.length = 64) (h₂ : b₂.length = 64)
    (h : ∀ t, 16 ≤ t → t < 80 → sha1W b₁ t = sha1W b₂ t) : b₁ = b₂ := by
  have key : ∀ d t, d = 16 - t → t < 80 → sha1W b₁ t = sha1W b₂ t := by
    intro d
    induction d using Nat.strong_induction_on with
    | _ d ih =>
      intro t hd ht
      by_cases h16 : 16 ≤ t
      · exact h t h16 ht
      · have e1 : ∀ b, sha1W b (t + 16) = (sha1W b (t + 13) ^^^ sha1W b (t + 8) ^^^ sha1W b (t + 2) ^^^ sha1W b t).rotateLeft 1 := by
          intro b
          rw [sha1W, if_neg (by omega)]
          rfl
        have := h (t + 16) (by omega) (by omega)
        rw [e1, e1, ih (16 - (t + 13)) (by omega) (t + 13) rfl (by omega), ih (16 - (t + 8)) (by omega) (t + 8) rfl (by omega),
          ih (16 - (t + 2)) (by omega) (t + 2) rfl (by omega)] at this
        exact (BitVec.xor_right_inj _).mp (rotl1_inj this)
  refine beWord_inj h₁ h₂ fun i hi => ?_
  have := key (16 - i) i rfl (by omega)
  rw [sha1W, if_pos hi, sha1W, if_pos hi] at this
  exact this

example : Kind.Junk .sha1 (junk0 .sha1) ∧ (ctx0 .sha1).hashValues.length = 5 ∧ 130 ≤ maxSize ∧ 130 ≤ (List.replicate 130 (7 : Byte)).length ∧ 64 ≤ 130 :=
  ⟨junk0_ok .sha1, by simp [ctx0, Kind.words], by decide, by rw [List.length_replicate], by decide⟩

/-- C34. The SHA-224 transform is the SHA-256 transform, for all arguments and both build variants (the two source files have separate tables and
macros). -/
theorem C34_same_transform : transform Model.sha224 = transform Model.sha256 := by
  have hb : sha224P = sha256P := by
    unfold sha224P sha256P
    rw [show sha224K = sha256K by decide, show sha224ExtendRows = sha256ExtendRows by decide +kernel,
      show sha224RoundRows = sha256RoundRows from rfl, show sha224AddRows = sha256AddRows by decide]
  have hl : ∀ (u : Bool) buf fuel size off hv scr, transformLoop Model.sha224 u buf fuel size off hv scr = transformLoop Model.sha256 u buf fuel size off hv scr := by
    intro u buf fuel
    induction fuel with
    | zero => intro size off hv scr; unfold transformLoop; rfl
    | succ n ih =>
      intro size off hv scr
      unfold transformLoop
      simp only [ih]
      show (if 64 ≤ size then sha2Block sha224P u hv buf off scr >>= _ else _) = (if 64 ≤ size then sha2Block sha256P u hv buf off scr >>= _ else _)
      rw [hb]; rfl
  funext u scr ctx buf size
  unfold transform
  simp only [hl]
  rfl

/-- C34. Updating a context is the same function for SHA-224 and SHA-256: fed the same data they process the same blocks. -/
theorem C34_same_update : ctxUpdate Model.sha224 = ctxUpdate Model.sha256 := by
  have h1 : updateFill Model.sha224 = updateFill Model.sha256 := by
    funext u scr c b size
    unfold updateFill
    rw [C34_same_transform]; rfl
  have h2 : updateBulk Model.sha224 = updateBulk Model.sha256 := by
    funext u scr c b off size
    unfold updateBulk
    rw [C34_same_transform]
  have h3 : updateTail Model.sha224 = updateTail Model.sha256 := rfl
  funext u scr ctx buf size
  unfold ctxUpdate
  rw [h1, h2, h3]

/-- C34. A SHA-224 stream returns the first 28 bytes of what SHA-256's blocks, padding and compression give from the SHA-224 initial value. -/
theorem C34_sha224_is_truncated (u : Bool) (env : Env 32) (s : St 32) (chunks : List (List Byte × Scr 32)) (last : Scr 32) (out : List Byte) (n : Nat)
    (hal : env.allocOk s.count = true) (hv : ValidStream .sha224 chunks last out n) :
    ∃ slot s', run Model.sha224 u env (hashCalls chunks last out n) none s =
      .ok (goodReplies chunks.length ((Spec.sha256.digestFrom Spec.sha224.iv (message chunks)).take 28 ++ out.drop 28), slot, s') := by
  obtain ⟨slot, s', e⟩ := stream_ok .sha224 u env s chunks last out n hal hv
  refine ⟨slot, s', ?_⟩
  rw [show (Spec.sha256.digestFrom Spec.sha224.iv (message chunks)).take 28 = Kind.sha224.len64.digest (message chunks) from ?_]
  · exact e
  · show (((Spec.sha224.chain Spec.sha224.iv (blocks 64 (pad 64 8 (beBytes 8) (message chunks)))).flatMap fun x => beBytes 4 x.toNat).take 28) =
      ((Spec.sha224.chain Spec.sha224.iv (blocks 64 (pad 64 8 (beBytes 8) (message chunks)))).take 7).flatMap fun x => beBytes 4 x.toNat
    have hl : (Spec.sha224.chain Spec.sha224.iv (blocks 64 (pad 64 8 (beBytes 8) (message chunks)))).length = 8 :=
      chain_length_words .sha224 _ _ rfl
    generalize Spec.sha224.chain Spec.sha224.iv (blocks 64 (pad 64 8 (beBytes 8) (message chunks))) = l at hl
    conv_lhs => rw [← List.take_append_drop 7 l, List.flatMap_append]
    rw [List.take_left' (outBe 7 4 l (by omega))]

example :=
  C34_sha224_is_truncated true (env0 .sha224) (st0 32) (chunks0 .sha224) (junk0 .sha224) (List.replicate 70 1) 66 rfl (chunks0_ok .sha224)

end Props
