import Verif.Proofs.Padding
import Verif.Props.Histories
/-! C32, C33: which blocks are processed for a message. -/

namespace Props

open Model Spec

/-- The padded message of the standards, with the length field as implemented (bit length modulo 2^64). -/
def padded (k : Kind) (m : List Byte) : List Byte := pad k.blockSize k.len64.lenBytes k.len64.lenField m

/-- The implementation of `k` with its block function replaced by an arbitrary compression function `f` on one block of the buffer; all control flow, buffering
and padding code is that of `k`. -/
def probe (k : Kind) (f : List (BitVec k.width) → List Byte → List (BitVec k.width)) : Alg k.width :=
  { algOf k with
    blockFn := fun _ hv buf off scr =>
      if off + (algOf k).blockSize ≤ buf.length then .ok (f hv ((buf.drop off).take (algOf k).blockSize), off + (algOf k).blockSize, scr) else .ub }

theorem probe_lawful (k : Kind) (f : List (BitVec k.width) → List Byte → List (BitVec k.width)) (hf : ∀ h b, h.length = k.words → (f h b).length = k.words) :
    ∃ enc, Lawful (probe k f) { k.len64 with compress := f } enc := by
  obtain ⟨enc, L⟩ := lawful k
  refine ⟨enc, ⟨L.size, L.bs, L.hmacBs, L.hashLe, L.limit, L.iv, L.ivLen, ?_, ?_, L.wipeH, L.wipeV, L.outLen, L.store, L.encLen, L.lenStore, L.field⟩⟩
  · intro u hv buf off scr h1 h2 h3 h4
    exact ⟨scr, if_pos h2, h3, h4⟩
  · intro hv b h
    have hn : (probe k f).nHash = k.words := algOf_nHash k
    rw [hn] at h ⊢
    exact hf hv b h

theorem probe_run (k : Kind) (f : List (BitVec k.width) → List Byte → List (BitVec k.width)) (hf : ∀ h b, h.length = k.words → (f h b).length = k.words)
    (u : Bool) (env : Env k.width) (s : St k.width) (calls : List (ApiCall × Scr k.width)) (hv : ValidCalls k calls) :
    ∃ slot s', run (probe k f) u env calls none s =
      .ok ((apiRun { k.len64 with compress := f } k.hashSize (List.replicate k.words 0) env.allocOk (calls.map (·.1)) ⟨none, s.count⟩).1, slot, s') ∧
      ApiRel (probe k f) { k.len64 with compress := f } s.live slot s'
        (apiRun { k.len64 with compress := f } k.hashSize (List.replicate k.words 0) env.allocOk (calls.map (·.1)) ⟨none, s.count⟩).2 := by
  obtain ⟨enc, L⟩ := probe_lawful k f hf
  have hh : (probe k f).hashSize = k.hashSize := algOf_hashSize k
  have hn : (probe k f).nHash = k.words := algOf_nHash k
  obtain ⟨slot, s', e, h, -⟩ := run_ok L u env s.live calls none s ⟨none, s.count⟩ (fun c hc => ⟨(hv c hc).1, scrOk_of_junk (hv c hc).2⟩) ⟨rfl, rfl⟩
  rw [hh, hn] at e h
  exact ⟨slot, s', e, h⟩

/-- C33. Whatever the compression function, the client that hashes `m` in any cutting gets the result of folding it over exactly the blocks of
the padded message, in order, from the initial value: these are the blocks processed, no others, each once. -/
theorem C33_blocks_processed (k : Kind) (f : List (BitVec k.width) → List Byte → List (BitVec k.width)) (hf : ∀ h b, h.length = k.words → (f h b).length = k.words)
    (u : Bool) (env : Env k.width) (s : St k.width) (chunks : List (List Byte × Scr k.width)) (last : Scr k.width) (out : List Byte) (n : Nat)
    (hal : env.allocOk s.count = true) (hv : ValidStream k chunks last out n) :
    ∃ slot s', run (probe k f) u env (hashCalls chunks last out n) none s =
      .ok (goodReplies chunks.length (k.std.output ((blocks k.blockSize (padded k (message chunks))).foldl f k.std.iv) ++ out.drop k.hashSize), slot, s') := by
  obtain ⟨slot, s', e, -⟩ := probe_run k f hf u env s _ (hashCalls_valid hv)
  refine ⟨slot, s', ?_⟩
  rw [e, hashCalls_map]
  simp only [apiRun, apiStep, hal, if_true]
  rw [apiRun_append, apiRun_updates _ _ _ _ _ _ _ _ (by
    intro c hc
    obtain ⟨x, hx, rfl⟩ := List.mem_map.mp hc
    exact (hv.chunks x hx).1)]
  have ho : k.std.output = k.len64.output := by cases k <;> rfl
  simp only [apiRun, apiStep, hv.size, and_self, if_true, List.nil_append, goodReplies, message, List.replicate_succ,
    List.cons_append, List.length_map, IterHash.digestFrom, IterHash.chain, padded, len64_bs, ho, std_iv]

/-- Counting the blocks: the first word counts them (modulo the word size). -/
example (k : Kind) := C33_blocks_processed k (fun h _ => h.map (· + 1)) (fun h _ e => by simpa using e) true (env0 k) (st0 k.width) (chunks0 k) (junk0 k)
  (List.replicate 70 1) 66 rfl (chunks0_ok k)

/-- C33. `update` processes every whole block of what was received as soon as it is complete: after a successful `initialize` and any updates the
context's chaining value is the fold over the whole blocks of the message so far, whatever the cutting and the compression function. -/
theorem C33_blocks_processed_by_update (k : Kind) (f : List (BitVec k.width) → List Byte → List (BitVec k.width))
    (hf : ∀ h b, h.length = k.words → (f h b).length = k.words) (u : Bool) (env : Env k.width) (s : St k.width) (chunks : List (List Byte × Scr k.width))
    (last : Scr k.width) (hal : env.allocOk s.count = true) (hv : ∀ c ∈ chunks, c.1.length ≤ maxSize ∧ Kind.Junk k c.2) (hl : Kind.Junk k last) :
    ∃ rs p c s', run (probe k f) u env ((.init, last) :: chunks.map (fun c => (.update (some c.1) c.1.length, c.2))) none s = .ok (rs, some p, s') ∧
      s'.live = (p, .ctx c) :: s.live ∧ c.hashValues = (blocks k.blockSize (message chunks)).foldl f k.std.iv := by
  have hvc : ValidCalls k ((.init, last) :: chunks.map (fun c => (.update (some c.1) c.1.length, c.2))) := by
    intro c hc
    simp only [List.mem_cons, List.mem_map] at hc
    rcases hc with rfl | ⟨x, hx, rfl⟩
    · exact ⟨trivial, hl⟩
    · exact ⟨fun _ => Nat.le_refl _, (hv x hx).2⟩
  obtain ⟨slot, s', e, h⟩ := probe_run k f hf u env s _ hvc
  have hB : 0 < k.blockSize := by cases k <;> decide
  have hb : (probe k f).blockSize = k.blockSize := algOf_blockSize k
  have hm : ((.init, last) :: chunks.map (fun c => (ApiCall.update (some c.1) c.1.length, c.2))).map (·.1) =
      .init :: (chunks.map (·.1)).map (fun c => .update (some c) c.length) := by simp [Function.comp_def]
  rw [hm] at e h
  simp only [apiRun, apiStep, hal, if_true] at e h
  rw [apiRun_updates _ _ _ _ _ _ _ _ (by
    intro c hc
    obtain ⟨x, hx, rfl⟩ := List.mem_map.mp hc
    exact (hv x hx).1)] at e h
  obtain ⟨-, h⟩ := h
  cases slot with
  | none => exact h.elim
  | some p =>
    obtain ⟨-, -, c, hlive, a, r, hmr, h1, h2, h3, -⟩ := h
    refine ⟨_, p, c, s', e, hlive, ?_⟩
    rw [hb] at h1 h2 h3
    rw [h3, show message chunks = a ++ r from by simpa [message] using hmr, blocks_append hB a r h1, blocks_of_lt h2, List.append_nil, std_iv]
    rfl

example (k : Kind) : (∀ c ∈ chunks0 k, c.1.length ≤ maxSize ∧ Kind.Junk k c.2) ∧ Kind.Junk k (junk0 k) := ⟨(chunks0_ok k).chunks, junk0_ok k⟩

/-- C33. The number of blocks: for an n byte message floor((n + L) / B) + 1 with L the 8 (SHA-512: 16) bytes of the length field; the smallest number of
blocks that can hold the message, the 0x80 byte and the length field. -/
theorem C33_number_of_blocks (k : Kind) (m : List Byte) :
    (blocks k.blockSize (padded k m)).length = (m.length + k.std.lenBytes) / k.blockSize + 1 ∧
    m.length + 1 + k.std.lenBytes ≤ (blocks k.blockSize (padded k m)).length * k.blockSize ∧
    ∀ j, m.length + 1 + k.std.lenBytes ≤ j * k.blockSize → (blocks k.blockSize (padded k m)).length ≤ j := by
  have hB : 0 < k.blockSize := by cases k <;> decide
  have hl : k.std.lenBytes = k.len64.lenBytes := by cases k <;> rfl
  have h := pad_blocks hB k.len64.lenField (lenField_length k) m
  unfold padded
  rw [h, hl]
  have h1 := Nat.div_add_mod (m.length + k.len64.lenBytes) k.blockSize
  have h2 := Nat.mod_lt (m.length + k.len64.lenBytes) hB
  refine ⟨rfl, ?_, fun j hj => ?_⟩
  · rw [Nat.add_mul, Nat.one_mul, Nat.mul_comm]; omega
  · by_contra hlt
    have : j ≤ (m.length + k.len64.lenBytes) / k.blockSize := by omega
    have := Nat.mul_le_mul_right k.blockSize this
    rw [Nat.mul_comm ((m.length + k.len64.lenBytes) / k.blockSize)] at this
    omega

/-- C33. `finalize` processes the blocks that the updates did not: one if the length field still fits after the last bytes, otherwise two. -/
theorem C33_blocks_in_finalize (k : Kind) (m : List Byte) :
    (blocks k.blockSize (padded k m)).length = (blocks k.blockSize m).length +
      if m.length % k.blockSize + 1 + k.std.lenBytes ≤ k.blockSize then 1 else 2 := by
  have hB : 0 < k.blockSize := by cases k <;> decide
  rw [(C33_number_of_blocks k m).1, blocks_length]
  have h1 := Nat.div_add_mod m.length k.blockSize
  have h2 := Nat.mod_lt m.length hB
  have hlb : k.std.lenBytes < k.blockSize := by cases k <;> decide
  generalize m.length / k.blockSize = q at *
  generalize m.length % k.blockSize = r at *
  rw [← h1, Nat.add_assoc, Nat.mul_add_div hB]
  split
  · rw [Nat.div_eq_of_lt (by omega)]
  · rw [show (r + k.std.lenBytes) / k.blockSize = 1 from by rw [Nat.div_eq_iff hB]; omega]

/-- The zero bytes of the padding are as few as possible. -/
theorem C33_padding_minimal (k : Kind) (m : List Byte) :
    ∃ z, padded k m = m ++ [0x80] ++ List.replicate z 0 ++ k.len64.lenField (8 * m.length) ∧ (m.length + 1 + z + k.std.lenBytes) % k.blockSize = 0 ∧
      ∀ j, j < z → (m.length + 1 + j + k.std.lenBytes) % k.blockSize ≠ 0 := by
  have hB : 0 < k.blockSize := by cases k <;> decide
  have hl : k.std.lenBytes = k.len64.lenBytes := by cases k <;> rfl
  rw [hl]
  exact ⟨_, rfl, padZeros_spec hB _ _⟩

/-- C32. Different messages below 2^61 bytes are processed as different block sequences (these are the sequences processed: `C33_blocks_processed`). -/
theorem C32_different_messages_different_blocks (k : Kind) (m₁ m₂ : List Byte) (h₁ : m₁.length < 2 ^ 61) (h₂ : m₂.length < 2 ^ 61) (hne : m₁ ≠ m₂) :
    blocks k.blockSize (padded k m₁) ≠ blocks k.blockSize (padded k m₂) := by
  have hB : 0 < k.blockSize := by cases k <;> decide
  intro h
  have hl := congrArg List.length h
  have z1 : (padded k m₁).length % k.blockSize = 0 := (pad_length hB k.len64.lenField (lenField_length k) m₁).2
  have z2 : (padded k m₂).length % k.blockSize = 0 := (pad_length hB k.len64.lenField (lenField_length k) m₂).2
  rw [blocks_length, blocks_length] at hl
  have e1 : (padded k m₁).length = (padded k m₁).length / k.blockSize * k.blockSize := by
    rw [Nat.div_mul_cancel (Nat.dvd_of_mod_eq_zero z1)]
  have e2 : (padded k m₂).length = (padded k m₁).length / k.blockSize * k.blockSize := by
    rw [hl, Nat.div_mul_cancel (Nat.dvd_of_mod_eq_zero z2)]
  exact hne (pad_inj _ (lenField_length k) (lenField_inj k _ _ h₁ h₂) (blocks_inj hB _ _ _ e1 e2 h))

example : (([1, 2] : List Byte) ≠ [1, 2, 0]) ∧ ([1, 2] : List Byte).length < 2 ^ 61 := by decide

/-- C32. If two clients hashing different messages (below 2^61 bytes) get the same digest, then there are two different pairs of chaining value and block
on which the block transform gives the same result; for SHA-224 the same first seven words. -/
theorem C32_collision_gives_transform_collision (k : Kind) (u₁ u₂ : Bool) (env₁ env₂ : Env k.width) (s₁ s₂ t₁ t₂ : St k.width)
    (chunks₁ chunks₂ : List (List Byte × Scr k.width)) (last₁ last₂ : Scr k.width) (n₁ n₂ : Nat) (out₁ out₂ o₁ o₂ : List Byte) (p₁ p₂ : Option Nat)
    (h₁ : env₁.allocOk s₁.count = true) (h₂ : env₂.allocOk s₂.count = true)
    (v₁ : ValidStream k chunks₁ last₁ out₁ n₁) (v₂ : ValidStream k chunks₂ last₂ out₂ n₂)
    (l₁ : (message chunks₁).length < 2 ^ 61) (l₂ : (message chunks₂).length < 2 ^ 61) (hne : message chunks₁ ≠ message chunks₂)
    (e₁ : run (algOf k) u₁ env₁ (hashCalls chunks₁ last₁ out₁ n₁) none s₁ = .ok (goodReplies chunks₁.length o₁, p₁, t₁))
    (e₂ : run (algOf k) u₂ env₂ (hashCalls chunks₂ last₂ out₂ n₂) none s₂ = .ok (goodReplies chunks₂.length o₂, p₂, t₂))
    (heq : o₁.take k.hashSize = o₂.take k.hashSize) :
    ∃ (c₁ c₂ : Ctx k.width) (b₁ b₂ : List Byte), c₁.hashValues.length = k.words ∧ c₂.hashValues.length = k.words ∧ b₁.length = k.blockSize ∧
      b₂.length = k.blockSize ∧ (c₁.hashValues, b₁) ≠ (c₂.hashValues, b₂) ∧
      ∀ u scr, Kind.Junk k scr → ∃ r c₁' c₂' scr₁ scr₂, transform (algOf k) u scr (some c₁) (some b₁) k.blockSize = .ok (r, some c₁', scr₁) ∧
        transform (algOf k) u scr (some c₂) (some b₂) k.blockSize = .ok (r, some c₂', scr₂) ∧
        if k = .sha224 then c₁'.hashValues.take 7 = c₂'.hashValues.take 7 else c₁'.hashValues = c₂'.hashValues := by
  obtain ⟨q₁, w₁, d₁⟩ := stream_ok k u₁ env₁ s₁ chunks₁ last₁ out₁ n₁ h₁ v₁
  obtain ⟨q₂, w₂, d₂⟩ := stream_ok k u₂ env₂ s₂ chunks₂ last₂ out₂ n₂ h₂ v₂
  rw [d₁] at e₁
  rw [d₂] at e₂
  simp only [Res.ok.injEq, Prod.mk.injEq, goodReplies, List.append_cancel_left_eq, List.cons.injEq, and_true, Reply.mk.injEq, Option.some.injEq, true_and] at e₁ e₂
  rw [← e₁.1, ← e₂.1, List.take_left' (digest_length k _), List.take_left' (digest_length k _)] at heq
  obtain ⟨g₁, b₁, g₂, b₂, lg₁, lg₂, lb₁, lb₂, hgne, hout, hcomp⟩ := digest_collision k _ _ l₁ l₂ hne heq
  obtain ⟨enc, L⟩ := lawful k
  have hB : 0 < k.blockSize := by cases k <;> decide
  have hbs := algOf_blockSize k
  refine ⟨⟨0, g₁, 0, []⟩, ⟨0, g₂, 0, []⟩, b₁, b₂, lg₁, lg₂, lb₁, lb₂, hgne, fun u scr hscr => ?_⟩
  have hmax : k.blockSize ≤ ssizeMax := by cases k <;> decide
  obtain ⟨scr₁, x₁, -⟩ := transform_ok L u scr ⟨0, g₁, 0, []⟩ b₁ k.blockSize hmax (by omega) (by rw [algOf_nHash]; exact lg₁) (scrOk_of_junk hscr)
  obtain ⟨scr₂, x₂, -⟩ := transform_ok L u scr ⟨0, g₂, 0, []⟩ b₂ k.blockSize hmax (by omega) (by rw [algOf_nHash]; exact lg₂) (scrOk_of_junk hscr)
  rw [hbs, List.take_of_length_le (by omega), blocks_single hB lb₁] at x₁
  rw [hbs, List.take_of_length_le (by omega), blocks_single hB lb₂] at x₂
  refine ⟨_, _, _, scr₁, scr₂, x₁, x₂, ?_⟩
  simp only [IterHash.chain, List.foldl_cons, List.foldl_nil]
  split
  · rename_i hk
    subst hk
    have l1 := L.comp g₁ b₁ (by rw [algOf_nHash]; exact lg₁)
    have l2 := L.comp g₂ b₂ (by rw [algOf_nHash]; exact lg₂)
    exact flatMap_inj _ 4 (fun _ => beBytes_length _ _) (beBytes_word_inj (by decide)) _ _ (by rw [List.length_take, List.length_take, l1, l2]) hout
  · rename_i hk
    exact hcomp hk

/-- The hypotheses other than the collision itself are those of a normal pair of clients. -/
example (k : Kind) : message (chunks0 k) ≠ message ([([1], junk0 k)] : List (List Byte × Scr k.width)) ∧ (message (chunks0 k)).length < 2 ^ 61 := by
  refine ⟨fun h => ?_, by rw [chunks0_len]; decide⟩
  have := congrArg List.length h
  rw [chunks0_len] at this
  simp [message] at this

end Props
