import Verif.Proofs.Builds
/-! The sum handle and the main program over an implementation of the contexts that obeys a law. -/

namespace Model.Builds

open Model
open Spec (Kind IterHash ApiCall Reply ApiState hex Line Selected DigestLines printOrder)

/-- What the contexts of a handle stand for: no context, a context that was given some bytes, or one that says nothing anymore. -/
abbrev Msgs := Kind → Option (Option (List Byte))

/-- The law of an implementation. `Good`: its calls do not fail, for updates of up to `limit` bytes. -/
structure Law {M : Type} (C : Contexts M) (T : Tool) (Good : Prop) (limit : Nat) (Rel : (Kind → Option Nat) → M → Msgs → Prop) : Prop where
  width : 17 ≤ C.bits ∧ C.bits ≤ 64
  null : ∀ {ctx m b}, Rel ctx m b → ∀ k, ctx k = none ↔ b k = none
  attempt : ∀ {ctx m b}, Rel ctx m b → Rel ctx (C.attempt m) b
  init : ∀ {ctx m b}, Rel ctx m b → ∀ k n, ∃ r slot m', C.call k .init n (ctx k) m = .ok (r, slot, m') ∧
    (r.code = 1 ∧ b k = none ∧ Rel (Function.update ctx k slot) m' (Function.update b k (some (some []))) ∨ r.code ≠ 1 ∧ Rel (Function.update ctx k slot) m' b) ∧
    (b k = none → (∀ n, T.alloc n = true) → Good → r.code = 1)
  update : ∀ {ctx m b}, Rel ctx m b → ∀ k n x buffer size, b k = some x → 0 < size → size ≤ C.sizeMax → size ≤ buffer.length → ∃ r slot m' y,
    C.call k (.update (some buffer) size) n (ctx k) m = .ok (r, slot, m') ∧ Rel (Function.update ctx k slot) m' (Function.update b k (some y)) ∧
    (r.code = 1 → y = x.map (· ++ buffer.take size)) ∧ (Good → size ≤ limit → r.code = 1)
  finalize : ∀ {ctx m b}, Rel ctx m b → ∀ k n x o, b k = some x → o.length = k.hashSize → ∃ r slot m' out,
    C.call k (.finalize (some o) k.hashSize) n (ctx k) m = .ok (r, slot, m') ∧ Rel (Function.update ctx k slot) m' (Function.update b k (some none)) ∧
    r.out = some out ∧ out.length = k.hashSize ∧ (r.code = 1 → ∀ msg, x = some msg → msg.length < 2 ^ 61 → out = k.std.digest msg) ∧ (Good → r.code = 1)
  free : ∀ {ctx m b}, Rel ctx m b → ∀ k n x, b k = some x → ∃ r slot m', C.call k .free n (ctx k) m = .ok (r, slot, m') ∧ r.code = 1 ∧
    Rel (Function.update ctx k slot) m' (Function.update b k none)

theorem _root_.Model.Contexts.sizeMax_lt {M : Type} (C : Contexts M) : C.sizeMax < 2 ^ C.bits := by
  have : 2 ^ (C.bits - 1) ≤ 2 ^ C.bits := Nat.pow_le_pow_right (by omega) (by omega)
  have : 0 < 2 ^ (C.bits - 1) := Nat.pow_pos (by omega)
  unfold Contexts.sizeMax hostMax
  omega

variable {M : Type} {C : Contexts M} {T : Tool} {Good : Prop} {limit : Nat} {Rel : (Kind → Option Nat) → M → Msgs → Prop}

theorem allocBlock_rel (hC : Law C T Good limit Rel) {ctx : Kind → Option Nat} {W : WorldOf M} {b : Msgs} (h : Rel ctx W.mem b) : Rel ctx (allocBlock T C W).2.mem b := by
  unfold allocBlock
  split <;> exact hC.attempt h

theorem initHashes_ok (hC : Law C T Good limit Rel) : ∀ (ks : List Kind) (h : Handle) (W : WorldOf M) (b : Msgs), ks.Nodup → Rel h.context W.mem b →
    ∃ ok ctx' W' b', initHashes C ks h W = .ok (ok, { h with context := ctx' }, W') ∧ W'.blocks = W.blocks ∧ Rel ctx' W'.mem b' ∧
      (ok = true → ∀ k, if k ∈ ks ∧ h.calculate k = true then b k = none ∧ b' k = some (some []) else b' k = b k) ∧
      ((∀ k ∈ ks, h.calculate k = true → b k = none) → (∀ n, T.alloc n = true) → Good → ok = true)
  | [], h, W, b, _, hrel => ⟨true, h.context, W, b, rfl, rfl, hrel, by simp, by simp⟩
  | k :: ks, h, W, b, hnd, hrel => by
    have hk : k ∉ ks := (List.nodup_cons.mp hnd).1
    by_cases hc : h.calculate k = true
    · obtain ⟨r, slot', m', e, hr, hg⟩ := hC.init hrel k h.readCount
      have e' : ctxCall C k .init h.readCount h W = .ok (r, { h with context := Function.update h.context k slot' }, { W with mem := m' }) := by
        simp only [ctxCall, e, Res.ok_bind, Res.pure_eq]
      rcases hr with ⟨hcode, hbk, hr⟩ | ⟨hcode, hr⟩
      · obtain ⟨ok, ctx', W'', b', e2, hb2, hr2, hok, hsuc⟩ := initHashes_ok hC ks { h with context := Function.update h.context k slot' } { W with mem := m' } _
          (List.nodup_cons.mp hnd).2 hr
        refine ⟨ok, ctx', W'', b', ?_, hb2, hr2, fun h1 j => ?_, fun h1 h2 => hsuc (fun j hj hcj => ?_) h2⟩
        · simp only [initHashes, hc, if_true, e', Res.ok_bind, hcode, ne_eq, not_true_eq_false, if_false, e2]
        · have := hok h1 j
          by_cases hj : j = k
          · subst hj
            simp only [hk, false_and, if_false, Function.update_self] at this
            simp only [List.mem_cons, true_or, hc, and_self, if_true]
            exact ⟨hbk, this⟩
          · simpa only [List.mem_cons, hj, false_or, Function.update_of_ne hj] using this
        · have hne : j ≠ k := fun e => hk (e ▸ hj)
          rw [Function.update_of_ne hne]
          exact h1 j (by simp [hj]) hcj
      · refine ⟨false, _, { W with mem := m' }, b, ?_, rfl, hr, by simp, fun h1 h2 h3 => absurd (hg (h1 k (by simp) hc) h2 h3) hcode⟩
        simp only [initHashes, hc, if_true, e', Res.ok_bind, ne_eq, hcode, not_false_eq_true, Res.pure_eq]
    · obtain ⟨ok, ctx', W', b', e, hb, hr, hok, hsuc⟩ := initHashes_ok hC ks h W b (List.nodup_cons.mp hnd).2 hrel
      refine ⟨ok, ctx', W', b', ?_, hb, hr, fun h1 j => ?_, fun h1 h2 => hsuc (fun j hj => h1 j (by simp [hj])) h2⟩
      · simp only [initHashes, hc, e]; rfl
      · have := hok h1 j
        by_cases hj : j = k
        · subst hj
          simpa [hk, hc] using this
        · simpa only [List.mem_cons, hj, false_or] using this

theorem freeHash_ok (hC : Law C T Good limit Rel) (k : Kind) (h : Handle) (W : WorldOf M) (b : Msgs) (hrel : Rel h.context W.mem b) :
    ∃ slot W', freeHash C k h W = .ok ({ h with context := Function.update h.context k slot }, W') ∧ W'.blocks = W.blocks ∧
      Rel (Function.update h.context k slot) W'.mem (Function.update b k none) := by
  unfold freeHash
  cases hc : h.context k with
  | none =>
    have hb := (hC.null hrel k).mp hc
    have e1 : Function.update h.context k none = h.context := by rw [← hc, Function.update_eq_self]
    have e2 : Function.update b k none = b := by rw [← hb, Function.update_eq_self]
    exact ⟨none, W, by rw [e1], rfl, by rw [e1, e2]; exact hrel⟩
  | some p =>
    obtain ⟨x, hx⟩ := Option.ne_none_iff_exists'.mp (fun hb => by rw [(hC.null hrel k).mpr hb] at hc; cases hc)
    obtain ⟨r, slot', m', e, -, hr⟩ := hC.free hrel k h.readCount x hx
    exact ⟨slot', { W with mem := m' }, by simp only [ctxCall, e, Res.ok_bind, Res.pure_eq], rfl, hr⟩

theorem initIntegrity_ok (hC : Law C T Good limit Rel) (h : Handle) (W : WorldOf M) (b : Msgs) (hrel : Rel h.context W.mem b) :
    ∃ r ctx' W' b', initIntegrity C h W = .ok (r, { h with context := ctx' }, W') ∧ W'.blocks = W.blocks ∧ Rel ctx' W'.mem b' ∧
      (r = 1 → ∀ k, h.calculate k = true → b' k = some (some [])) ∧
      ((∀ k, h.calculate k = true → b k = none) → (∀ n, T.alloc n = true) → Good → r = 1) := by
  obtain ⟨ok, ctx', W', b', e, hb, hr, hok, hsuc⟩ := initHashes_ok hC digestOrder h W b digestOrder_nodup hrel
  cases ok with
  | true =>
    refine ⟨1, ctx', W', b', by simp only [initIntegrity, e, Res.ok_bind, if_true, Res.pure_eq], hb, hr, fun _ k hk => ?_, fun _ _ _ => rfl⟩
    have := hok rfl k
    rw [if_pos ⟨mem_digestOrder k, hk⟩] at this
    exact this.2
  | false =>
    obtain ⟨s1, W1, e1, hb1, hr1⟩ := freeHash_ok hC .sha1 { h with context := ctx' } W' b' hr
    obtain ⟨s2, W2, e2, hb2, hr2⟩ := freeHash_ok hC .md5 { h with context := Function.update ctx' .sha1 s1 } W1 _ hr1
    refine ⟨-1, _, W2, _, ?_, hb2.trans (hb1.trans hb), hr2, fun h => absurd h (by decide), fun h1 h2 h3 => absurd (hsuc (fun k _ => h1 k) h2 h3) (by simp)⟩
    simp only [initIntegrity, e, Res.ok_bind, e1, e2, Res.pure_eq]
    rfl

theorem updateHashes_ok (hC : Law C T Good limit Rel) (buffer : List Byte) (size : Nat) (h0 : 0 < size) (hs : size ≤ C.sizeMax) (hl : size ≤ buffer.length) :
    ∀ (ks : List Kind) (h : Handle) (W : WorldOf M) (b : Msgs), ks.Nodup → Rel h.context W.mem b → (∀ k, h.calculate k = true → b k ≠ none) →
    ∃ r ctx' W' b', updateHashes C buffer size ks h W = .ok (r, { h with context := ctx' }, W') ∧ W'.blocks = W.blocks ∧ Rel ctx' W'.mem b' ∧
      (∀ k, h.calculate k = true → b' k ≠ none) ∧
      (r = 1 → ∀ k, b' k = if k ∈ ks ∧ h.calculate k = true then (b k).map (Option.map (· ++ buffer.take size)) else b k) ∧ (Good → size ≤ limit → r = 1)
  | [], h, W, b, _, hrel, hne => ⟨1, h.context, W, b, rfl, rfl, hrel, hne, by simp, fun _ _ => rfl⟩
  | k :: ks, h, W, b, hnd, hrel, hne => by
    have hk : k ∉ ks := (List.nodup_cons.mp hnd).1
    by_cases hc : h.calculate k = true
    · obtain ⟨x, hx⟩ := Option.ne_none_iff_exists'.mp (hne k hc)
      obtain ⟨r, slot', m', y, e, hr, hy, hg⟩ := hC.update hrel k h.readCount x buffer size hx h0 hs hl
      have e' : ctxCall C k (.update (some buffer) size) h.readCount h W = .ok (r, { h with context := Function.update h.context k slot' }, { W with mem := m' }) := by
        simp only [ctxCall, e, Res.ok_bind, Res.pure_eq]
      have hne' : ∀ j, h.calculate j = true → Function.update b k (some y) j ≠ none := fun j hcj => by
        by_cases hj : j = k
        · subst hj
          simp
        · rw [Function.update_of_ne hj]
          exact hne j hcj
      by_cases hcode : r.code = 1
      · obtain ⟨r', ctx', W'', b', e2, hb2, hr2, hn2, hall, hg2⟩ := updateHashes_ok hC buffer size h0 hs hl ks { h with context := Function.update h.context k slot' } { W with mem := m' } _
          (List.nodup_cons.mp hnd).2 hr hne'
        refine ⟨r', ctx', W'', b', ?_, hb2, hr2, hn2, fun h1 j => ?_, hg2⟩
        · simp only [updateHashes, hc, if_true, e', Res.ok_bind, hcode, ne_eq, not_true_eq_false, if_false, e2]
        · rw [hall h1 j]
          by_cases hj : j = k
          · subst hj
            rw [if_neg (by simp [hk]), Function.update_self, hy hcode, if_pos ⟨by simp, hc⟩, hx]; rfl
          · simp only [List.mem_cons, hj, false_or, Function.update_of_ne hj]
      · refine ⟨-1, _, { W with mem := m' }, _, ?_, rfl, hr, hne', fun h => absurd h (by decide), fun h1 h2 => absurd (hg h1 h2) hcode⟩
        simp only [updateHashes, hc, if_true, e', Res.ok_bind, hcode, ne_eq, not_false_eq_true, Res.pure_eq]
    · obtain ⟨r, ctx', W', b', e, hb, hr, hn, hall, hg⟩ := updateHashes_ok hC buffer size h0 hs hl ks h W b (List.nodup_cons.mp hnd).2 hrel hne
      refine ⟨r, ctx', W', b', ?_, hb, hr, hn, fun h1 j => ?_, hg⟩
      · simp only [updateHashes, hc, e]; rfl
      · rw [hall h1 j]
        by_cases hj : j = k
        · subst hj
          simp [hk, hc]
        · simp only [List.mem_cons, hj, false_or]

theorem finalizeHashes_ok (hT : T.Ok) (hC : Law C T Good limit Rel) : ∀ (ks : List Kind) (h : Handle) (W : WorldOf M) (b : Msgs), ks.Nodup → Rel h.context W.mem b →
    (∀ k, h.calculate k = true → b k ≠ none) → StringsOk T h →
    ∃ r ctx' str' W' b', finalizeHashes T C ks h W = .ok (r, { h with context := ctx', hashString := str' }, W') ∧ W'.blocks = W.blocks ∧ Rel ctx' W'.mem b' ∧
      (∀ k, (str' k).map (·.1) = (h.hashString k).map (·.1)) ∧ StringsOk T { h with context := ctx', hashString := str' } ∧
      (∀ k, k ∉ ks → str' k = h.hashString k) ∧
      (r = 1 → ∀ k ∈ ks, h.calculate k = true → ∃ p d, str' k = some (p, hex d ++ [0]) ∧ ∀ msg, b k = some (some msg) → msg.length < 2 ^ 61 → d = k.std.digest msg) ∧
      (Good → r = 1)
  | [], h, W, b, _, hrel, _, hstr => ⟨1, h.context, h.hashString, W, b, rfl, rfl, hrel, fun _ => rfl, hstr, fun _ _ => rfl, by simp, fun _ => rfl⟩
  | k :: ks, h, W, b, hnd, hrel, hne, hstr => by
    have hk : k ∉ ks := (List.nodup_cons.mp hnd).1
    by_cases hc : h.calculate k = true
    · obtain ⟨x, hx⟩ := Option.ne_none_iff_exists'.mp (hne k hc)
      obtain ⟨p, s, hps, hsl, -⟩ := hstr k hc
      obtain ⟨r, slot', m', out, e, hr, hout, hlen, hd, hg⟩ := hC.finalize hrel k h.readCount x (T.hashJunk k) hx (hT.hashJunk k)
      have e' : ctxCall C k (.finalize (some (T.hashJunk k)) k.hashSize) h.readCount h W = .ok (r, { h with context := Function.update h.context k slot' }, { W with mem := m' }) := by
        simp only [ctxCall, e, Res.ok_bind, Res.pure_eq]
      have hne' : ∀ j, h.calculate j = true → Function.update b k (some none) j ≠ none := fun j hcj => by
        by_cases hj : j = k
        · subst hj
          simp
        · rw [Function.update_of_ne hj]
          exact hne j hcj
      by_cases hcode : r.code = 1
      · have hdig : digestToString (some out) k.hashSize (some s) (stringSize k) = .ok (1, some (hex out ++ [0])) := by
          rw [digestToString_ok _ _ _ _ (by rw [hlen]) (by rw [stringSize_eq]) (by cases k <;> decide) (by rw [hsl]), List.take_of_length_le (by rw [hlen]),
            List.drop_eq_nil_of_le (by rw [hsl, stringSize_eq])]
        have hstr2 : StringsOk T { h with
            context := Function.update h.context k slot'
            hashString := Function.update h.hashString k (some (p, hex out ++ [0])) } := by
          intro j hj
          by_cases hjk : j = k
          · subst hjk
            refine ⟨p, hex out ++ [0], by simp only [Function.update_self], ?_, fun _ => by simp⟩
            rw [List.length_append, hex_length, hlen, stringSize_eq]; rfl
          · simp only [Function.update_of_ne hjk]
            exact hstr j hj
        obtain ⟨r', ctx', str', W'', b', e2, hb2, hr2, hst2, hso2, hout2, hall, hg2⟩ := finalizeHashes_ok hT hC ks { h with
            context := Function.update h.context k slot'
            hashString := Function.update h.hashString k (some (p, hex out ++ [0])) } { W with mem := m' } _ (List.nodup_cons.mp hnd).2 hr hne' hstr2
        refine ⟨r', ctx', str', W'', b', ?_, hb2, hr2, fun j => ?_, hso2, fun j hj => ?_, fun h1 j hj hcj => ?_, hg2⟩
        · simp only [finalizeHashes, hc, if_true, hps, e', Res.ok_bind, hcode, hout, ne_eq, not_true_eq_false, if_false, hdig, Option.map_some]
          exact e2
        · rw [hst2 j]
          by_cases hj : j = k
          · subst hj
            simp [hps]
          · simp [Function.update_of_ne hj]
        · simp only [List.mem_cons, not_or] at hj
          rw [hout2 j hj.2]
          simp [Function.update_of_ne hj.1]
        · by_cases hjk : j = k
          · subst hjk
            refine ⟨p, out, by rw [hout2 j hk]; simp, fun msg hm hl => hd hcode msg ?_ hl⟩
            rw [hx] at hm
            injection hm
          · obtain ⟨p', d', g1, g2⟩ := hall h1 j (by simpa [hjk] using hj) hcj
            exact ⟨p', d', g1, fun msg hm => g2 msg (by rw [Function.update_of_ne hjk]; exact hm)⟩
      · refine ⟨-1, _, h.hashString, { W with mem := m' }, _, ?_, rfl, hr, fun _ => rfl, hstr, fun _ _ => rfl, fun h => absurd h (by decide), fun h1 => absurd (hg h1) hcode⟩
        simp only [finalizeHashes, hc, if_true, hps, e', Res.ok_bind, hcode, ne_eq, not_false_eq_true, Res.pure_eq]
    · obtain ⟨r, ctx', str', W', b', e, hb, hr, hst, hso, hout, hall, hg⟩ := finalizeHashes_ok hT hC ks h W b (List.nodup_cons.mp hnd).2 hrel hne hstr
      refine ⟨r, ctx', str', W', b', ?_, hb, hr, hst, hso, fun j hj => hout j fun h => hj (by simp [h]), fun h1 j hj hcj => ?_, hg⟩
      · simp only [finalizeHashes, hc, e]; rfl
      · rcases List.mem_cons.mp hj with rfl | hj
        · exact absurd hcj hc
        · exact hall h1 j hj hcj

theorem processLoop_ok (hC : Law C T Good limit Rel) (inp : Input) (aborted : Nat → Bool) (mediaSize : Nat) :
    ∀ (fuel pc : Nat) (buffer : List Byte) (h : Handle) (W : WorldOf M) (b : Msgs), mediaSize ≤ pc + fuel → pc ≤ mediaSize → 0 < h.bufferSize → h.bufferSize ≤ C.sizeMax →
      buffer.length = h.bufferSize → Rel h.context W.mem b → (∀ k, h.calculate k = true → b k ≠ none) →
    ∃ ok ctx' ab' pos' rc' W' b' d, processLoop C inp aborted mediaSize fuel pc buffer h W =
        .ok (ok, { h with context := ctx', abort := ab', position := pos', readCount := rc' }, W') ∧
      W'.blocks = W.blocks ∧ Rel ctx' W'.mem b' ∧ (∀ k, h.calculate k = true → b' k ≠ none) ∧
      (ok = true → ∀ k, h.calculate k = true → b' k = (b k).map (Option.map (· ++ d))) ∧ d <+: inp.content.drop h.position ∧
      (ok = true → pc + d.length = mediaSize ∨ ab' = true) ∧ (ab' = true → h.abort = true ∨ ∃ n, aborted n = true) ∧
      (Good → h.bufferSize ≤ limit ∨ mediaSize ≤ limit → (∀ i, ∃ c, inp.reads i = some c ∧ 0 < c) → h.position + (mediaSize - pc) ≤ inp.content.length → ok = true) := by
  intro fuel
  induction fuel with
  | zero =>
    intro pc buffer h W b hf hpc _ _ _ hrel hne
    refine ⟨true, h.context, h.abort, h.position, h.readCount, W, b, [], ?_, rfl, hrel, hne, fun _ k _ => ?_, List.nil_prefix, fun _ => .inl (by simp; omega), .inl, fun _ _ _ _ => rfl⟩
    · rw [processLoop, if_neg (by omega)]
    · cases b k with
      | none => rfl
      | some x => cases x <;> simp
  | succ fuel ih =>
    intro pc buffer h W b hf hpc hb0 hb1 hbl hrel hne
    by_cases hlt : pc < mediaSize
    · obtain ⟨rs, hrs⟩ : ∃ rs, rs = if mediaSize - pc < h.bufferSize then (mediaSize - pc) % 2 ^ C.bits else h.bufferSize := ⟨_, rfl⟩
      have hmod : mediaSize - pc < h.bufferSize → (mediaSize - pc) % 2 ^ C.bits = mediaSize - pc := fun hm => Nat.mod_eq_of_lt (by have := C.sizeMax_lt; omega)
      have hrs1 : 0 < rs ∧ rs ≤ h.bufferSize ∧ rs ≤ mediaSize - pc := by
        rw [hrs]
        split
        · rename_i hm
          rw [hmod hm]
          omega
        · omega
      rw [processLoop, if_pos hlt]
      simp only [← hrs]
      cases hread : inp.reads h.readCount with
      | none =>
        refine ⟨false, h.context, h.abort, h.position, h.readCount + 1, W, b, [], ?_, rfl, hrel, hne, by simp, List.nil_prefix, by simp, .inl, fun _ _ hr _ => ?_⟩
        · simp only [readInput, if_neg (show ¬ C.sizeMax < rs by omega), hread, Res.pure_eq]
        · obtain ⟨c, hc, -⟩ := hr h.readCount
          rw [hread] at hc
          cases hc
      | some c =>
        obtain ⟨d, hd⟩ : ∃ d, d = (inp.content.drop h.position).take (min c rs) := ⟨_, rfl⟩
        have hdl : d.length = min (min c rs) (inp.content.length - h.position) := by rw [hd, List.length_take, List.length_drop]
        have hpd : d <+: inp.content.drop h.position := hd ▸ List.take_prefix _ _
        have hrd : readInput C inp rs h = (some d, { h with readCount := h.readCount + 1, position := h.position + d.length }) := by
          simp only [readInput, if_neg (show ¬ C.sizeMax < rs by omega), hread, ← hd]
        rw [hrd]
        simp only [memCopy_front buffer d (by omega), Res.ok_bind]
        by_cases hd0 : d.length = 0
        · refine ⟨false, h.context, h.abort, h.position, h.readCount + 1, W, b, [], ?_, rfl, hrel, hne, by simp, List.nil_prefix, by simp, .inl, fun _ _ hr hlen => ?_⟩
          · rw [if_pos hd0, hd0]; rfl
          · obtain ⟨c', hc', hc0⟩ := hr h.readCount
            rw [hread] at hc'
            injection hc' with hc'
            omega
        · rw [if_neg hd0]
          obtain ⟨r1, ctx1, W1, b1, e1, hbk1, hr1, hn1, hall1, hg1⟩ := updateHashes_ok hC (d ++ buffer.drop d.length) d.length (by omega) (by omega) (by simp) digestOrder
            { h with readCount := h.readCount + 1, position := h.position + d.length } W b digestOrder_nodup hrel hne
          have e1' : updateIntegrity C (d ++ buffer.drop d.length) d.length { h with readCount := h.readCount + 1, position := h.position + d.length } W =
              .ok (r1, { h with readCount := h.readCount + 1, position := h.position + d.length, context := ctx1 }, W1) := by
            rw [updateIntegrity, if_neg (by omega)]; exact e1
          simp only [e1', Res.ok_bind]
          by_cases hr1' : r1 = 1
          · subst hr1'
            simp only [ne_eq, not_true_eq_false, if_false]
            have hall1' : ∀ k, h.calculate k = true → b1 k = (b k).map (Option.map (· ++ d)) := fun k hk => by
              have := hall1 rfl k
              rw [List.take_left' rfl, if_pos ⟨mem_digestOrder k, hk⟩] at this
              exact this
            by_cases hab : (h.abort || aborted (h.readCount + 1)) = true
            · refine ⟨true, ctx1, true, h.position + d.length, h.readCount + 1, W1, b1, d, ?_, hbk1, hr1, hn1, fun _ => hall1', hpd, fun _ => .inr rfl, fun _ => ?_, fun _ _ _ _ => rfl⟩
              · rw [if_pos hab, hab]; rfl
              · rcases Bool.or_eq_true_iff.mp hab with h1 | h1
                · exact .inl h1
                · exact .inr ⟨_, h1⟩
            · rw [if_neg hab]
              obtain ⟨ok, ctx', ab', pos', rc', W', b', d', e, hbk, hr, hn, hall, hpre, hok, hab2, hg⟩ := ih (pc + d.length)
                (d ++ buffer.drop d.length)
                { h with context := ctx1, readCount := h.readCount + 1, position := h.position + d.length, abort := h.abort || aborted (h.readCount + 1) } W1 b1 (by omega) (by omega) hb0 hb1 (by simp; omega) hr1 hn1
              refine ⟨ok, ctx', ab', pos', rc', W', b', d ++ d', e, hbk.trans hbk1, hr, hn, fun h1 k hk => ?_, ?_, fun h1 => ?_, fun h1 => ?_, fun h1 h2 h3 h4 => hg h1 h2 h3 (by simp only; omega)⟩
              · rw [hall h1 k hk, hall1' k hk]
                cases b k with
                | none => rfl
                | some x => cases x <;> simp
              · have hpd : d ++ inp.content.drop (h.position + d.length) = inp.content.drop h.position := by
                  obtain ⟨t, ht⟩ := hpd
                  rw [← List.drop_drop, ← ht, List.drop_left' rfl]
                rw [← hpd]
                exact List.prefix_append_right_inj d |>.mpr hpre
              · rw [List.length_append, ← Nat.add_assoc]
                exact hok h1
              · rcases hab2 h1 with h2 | h2
                · exact absurd h2 hab
                · exact .inr h2
          · refine ⟨false, ctx1, h.abort, h.position + d.length, h.readCount + 1, W1, b1, [], ?_, hbk1, hr1, hn1, by simp, List.nil_prefix, by simp, .inl, fun h1 h2 _ _ => absurd (hg1 h1 (by rcases h2 with h2 | h2 <;> omega)) hr1'⟩
            simp only [ne_eq, hr1', not_false_eq_true, if_true, Res.pure_eq]
    · refine ⟨true, h.context, h.abort, h.position, h.readCount, W, b, [], ?_, rfl, hrel, hne, fun _ k _ => ?_, List.nil_prefix, fun _ => .inl (by simp; omega), .inl, fun _ _ _ _ => rfl⟩
      · rw [processLoop, if_neg hlt]
      · cases b k with
        | none => rfl
        | some x => cases x <;> simp

/-- Reachable handles: contexts are valid, enabled digests and only those have a string, and the other blocks are those of the handle and `blk`. -/
def HandleInv (T : Tool) (Rel : (Kind → Option Nat) → M → Msgs → Prop) (blk : List Nat) (h : Handle) (W : WorldOf M) : Prop :=
  (∃ b, Rel h.context W.mem b) ∧ StringsOk T h ∧ (∀ k, h.calculate k = false → h.hashString k = none) ∧ W.blocks.Perm (handleBlocks h ++ blk)

/-- The handle variable is NULL. -/
def NoneInv (Rel : (Kind → Option Nat) → M → Msgs → Prop) (blk : List Nat) (W : WorldOf M) : Prop := Rel (fun _ => none) W.mem (fun _ => none) ∧ W.blocks.Perm blk

/-- Reachable values of a handle variable. -/
def VarInv (T : Tool) (Rel : (Kind → Option Nat) → M → Msgs → Prop) (blk : List Nat) (slot : Option Handle) (W : WorldOf M) : Prop :=
  match slot with
  | none => NoneInv Rel blk W
  | some h => HandleInv T Rel blk h W

theorem processInput_ok (hT : T.Ok) (hC : Law C T Good limit Rel) (inp : Input) (aborted : Nat → Bool) (blk : List Nat) (h : Handle) (W : WorldOf M) (hI : HandleInv T Rel blk h W) :
    ∃ r ctx' str' ab' pos' rc' W', processInput T C inp aborted h W =
        .ok (r, { h with context := ctx', hashString := str', abort := ab', position := pos', readCount := rc' }, W') ∧
      HandleInv T Rel blk { h with context := ctx', hashString := str', abort := ab', position := pos', readCount := rc' } W' ∧
      (ab' = true → h.abort = true ∨ ∃ n, aborted n = true) ∧
      (r = 1 → ∃ size d, inp.size = some size ∧ d <+: inp.content.drop h.position ∧ (d.length = size ∨ ab' = true) ∧
        ∀ k, h.calculate k = true → ∃ p o, str' k = some (p, hex o ++ [0]) ∧ (d.length < 2 ^ 61 → o = k.std.digest d)) ∧
      (∀ size, inp.size = some size → 0 < h.bufferSize → h.bufferSize ≤ C.sizeMax → h.bufferSize ≤ limit ∨ size ≤ limit → (∀ k, h.context k = none) →
        (∀ n, T.alloc n = true) → Good → h.position + size ≤ inp.content.length → (∀ i, ∃ c, inp.reads i = some c ∧ 0 < c) → r = 1) := by
  have hI0 := hI
  obtain ⟨⟨b, hrel⟩, hstr, hnone, hp⟩ := hI
  by_cases hbs : h.bufferSize = 0 ∨ C.sizeMax < h.bufferSize
  · exact ⟨-1, h.context, h.hashString, h.abort, h.position, h.readCount, W, by rw [processInput, if_pos hbs], hI0, .inl, fun h => absurd h (by decide), fun _ _ h1 h2 => by omega⟩
  rw [processInput, if_neg hbs]
  cases hsize : inp.size with
  | none => exact ⟨-1, h.context, h.hashString, h.abort, h.position, h.readCount, W, rfl, hI0, .inl, fun h => absurd h (by decide), fun _ h => by cases h⟩
  | some size =>
    have hrelA := allocBlock_rel (W := W) hC hrel
    by_cases hal : T.alloc (C.count W.mem) = true
    · have ea : allocBlock T C W = (some (C.count W.mem), ⟨C.attempt W.mem, C.count W.mem :: W.blocks⟩) := by rw [allocBlock, if_pos hal]
      rw [ea] at hrelA ⊢
      simp only at hrelA ⊢
      obtain ⟨r1, ctx1, W1, b1, e1, hb1, hr1, hini, hsuc⟩ := initIntegrity_ok hC h ⟨C.attempt W.mem, C.count W.mem :: W.blocks⟩ b hrelA
      rw [e1]
      simp only [Res.ok_bind]
      by_cases hr11 : r1 = 1
      · have hini := hini hr11
        obtain ⟨ok, ctx2, ab2, pos2, rc2, W2, b2, d, e2, hb2, hr2, hn2, hall2, hpre, hok, hab2, hg2⟩ := processLoop_ok hC inp aborted size size 0
          (T.bufferJunk h.bufferSize) { h with context := ctx1 } W1 b1 (by omega) (Nat.zero_le _) (by simp only; omega) (by simp only; omega) (hT.bufferJunk _) hr1
          (fun k hk => by rw [hini k hk]; simp)
        simp only at e2 hn2 hall2 hpre hok hab2 hg2
        simp only [hr11, ne_eq, not_true_eq_false, if_false, e2, Res.ok_bind]
        cases ok with
        | false =>
          refine ⟨-1, ctx2, h.hashString, ab2, pos2, rc2, { W2 with blocks := W.blocks }, ?_, ⟨⟨b2, hr2⟩, hstr, hnone, hp⟩, hab2, fun h => absurd h (by decide),
            fun size' hs' _ _ hl _ _ hgood hcont hreads => ?_⟩
          · simp only [Bool.not_false, if_true, processError, freeBlock_head _ W2 W.blocks (hb2.trans hb1), Res.ok_bind, Res.pure_eq]
          · injection hs' with hs'
            subst hs'
            exact absurd (hg2 hgood hl hreads (by omega)) (by decide)
        | true =>
          simp only [Bool.not_true, Bool.false_eq_true, if_false, freeBlock_head _ W2 W.blocks (hb2.trans hb1), Res.ok_bind]
          obtain ⟨r3, ctx3, str3, W3, b3, e3, hb3, hr3, hst3, hso3, -, hall3, hg3⟩ := finalizeHashes_ok hT hC digestOrder
            { h with context := ctx2, abort := ab2, position := pos2, readCount := rc2 } { W2 with blocks := W.blocks } b2 digestOrder_nodup hr2 hn2 hstr
          simp only at e3 hall3 hst3
          have hI3 : HandleInv T Rel blk { h with context := ctx3, hashString := str3, abort := ab2, position := pos2, readCount := rc2 } W3 := by
            refine ⟨⟨b3, hr3⟩, hso3, fun k hk => ?_, ?_⟩
            · have := hst3 k
              rw [hnone k hk] at this
              simpa using this
            · rw [hb3]
              refine hp.trans (List.Perm.of_eq ?_)
              simp only [handleBlocks, strKeys, hst3]
          by_cases hr31 : r3 = 1
          · subst hr31
            refine ⟨1, ctx3, str3, ab2, pos2, rc2, W3, ?_, hI3, hab2, fun _ => ⟨size, d, rfl, hpre, by simpa using hok rfl, fun k hk => ?_⟩, fun _ _ _ _ _ _ _ _ _ _ => rfl⟩
            · simp only [e3, Res.ok_bind, not_true_eq_false, if_false, Res.pure_eq]
            · obtain ⟨p, o, g1, g2⟩ := hall3 rfl k (mem_digestOrder k) hk
              refine ⟨p, o, g1, fun hl => g2 d ?_ hl⟩
              rw [hall2 rfl k hk, hini k hk]
              rfl
          · refine ⟨-1, ctx3, str3, ab2, pos2, rc2, W3, ?_, hI3, hab2, fun h => absurd h (by decide), fun _ _ _ _ _ _ _ hgood _ _ => absurd (hg3 hgood) hr31⟩
            simp only [e3, Res.ok_bind, hr31, not_false_eq_true, if_true, Res.pure_eq]
      · refine ⟨-1, ctx1, h.hashString, h.abort, h.position, h.readCount, { W1 with blocks := W.blocks }, ?_, ⟨⟨b1, hr1⟩, hstr, hnone, hp⟩, .inl, fun h => absurd h (by decide),
          fun _ _ _ _ _ hc hal hgood _ _ => absurd (hsuc (fun k _ => (hC.null hrel k).mp (hc k)) hal hgood) hr11⟩
        simp only [ne_eq, hr11, not_false_eq_true, if_true, processError, freeBlock_head _ W1 W.blocks hb1, Res.ok_bind, Res.pure_eq]
    · have ea : allocBlock T C W = (none, ⟨C.attempt W.mem, W.blocks⟩) := by rw [allocBlock, if_neg hal]
      rw [ea] at hrelA ⊢
      exact ⟨-1, h.context, h.hashString, h.abort, h.position, h.readCount, _, rfl, ⟨⟨b, hrelA⟩, hstr, hnone, hp⟩, .inl, fun h => absurd h (by decide),
        fun _ _ _ _ _ _ h2 => absurd (h2 _) hal⟩

end Model.Builds
