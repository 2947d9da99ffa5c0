import Verif.Model.SumHandle
import Verif.Proofs.Multi
import Verif.Proofs.DigestString
/-! The sum handle. -/

namespace Model

open Spec (Kind IterHash ApiCall Reply ApiState hex)

/-- Abstract contexts of a handle. -/
abbrev Abs := (k : Kind) → Option (List (BitVec k.width) × List Byte)

/-- Sizes of the memory areas of the tool; their contents are arbitrary. -/
structure Tool.Ok (T : Tool) : Prop where
  scr : ∀ k n, Kind.Junk k (T.scr k n)
  hashJunk : ∀ k, (T.hashJunk k).length = k.hashSize
  stringJunk : ∀ k, (T.stringJunk k).length = stringSize k
  bufferJunk : ∀ n, (T.bufferJunk n).length = n

/-- The live context objects of a handle of one word width. -/
def ctxKeys (ctx : Kind → Option Nat) (w : Nat) : List Nat := digestOrder.flatMap fun k => if k.width = w then (ctx k).toList else []

/-- The contexts of a handle represent abstract contexts, and the live objects are those contexts and `base`. -/
def CtxRel (base : Nat → List Nat) (ctx : Kind → Option Nat) (W : World) (b : Abs) : Prop :=
  MultiRel (fun k : Kind => k) ctx W.mem b ∧ ∀ w, ((W.mem.live w).map (·.1)).Perm (ctxKeys ctx w ++ base w)

theorem ctxKeys_update (ctx : Kind → Option Nat) (k : Kind) (slot : Option Nat) (w : Nat) (base : List Nat) :
    (ctxKeys (Function.update ctx k slot) w ++ base).Perm ((if k.width = w then slot.toList else []) ++ (ctxKeys (Function.update ctx k none) w ++ base)) := by
  rw [List.perm_iff_count]
  intro x
  cases k <;> simp [ctxKeys, digestOrder, Function.update, List.count_append] <;> omega

/-- Enabled digests have a string of the right size; it is terminated if fresh strings are. -/
def StringsOk (T : Tool) (h : Handle) : Prop :=
  ∀ k, h.calculate k = true → ∃ p s, h.hashString k = some (p, s) ∧ s.length = stringSize k ∧ ((∀ j, 0 ∈ T.stringJunk j) → 0 ∈ s)

theorem stringSize_eq (k : Kind) : stringSize k = 2 * k.hashSize + 1 := by cases k <;> rfl

theorem mem_digestOrder (k : Kind) : k ∈ digestOrder := by cases k <;> decide

theorem digestOrder_nodup : digestOrder.Nodup := by decide

theorem ctxRel_none {base : Nat → List Nat} {ctx : Kind → Option Nat} {W : World} {b : Abs} (h : CtxRel base ctx W b) (k : Kind) : ctx k = none ↔ b k = none := by
  have := h.1.1 k
  revert this
  cases ctx k <;> cases b k <;> simp [VarRel]

variable {T : Tool} {base : Nat → List Nat}

theorem ctxCall_ok (hT : T.Ok) (k : Kind) (c : ApiCall) (n : Nat) (h : Handle) (W : World) (b : Abs) (hv : c.Valid) (hrel : CtxRel base h.context W b) :
    ∃ slot' W', ctxCall T k c n h W = .ok ((kindStep k T.alloc c (b k) W.mem.count).1, { h with context := Function.update h.context k slot' }, W') ∧
      W'.blocks = W.blocks ∧ CtxRel base (Function.update h.context k slot') W' (Function.update b k (kindStep k T.alloc c (b k) W.mem.count).2.slot) ∧
      W.mem.count ≤ W'.mem.count := by
  obtain ⟨slot', s', e, hr, -, hge, hown⟩ := multi_step (fun k : Kind => k) (T.unrolled k) T.alloc (fun k => T.envs k.width) k c (T.scr k n) h.context W.mem b hv
    (hT.scr k n) hrel.1
  refine ⟨slot', { W with mem := W.mem.put k.width s' }, ?_, rfl, ⟨hr, fun w => ?_⟩, hge⟩
  · simp only [ctxCall]
    erw [e]
    rfl
  · have h0 := ctxKeys_update h.context k (h.context k) w (base w)
    rw [Function.update_eq_self] at h0
    refine List.Perm.trans ?_ (ctxKeys_update h.context k slot' w (base w)).symm
    have h1 := (hrel.2 w).trans h0
    by_cases hw : w = k.width
    · subst hw
      simp only [if_true] at h1 ⊢
      simp only [Mem.put, Function.update_self]
      exact hown _ h1
    · simp only [if_neg (Ne.symm hw), Mem.put, Function.update_of_ne hw] at h1 ⊢
      exact h1

theorem allocBlock_rel {ctx : Kind → Option Nat} {W : World} {b : Abs} (h : CtxRel base ctx W b) : CtxRel base ctx (allocBlock T W).2 b := by
  have hlive : ∀ w, ((allocBlock T W).2.mem.view w).live = (W.mem.view w).live := fun w => by unfold allocBlock; split <;> rfl
  have hcount : ∀ w, ((allocBlock T W).2.mem.view w).count = (W.mem.view w).count + 1 := fun w => by unfold allocBlock; split <;> rfl
  refine ⟨⟨fun k => ?_, h.1.2⟩, fun w => by rw [show (allocBlock T W).2.mem.live w = W.mem.live w from hlive w]; exact h.2 w⟩
  have := h.1.1 k
  revert this
  unfold VarRel
  cases ctx k <;> cases b k <;> simp only [imp_self]
  rw [hlive, hcount]
  rintro ⟨h1, h2⟩
  exact ⟨Nat.lt_succ_of_lt h1, h2⟩

theorem initHashes_ok (hT : T.Ok) : ∀ (ks : List Kind) (h : Handle) (W : World) (b : Abs), ks.Nodup → CtxRel base h.context W b →
    ∃ ok ctx' W' b', initHashes T ks h W = .ok (ok, { h with context := ctx' }, W') ∧ W'.blocks = W.blocks ∧ CtxRel base ctx' W' b' ∧
      (ok = true → ∀ k, if k ∈ ks ∧ h.calculate k = true then b k = none ∧ b' k = some (k.len64.iv, []) else b' k = b k) ∧
      ((∀ k ∈ ks, h.calculate k = true → b k = none) → (∀ n, W.mem.count ≤ n → T.alloc n = true) → ok = true)
  | [], h, W, b, _, hrel => ⟨true, h.context, W, b, rfl, rfl, hrel, by simp, by simp⟩
  | k :: ks, h, W, b, hnd, hrel => by
    have hk : k ∉ ks := (List.nodup_cons.mp hnd).1
    by_cases hc : h.calculate k = true
    · obtain ⟨slot', W', e, hb, hr, hge⟩ := ctxCall_ok hT k .init h.readCount h W b trivial hrel
      by_cases hcode : (kindStep k T.alloc .init (b k) W.mem.count).1.code = 1
      · have hst : b k = none ∧ (kindStep k T.alloc .init (b k) W.mem.count).2.slot = some (k.len64.iv, []) := by
          revert hcode
          simp only [kindStep, Spec.apiStep]
          cases b k with
          | some x => simp
          | none => simp only; split <;> simp
        obtain ⟨ok, ctx', W'', b', e2, hb2, hr2, hok, hsuc⟩ := initHashes_ok hT ks { h with context := Function.update h.context k slot' } W' _
          (List.nodup_cons.mp hnd).2 hr
        refine ⟨ok, ctx', W'', b', ?_, hb2.trans hb, hr2, fun h1 j => ?_, fun h1 h2 => hsuc (fun j hj hcj => ?_) fun n hn => h2 n (Nat.le_trans hge hn)⟩
        · simp only [initHashes, hc, if_true, e, Res.ok_bind, hcode, ne_eq, not_true_eq_false, if_false, e2]
        · have := hok h1 j
          by_cases hj : j = k
          · subst hj
            simp only [hk, false_and, if_false, Function.update_self] at this
            simp only [List.mem_cons, true_or, hc, and_self, if_true]
            exact ⟨hst.1, this.trans hst.2⟩
          · simpa only [List.mem_cons, hj, false_or, Function.update_of_ne hj] using this
        · have hne : j ≠ k := fun e => hk (e ▸ hj)
          rw [Function.update_of_ne hne]
          exact h1 j (by simp [hj]) hcj
      · refine ⟨false, _, W', _, ?_, hb, hr, by simp, fun h1 h2 => ?_⟩
        · simp only [initHashes, hc, if_true, e, Res.ok_bind, ne_eq, hcode, not_false_eq_true, Res.pure_eq]
        · refine absurd ?_ hcode
          rw [h1 k (by simp) hc]
          simp [kindStep, Spec.apiStep, h2 _ (Nat.le_refl _)]
    · obtain ⟨ok, ctx', W', b', e, hb, hr, hok, hsuc⟩ := initHashes_ok hT ks h W b (List.nodup_cons.mp hnd).2 hrel
      refine ⟨ok, ctx', W', b', ?_, hb, hr, fun h1 j => ?_, fun h1 h2 => hsuc (fun j hj => h1 j (by simp [hj])) h2⟩
      · simp only [initHashes, hc, e]; rfl
      · have := hok h1 j
        by_cases hj : j = k
        · subst hj
          simpa [hk, hc] using this
        · simpa only [List.mem_cons, hj, false_or] using this

theorem freeHash_ok (hT : T.Ok) (k : Kind) (h : Handle) (W : World) (b : Abs) (hrel : CtxRel base h.context W b) :
    ∃ slot W', freeHash T k h W = .ok ({ h with context := Function.update h.context k slot }, W') ∧ W'.blocks = W.blocks ∧
      CtxRel base (Function.update h.context k slot) W' (Function.update b k none) := by
  unfold freeHash
  cases hc : h.context k with
  | none =>
    have hb := (ctxRel_none hrel k).mp hc
    have e1 : Function.update h.context k none = h.context := by rw [← hc, Function.update_eq_self]
    have e2 : Function.update b k none = b := by rw [← hb, Function.update_eq_self]
    exact ⟨none, W, by rw [e1], rfl, by rw [e1, e2]; exact hrel⟩
  | some p =>
    obtain ⟨slot', W', e, hb, hr, -⟩ := ctxCall_ok hT k .free h.readCount h W b trivial hrel
    exact ⟨slot', W', by simp only [e, Res.ok_bind, Res.pure_eq], hb, hr⟩

theorem initIntegrity_ok (hT : T.Ok) (h : Handle) (W : World) (b : Abs) (hrel : CtxRel base h.context W b) :
    ∃ r ctx' W' b', initIntegrity T h W = .ok (r, { h with context := ctx' }, W') ∧ W'.blocks = W.blocks ∧ CtxRel base ctx' W' b' ∧ (r = 1 ∨ r = -1) ∧
      (r = 1 → ∀ k, if h.calculate k = true then b k = none ∧ b' k = some (k.len64.iv, []) else b' k = b k) ∧
      ((∀ k, h.calculate k = true → b k = none) → (∀ n, W.mem.count ≤ n → T.alloc n = true) → r = 1) := by
  obtain ⟨ok, ctx', W', b', e, hb, hr, hok, hsuc⟩ := initHashes_ok hT digestOrder h W b digestOrder_nodup hrel
  cases ok with
  | true =>
    refine ⟨1, ctx', W', b', by simp only [initIntegrity, e, Res.ok_bind, if_true, Res.pure_eq], hb, hr, .inl rfl, fun _ k => ?_, fun _ _ => rfl⟩
    simpa only [mem_digestOrder, true_and] using hok rfl k
  | false =>
    obtain ⟨s1, W1, e1, hb1, hr1⟩ := freeHash_ok hT .sha1 { h with context := ctx' } W' b' hr
    obtain ⟨s2, W2, e2, hb2, hr2⟩ := freeHash_ok hT .md5 { h with context := Function.update ctx' .sha1 s1 } W1 _ hr1
    refine ⟨-1, _, W2, _, ?_, hb2.trans (hb1.trans hb), hr2, .inr rfl, fun h => absurd h (by decide), fun h1 h2 => absurd (hsuc (fun k _ => h1 k) h2) (by simp)⟩
    simp only [initIntegrity, e, Res.ok_bind, e1, e2, Res.pure_eq]
    rfl

theorem updateHashes_ok (hT : T.Ok) (buffer : List Byte) (size : Nat) (hs : size ≤ ssizeMax) (hl : size ≤ buffer.length) :
    ∀ (ks : List Kind) (h : Handle) (W : World) (b : Abs), ks.Nodup → CtxRel base h.context W b → (∀ k ∈ ks, h.calculate k = true → b k ≠ none) →
    ∃ ctx' W' b', updateHashes T buffer size ks h W = .ok (1, { h with context := ctx' }, W') ∧ W'.blocks = W.blocks ∧ CtxRel base ctx' W' b' ∧
      ∀ k, b' k = if k ∈ ks ∧ h.calculate k = true then (b k).map (fun x => (x.1, x.2 ++ buffer.take size)) else b k
  | [], h, W, b, _, hrel, _ => ⟨h.context, W, b, rfl, rfl, hrel, by simp⟩
  | k :: ks, h, W, b, hnd, hrel, hne => by
    have hk : k ∉ ks := (List.nodup_cons.mp hnd).1
    by_cases hc : h.calculate k = true
    · obtain ⟨slot', W', e, hb, hr, -⟩ := ctxCall_ok hT k (.update (some buffer) size) h.readCount h W b (fun _ => hl) hrel
      obtain ⟨x, hx⟩ := Option.ne_none_iff_exists'.mp (hne k (by simp) hc)
      have hst : (kindStep k T.alloc (.update (some buffer) size) (b k) W.mem.count).1.code = 1 ∧
          (kindStep k T.alloc (.update (some buffer) size) (b k) W.mem.count).2.slot = some (x.1, x.2 ++ buffer.take size) := by
        simp [kindStep, Spec.apiStep, hx, maxSize_eq, hs]
      obtain ⟨ctx', W'', b', e2, hb2, hr2, hall⟩ := updateHashes_ok hT buffer size hs hl ks { h with context := Function.update h.context k slot' } W' _
        (List.nodup_cons.mp hnd).2 hr (fun j hj hcj => by
          rw [Function.update_of_ne (show j ≠ k from fun e => hk (e ▸ hj))]
          exact hne j (by simp [hj]) hcj)
      refine ⟨ctx', W'', b', ?_, hb2.trans hb, hr2, fun j => ?_⟩
      · simp only [updateHashes, hc, if_true, e, Res.ok_bind, hst.1, ne_eq, not_true_eq_false, if_false, e2]
      · rw [hall j]
        by_cases hj : j = k
        · subst hj
          rw [if_neg (by simp [hk]), Function.update_self, hst.2, if_pos ⟨by simp, hc⟩, hx]; rfl
        · simp only [List.mem_cons, hj, false_or, Function.update_of_ne hj]
    · obtain ⟨ctx', W', b', e, hb, hr, hall⟩ := updateHashes_ok hT buffer size hs hl ks h W b (List.nodup_cons.mp hnd).2 hrel fun j hj => hne j (by simp [hj])
      refine ⟨ctx', W', b', ?_, hb, hr, fun j => ?_⟩
      · simp only [updateHashes, hc, e]; rfl
      · rw [hall j]
        by_cases hj : j = k
        · subst hj
          simp [hk, hc]
        · simp only [List.mem_cons, hj, false_or]

theorem finalizeHashes_ok (hT : T.Ok) : ∀ (ks : List Kind) (h : Handle) (W : World) (b : Abs), ks.Nodup → CtxRel base h.context W b →
    (∀ k ∈ ks, h.calculate k = true → b k ≠ none) → StringsOk T h →
    ∃ ctx' str' W' b', finalizeHashes T ks h W = .ok (1, { h with context := ctx', hashString := str' }, W') ∧ W'.blocks = W.blocks ∧ CtxRel base ctx' W' b' ∧
      (∀ k, if k ∈ ks ∧ h.calculate k = true then
          ∃ p s h0 m, h.hashString k = some (p, s) ∧ b k = some (h0, m) ∧ str' k = some (p, hex (k.len64.digestFrom h0 m) ++ [0])
        else str' k = h.hashString k) ∧
      ∀ k, b' k = none ↔ b k = none
  | [], h, W, b, _, hrel, _, _ => ⟨h.context, h.hashString, W, b, rfl, rfl, hrel, by simp, by simp⟩
  | k :: ks, h, W, b, hnd, hrel, hne, hstr => by
    have hk : k ∉ ks := (List.nodup_cons.mp hnd).1
    by_cases hc : h.calculate k = true
    · have hsz : k.hashSize ≤ ssizeMax := by cases k <;> decide
      obtain ⟨slot', W', e, hb, hr, -⟩ := ctxCall_ok hT k (.finalize (some (T.hashJunk k)) k.hashSize) h.readCount h W b (fun _ => by rw [hT.hashJunk]) hrel
      obtain ⟨⟨h0, m⟩, hx⟩ := Option.ne_none_iff_exists'.mp (hne k (by simp) hc)
      obtain ⟨p, s, hps, hsl, -⟩ := hstr k hc
      have hh0 : h0.length = (algOf k).nHash := by
        have := hrel.1.1 k
        rw [hx] at this
        revert this
        cases h.context k with
        | none => exact False.elim
        | some q => exact fun h => h.2.1
      have hlen : (k.len64.digestFrom h0 m).length = k.hashSize := by
        rw [algOf_nHash] at hh0
        exact digestFrom_length k h0 m hh0
      have hst : (kindStep k T.alloc (.finalize (some (T.hashJunk k)) k.hashSize) (b k) W.mem.count).1 = ⟨1, some (k.len64.digestFrom h0 m)⟩ ∧
          (kindStep k T.alloc (.finalize (some (T.hashJunk k)) k.hashSize) (b k) W.mem.count).2.slot = some (List.replicate k.words 0, []) := by
        simp [kindStep, Spec.apiStep, hx, maxSize_eq, hsz, List.drop_eq_nil_of_le (Nat.le_of_eq (hT.hashJunk k))]
      have hdig : digestToString (some (k.len64.digestFrom h0 m)) k.hashSize (some s) (stringSize k) =
          .ok (1, some (hex (k.len64.digestFrom h0 m) ++ [0])) := by
        rw [digestToString_ok _ _ _ _ (by rw [hlen]) (by rw [stringSize_eq]) (by cases k <;> decide) (by rw [hsl]), List.take_of_length_le (by rw [hlen]),
          List.drop_eq_nil_of_le (by rw [hsl, stringSize_eq])]
      have hstr2 : StringsOk T { h with
          context := Function.update h.context k slot'
          hashString := Function.update h.hashString k (some (p, hex (k.len64.digestFrom h0 m) ++ [0])) } := by
        intro j hj
        by_cases hjk : j = k
        · subst hjk
          refine ⟨p, hex (j.len64.digestFrom h0 m) ++ [0], by simp only [Function.update_self], ?_, fun _ => by simp⟩
          rw [List.length_append, hex_length, hlen, stringSize_eq]; rfl
        · simp only [Function.update_of_ne hjk]
          exact hstr j hj
      obtain ⟨ctx', str', W'', b', e2, hb2, hr2, hall, hnn⟩ := finalizeHashes_ok hT ks _ W' _ (List.nodup_cons.mp hnd).2 hr (fun j hj hcj => by
          rw [Function.update_of_ne (show j ≠ k from fun e => hk (e ▸ hj))]
          exact hne j (by simp [hj]) hcj) hstr2
      refine ⟨ctx', str', W'', b', ?_, hb2.trans hb, hr2, fun j => ?_, fun j => ?_⟩
      · simp only [finalizeHashes, hc, if_true, hps, e, Res.ok_bind, hst.1, ne_eq, not_true_eq_false, if_false, hdig, Option.map_some]
        exact e2
      · have := hall j
        by_cases hj : j = k
        · subst hj
          simp only [hk, false_and, if_false, Function.update_self] at this
          simp only [List.mem_cons, true_or, hc, and_self, if_true]
          exact ⟨p, s, h0, m, hps, hx, this⟩
        · simpa only [List.mem_cons, hj, false_or, Function.update_of_ne hj] using this
      · rw [hnn j]
        by_cases hj : j = k
        · subst hj
          rw [Function.update_self, hst.2, hx]; simp
        · rw [Function.update_of_ne hj]
    · obtain ⟨ctx', str', W', b', e, hb, hr, hall, hnn⟩ := finalizeHashes_ok hT ks h W b (List.nodup_cons.mp hnd).2 hrel (fun j hj => hne j (by simp [hj])) hstr
      refine ⟨ctx', str', W', b', ?_, hb, hr, fun j => ?_, hnn⟩
      · simp only [finalizeHashes, hc, e]; rfl
      · have := hall j
        by_cases hj : j = k
        · subst hj
          simpa [hk, hc] using this
        · simpa only [List.mem_cons, hj, false_or] using this

theorem memCopy_front {α} (a d : List α) (h : d.length ≤ a.length) : memCopy a 0 d 0 d.length = .ok (d ++ a.drop d.length) := by
  simp [memCopy, h]

/-- The reads of a number of calls all deliver something. -/
def ReadsOk (inp : Input) (m n : Nat) : Prop := ∀ i, m ≤ i → i < n → ∃ c, inp.reads i = some c ∧ 0 < c

/-- What `n` reads from number `m` on can deliver into a buffer of a size: a failed read delivers nothing. -/
def Input.offered (inp : Input) (bufferSize : Nat) : Nat → Nat → Nat
  | _, 0 => 0
  | m, n + 1 => min ((inp.reads m).getD 0) bufferSize + inp.offered bufferSize (m + 1) n

theorem processLoop_ok (hT : T.Ok) (inp : Input) (aborted : Nat → Bool) (mediaSize : Nat) :
    ∀ (fuel pc : Nat) (buffer : List Byte) (h : Handle) (W : World) (b : Abs), mediaSize ≤ pc + fuel → pc ≤ mediaSize → 0 < h.bufferSize → h.bufferSize ≤ ssizeMax →
      buffer.length = h.bufferSize → CtxRel base h.context W b → (∀ k, h.calculate k = true → b k ≠ none) →
    ∃ ok ctx' ab' pos' rc' W' b' d, processLoop T inp aborted mediaSize fuel pc buffer h W =
        .ok (ok, { h with context := ctx', abort := ab', position := pos', readCount := rc' }, W') ∧
      W'.blocks = W.blocks ∧ CtxRel base ctx' W' b' ∧ (∀ k, b' k = if h.calculate k = true then (b k).map (fun x => (x.1, x.2 ++ d)) else b k) ∧
      d <+: inp.content.drop h.position ∧ pos' = h.position + d.length ∧ pc + d.length ≤ mediaSize ∧
      h.readCount ≤ rc' ∧ d.length ≤ inp.offered h.bufferSize h.readCount (rc' - h.readCount) ∧
      (ok = true → (pc + d.length = mediaSize ∨ ab' = true) ∧ ReadsOk inp h.readCount rc') ∧
      (ok = false → h.readCount < rc' ∧ (inp.reads (rc' - 1) = none ∨ inp.reads (rc' - 1) = some 0 ∨ inp.content.length ≤ pos') ∧ pc + d.length < mediaSize) ∧
      (∀ n, h.readCount < n → aborted n = true → rc' ≤ n) ∧ (h.abort = true → rc' ≤ h.readCount + 1) ∧
      (ab' = true → h.abort = true ∨ ∃ n, h.readCount < n ∧ n ≤ rc' ∧ aborted n = true) := by
  intro fuel
  induction fuel with
  | zero =>
    intro pc buffer h W b hf hpc _ _ _ hrel _
    refine ⟨true, h.context, h.abort, h.position, h.readCount, W, b, [], ?_, rfl, hrel, fun k => ?_, List.nil_prefix, rfl, by simpa using hpc, Nat.le_refl _,
      Nat.zero_le _, fun _ => ⟨.inl (by simp; omega), fun i h1 h2 => by omega⟩, by simp, fun n hn _ => by omega, fun _ => by omega, fun h => .inl h⟩
    · rw [processLoop, if_neg (by omega)]
    · cases b k <;> simp
  | succ fuel ih =>
    intro pc buffer h W b hf hpc hb0 hb1 hbl hrel hne
    by_cases hlt : pc < mediaSize
    · obtain ⟨rs, hrs⟩ : ∃ rs, rs = if mediaSize - pc < h.bufferSize then mediaSize - pc else h.bufferSize := ⟨_, rfl⟩
      have hrs1 : 0 < rs ∧ rs ≤ h.bufferSize ∧ rs ≤ mediaSize - pc := by rw [hrs]; split <;> omega
      rw [processLoop, if_pos hlt]
      simp only [← hrs]
      cases hread : inp.reads h.readCount with
      | none =>
        refine ⟨false, h.context, h.abort, h.position, h.readCount + 1, W, b, [], ?_, rfl, hrel, fun k => ?_, List.nil_prefix, rfl, by simpa using hpc, by omega,
          Nat.zero_le _, by simp, fun _ => ⟨by omega, .inl hread, by simpa using hlt⟩, fun n hn _ => by omega, fun _ => Nat.le_refl _, fun h => .inl h⟩
        · simp only [readInput, if_neg (show ¬ ssizeMax < rs by omega), hread, Res.pure_eq]
        · cases b k <;> simp
      | some c =>
        obtain ⟨d, hd⟩ : ∃ d, d = (inp.content.drop h.position).take (min c rs) := ⟨_, rfl⟩
        have hdl : d.length = min (min c rs) (inp.content.length - h.position) := by rw [hd, List.length_take, List.length_drop]
        have hrd : readInput inp rs h = (some d, { h with readCount := h.readCount + 1, position := h.position + d.length }) := by
          simp only [readInput, if_neg (show ¬ ssizeMax < rs by omega), hread, ← hd]
        rw [hrd]
        simp only [memCopy_front buffer d (by omega), Res.ok_bind]
        by_cases hd0 : d.length = 0
        · refine ⟨false, h.context, h.abort, h.position, h.readCount + 1, W, b, [], ?_, rfl, hrel, fun k => ?_, List.nil_prefix, rfl, by simpa using hpc, by omega,
            Nat.zero_le _, by simp, fun _ => ⟨by omega, ?_, by simpa using hlt⟩, fun n hn _ => by omega, fun _ => Nat.le_refl _, fun h => .inl h⟩
          · rw [if_pos hd0, hd0]; rfl
          · cases b k <;> simp
          · rw [Nat.add_sub_cancel, hread]
            rcases Nat.eq_zero_or_pos c with hc | hc
            · exact .inr (.inl (by rw [hc]))
            · exact .inr (.inr (by omega))
        · rw [if_neg hd0]
          obtain ⟨ctx1, W1, b1, e1, hbk1, hr1, hall1⟩ := updateHashes_ok hT (d ++ buffer.drop d.length) d.length (by omega) (by simp) digestOrder
            { h with readCount := h.readCount + 1, position := h.position + d.length } W b digestOrder_nodup hrel (fun k _ => hne k)
          have e1' : updateIntegrity T (d ++ buffer.drop d.length) d.length { h with readCount := h.readCount + 1, position := h.position + d.length } W =
              .ok (1, { h with readCount := h.readCount + 1, position := h.position + d.length, context := ctx1 }, W1) := by
            rw [updateIntegrity, if_neg (by omega)]; exact e1
          simp only [e1', Res.ok_bind, ne_eq, not_true_eq_false, if_false]
          have hall1' : ∀ k, b1 k = if h.calculate k = true then (b k).map (fun x => (x.1, x.2 ++ d)) else b k := fun k => by
            have := hall1 k
            rw [List.take_left' rfl] at this
            simpa only [mem_digestOrder, true_and] using this
          by_cases hab : (h.abort || aborted (h.readCount + 1)) = true
          · refine ⟨true, ctx1, true, h.position + d.length, h.readCount + 1, W1, b1, d, ?_, hbk1, hr1, hall1', hd ▸ List.take_prefix _ _, rfl, by omega, by omega,
              by rw [Nat.add_sub_cancel_left, Input.offered, Input.offered, hread]; simp only [Option.getD_some]; omega, fun _ => ⟨.inr rfl, fun i h1 h2 => ?_⟩, by simp, fun n hn _ => by omega, fun _ => Nat.le_refl _, fun _ => ?_⟩
            · rw [if_pos hab, hab]; rfl
            · obtain rfl : i = h.readCount := by omega
              exact ⟨c, hread, by omega⟩
            · rcases Bool.or_eq_true_iff.mp hab with h1 | h1
              · exact .inl h1
              · exact .inr ⟨_, by omega, Nat.le_refl _, h1⟩
          · rw [if_neg hab]
            obtain ⟨h0a, h0b⟩ : h.abort = false ∧ aborted (h.readCount + 1) = false := by simpa using hab
            obtain ⟨ok, ctx', ab', pos', rc', W', b', d', e, hbk, hr, hall, hpre, hpos, hle, hrc, hsz, hok, hfail, habt, hab1, hab2⟩ := ih (pc + d.length)
              (d ++ buffer.drop d.length)
              { h with context := ctx1, readCount := h.readCount + 1, position := h.position + d.length, abort := h.abort || aborted (h.readCount + 1) } W1 b1 (by omega) (by omega) hb0 hb1 (by simp; omega) hr1 (fun k hk => by
                  rw [hall1' k, if_pos hk]
                  simpa using hne k hk)
            refine ⟨ok, ctx', ab', pos', rc', W', b', d ++ d', e, hbk.trans hbk1, hr, fun k => ?_, ?_, by simp only [hpos, List.length_append]; omega,
              by rw [List.length_append]; omega, by simp only at hrc; omega, ?_, fun h1 => ⟨?_, ?_⟩, fun h1 => ?_, fun n hn han => ?_, fun h1 => ?_, fun h1 => ?_⟩
            · rw [hall k]
              simp only
              rw [hall1' k]
              split
              · cases b k <;> simp
              · rfl
            · have hpd : d ++ inp.content.drop (h.position + d.length) = inp.content.drop h.position := by
                have : d <+: inp.content.drop h.position := hd ▸ List.take_prefix _ _
                obtain ⟨t, ht⟩ := this
                rw [← List.drop_drop, ← ht, List.drop_left' rfl]
              rw [← hpd]
              exact List.prefix_append_right_inj d |>.mpr hpre
            · rw [List.length_append]
              simp only at hsz hrc
              have : rc' - h.readCount = (rc' - (h.readCount + 1)) + 1 := by omega
              rw [this, Input.offered, hread]
              simp only [Option.getD_some]
              omega
            · rw [List.length_append, ← Nat.add_assoc]
              exact (hok h1).1
            · intro i h2 h3
              by_cases hi : i = h.readCount
              · subst hi
                exact ⟨c, hread, by omega⟩
              · exact (hok h1).2 i (by simp only; omega) h3
            · obtain ⟨g1, g2, g3⟩ := hfail h1
              simp only at g1
              exact ⟨by omega, g2, by rw [List.length_append]; omega⟩
            · by_cases hn' : n = h.readCount + 1
              · subst hn'
                rw [h0b] at han
                cases han
              · exact habt n (by simp only; omega) han
            · rw [h0a] at h1; cases h1
            · rcases hab2 h1 with h2 | ⟨n, h2, h3, h4⟩
              · exact absurd h2 hab
              · exact .inr ⟨n, by simp only at h2; omega, h3, h4⟩
    · refine ⟨true, h.context, h.abort, h.position, h.readCount, W, b, [], ?_, rfl, hrel, fun k => ?_, List.nil_prefix, rfl, by simpa using hpc, Nat.le_refl _,
        Nat.zero_le _, fun _ => ⟨.inl (by simp; omega), fun i h1 h2 => by omega⟩, by simp, fun n hn _ => by omega, fun _ => by omega, fun h => .inl h⟩
      · rw [processLoop, if_neg hlt]
      · cases b k <;> simp

theorem freeBlock_head {M : Type} (p : Nat) (W : WorldOf M) (bs : List Nat) (h : W.blocks = p :: bs) : freeBlock p W = .ok { W with blocks := bs } := by
  rw [freeBlock, if_pos (by rw [h]; simp), h, List.erase_cons_head]

/-- Everything about one call of `sum_handle_process_input`. -/
theorem processInput_ok (hT : T.Ok) (inp : Input) (aborted : Nat → Bool) (h : Handle) (W : World) (b : Abs) (hrel : CtxRel base h.context W b) (hstr : StringsOk T h) :
    ∃ r ctx' str' ab' pos' rc' W' b', processInput T inp aborted h W =
        .ok (r, { h with context := ctx', hashString := str', abort := ab', position := pos', readCount := rc' }, W') ∧
      W'.blocks = W.blocks ∧ CtxRel base ctx' W' b' ∧ (r = 1 ∨ r = -1) ∧ (r = -1 → str' = h.hashString) ∧ h.readCount ≤ rc' ∧
      (∀ n, h.readCount < n → aborted n = true → rc' ≤ n) ∧ (h.abort = true → rc' ≤ h.readCount + 1) ∧
      (ab' = true → h.abort = true ∨ ∃ n, h.readCount < n ∧ n ≤ rc' ∧ aborted n = true) ∧
      (r = 1 → ∃ size d, inp.size = some size ∧ 0 < h.bufferSize ∧ h.bufferSize ≤ ssizeMax ∧ (∀ k, h.calculate k = true → h.context k = none ∧ ctx' k ≠ none) ∧
        d <+: inp.content.drop h.position ∧ pos' = h.position + d.length ∧ d.length ≤ size ∧ (d.length = size ∨ ab' = true) ∧
        d.length ≤ inp.offered h.bufferSize h.readCount (rc' - h.readCount) ∧ ReadsOk inp h.readCount rc' ∧
        ∀ k, if h.calculate k = true then ∃ p s, h.hashString k = some (p, s) ∧ str' k = some (p, hex (k.len64.digest d) ++ [0])
          else str' k = h.hashString k) ∧
      (∀ size, inp.size = some size → 0 < h.bufferSize → h.bufferSize ≤ ssizeMax → (∀ k, h.calculate k = true → h.context k = none) →
        (∀ n, W.mem.count ≤ n → T.alloc n = true) → h.position + size ≤ inp.content.length → (∀ i, h.readCount ≤ i → ∃ c, inp.reads i = some c ∧ 0 < c) → r = 1) := by
  by_cases hbs : h.bufferSize = 0 ∨ ssizeMax < h.bufferSize
  · refine ⟨-1, h.context, h.hashString, h.abort, h.position, h.readCount, W, b, by rw [processInput, if_pos hbs], rfl, hrel, .inr rfl, fun _ => rfl, Nat.le_refl _,
      fun n hn _ => by omega, fun _ => by omega, fun h => .inl h, fun h => absurd h (by decide), fun _ _ h1 h2 => by omega⟩
  rw [processInput, if_neg hbs]
  cases hsize : inp.size with
  | none =>
    exact ⟨-1, h.context, h.hashString, h.abort, h.position, h.readCount, W, b, rfl, rfl, hrel, .inr rfl, fun _ => rfl, Nat.le_refl _,
      fun n hn _ => by omega, fun _ => by omega, fun h => .inl h, fun h => absurd h (by decide), fun _ h => by cases h⟩
  | some size =>
    have hrelA := allocBlock_rel (T := T) hrel
    by_cases hal : T.alloc W.mem.count = true
    · have ea : allocBlock T W = (some W.mem.count, ⟨{ W.mem with count := W.mem.count + 1 }, W.mem.count :: W.blocks⟩) := by rw [allocBlock, if_pos hal]
      rw [ea] at hrelA ⊢
      simp only at hrelA ⊢
      obtain ⟨r1, ctx1, W1, b1, e1, hb1, hr1, hr1v, hini, hsuc⟩ := initIntegrity_ok hT h _ b hrelA
      rw [e1]
      simp only [Res.ok_bind]
      by_cases hr11 : r1 = 1
      · have hini := hini hr11
        have hnone : ∀ k, h.calculate k = true → b k = none ∧ b1 k = some (k.len64.iv, []) := fun k hk => by have := hini k; rwa [if_pos hk] at this
        obtain ⟨ok, ctx2, ab2, pos2, rc2, W2, b2, d, e2, hb2, hr2, hall2, hpre, hpos, hle, hrc, hsz, hok, hfail, habt, hab1, hab2⟩ := processLoop_ok hT inp aborted size size 0
          (T.bufferJunk h.bufferSize) { h with context := ctx1 } W1 b1 (by omega) (Nat.zero_le _) (by simp only; omega) (by simp only; omega) (hT.bufferJunk _) hr1
          (fun k hk => by rw [(hnone k hk).2]; simp)
        simp only at e2 hall2 hpre hpos hle hrc hsz hok hfail habt hab1 hab2
        simp only [hr11, ne_eq, not_true_eq_false, if_false, e2, Res.ok_bind]
        cases ok with
        | false =>
          refine ⟨-1, ctx2, h.hashString, ab2, pos2, rc2, { W2 with blocks := W.blocks }, b2, ?_, rfl, hr2, .inr rfl, fun _ => rfl, hrc, habt, hab1, hab2,
            fun h => absurd h (by decide), fun size' hs' _ _ _ _ hcont hreads => ?_⟩
          · simp only [Bool.not_false, if_true, processError, freeBlock_head _ W2 W.blocks (hb2.trans hb1), Res.ok_bind, Res.pure_eq]
          · injection hs' with hs'
            subst hs'
            obtain ⟨g1, g2, g3⟩ := hfail rfl
            obtain ⟨c, hc, hc0⟩ := hreads (rc2 - 1) (by omega)
            rw [hc] at g2
            simp only [reduceCtorEq, Option.some.injEq, false_or] at g2
            omega
        | true =>
          obtain ⟨hok1, hok2⟩ := hok rfl
          simp only [Bool.not_true, Bool.false_eq_true, if_false, freeBlock_head _ W2 W.blocks (hb2.trans hb1), Res.ok_bind]
          obtain ⟨ctx3, str3, W3, b3, e3, hb3, hr3, hall3, hnn⟩ := finalizeHashes_ok hT digestOrder
            { h with context := ctx2, abort := ab2, position := pos2, readCount := rc2 } { W2 with blocks := W.blocks } b2 digestOrder_nodup hr2
            (fun k _ hk => by rw [hall2 k, if_pos hk, (hnone k hk).2]; simp) hstr
          simp only at e3 hall3
          refine ⟨1, ctx3, str3, ab2, pos2, rc2, W3, b3, ?_, hb3, hr3, .inl rfl, fun h => absurd h (by decide), hrc, habt, hab1, hab2, fun _ => ?_, fun _ _ _ _ _ _ _ _ => rfl⟩
          · simp only [e3, Res.ok_bind, not_true_eq_false, if_false, Res.pure_eq]
          · refine ⟨size, d, rfl, by omega, by omega, fun k hk => ⟨(ctxRel_none hrel k).mpr (hnone k hk).1, fun hn => ?_⟩, hpre, hpos, by omega, by simpa using hok1, hsz, hok2, fun k => ?_⟩
            · have := (hnn k).mp ((ctxRel_none hr3 k).mp hn)
              rw [hall2 k, if_pos hk, (hnone k hk).2] at this
              simp at this
            · have h3 := hall3 k
              simp only [mem_digestOrder, true_and] at h3
              split
              · rename_i hk
                rw [if_pos hk] at h3
                obtain ⟨p, s, h0, m, g1, g2, g3⟩ := h3
                rw [hall2 k, if_pos hk, (hnone k hk).2] at g2
                simp only [Option.map_some, List.nil_append, Option.some.injEq, Prod.mk.injEq] at g2
                obtain ⟨rfl, rfl⟩ := g2
                exact ⟨p, s, g1, g3⟩
              · rename_i hk
                rwa [if_neg hk] at h3
      · refine ⟨-1, ctx1, h.hashString, h.abort, h.position, h.readCount, { W1 with blocks := W.blocks }, b1, ?_, rfl, hr1, .inr rfl, fun _ => rfl, Nat.le_refl _,
          fun n hn _ => by omega, fun _ => by omega, fun h => .inl h, fun h => absurd h (by decide), fun _ _ _ _ hc hal _ _ => ?_⟩
        · simp only [ne_eq, hr11, not_false_eq_true, if_true, processError, freeBlock_head _ W1 W.blocks hb1, Res.ok_bind, Res.pure_eq]
        · exact absurd (hsuc (fun k hk => (ctxRel_none hrel k).mp (hc k hk)) fun n hn => hal n (by simp only at hn; omega)) hr11
    · have ea : allocBlock T W = (none, ⟨{ W.mem with count := W.mem.count + 1 }, W.blocks⟩) := by rw [allocBlock, if_neg hal]
      rw [ea] at hrelA ⊢
      exact ⟨-1, h.context, h.hashString, h.abort, h.position, h.readCount, _, b, rfl, rfl, hrelA, .inr rfl, fun _ => rfl, Nat.le_refl _,
        fun n hn _ => by omega, fun _ => by omega, fun h => .inl h, fun h => absurd h (by decide), fun _ _ _ _ _ h2 => absurd (h2 _ (Nat.le_refl _)) hal⟩

end Model
