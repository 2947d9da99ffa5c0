import Verif.Proofs.DigestTypes
import Verif.Proofs.ByteSize
/-! Sequences of calls on a sum handle. -/

namespace Model

open Spec

/-- The hash strings of a handle for some algorithms. -/
def strKeys (str : Kind → Option (Nat × List Nat)) (ks : List Kind) : List Nat := ks.flatMap fun k => ((str k).map (·.1)).toList

/-- The blocks of a handle that are not contexts. -/
def handleBlocks (h : Handle) : List Nat := h.self :: (h.input.toList ++ strKeys h.hashString digestOrder)

/-- Reachable handles: contexts are valid, enabled digests and only those have a string, and the live memory is that of the handle and `base`, `blk`. -/
def HandleInv (T : Tool) (base : Nat → List Nat) (blk : List Nat) (h : Handle) (W : World) : Prop :=
  (∃ b, CtxRel base h.context W b) ∧ StringsOk T h ∧ (∀ k, h.calculate k = false → h.hashString k = none) ∧ W.blocks.Perm (handleBlocks h ++ blk)

/-- The handle variable is NULL: all live memory is `base`, `blk`. -/
def NoneInv (base : Nat → List Nat) (blk : List Nat) (W : World) : Prop := (∀ w, ((W.mem.live w).map (·.1)).Perm (base w)) ∧ W.blocks.Perm blk

/-- Reachable values of a handle variable. -/
def VarInv (T : Tool) (base : Nat → List Nat) (blk : List Nat) (slot : Option Handle) (W : World) : Prop :=
  match slot with
  | none => NoneInv base blk W
  | some h => HandleInv T base blk h W

theorem ctxRel_empty {base : Nat → List Nat} {W : World} (h : ∀ w, ((W.mem.live w).map (·.1)).Perm (base w)) : CtxRel base (fun _ => none) W (fun _ => none) := by
  refine ⟨⟨fun _ => trivial, fun i j p hp => by cases hp⟩, fun w => ?_⟩
  have : ctxKeys (fun _ => none) w = [] := by simp [ctxKeys]
  rw [this]
  exact h w

theorem strKeys_update (str : Kind → Option (Nat × List Nat)) (k : Kind) (p : Nat) (s : List Nat) (h : str k = none) :
    (strKeys (Function.update str k (some (p, s))) digestOrder).Perm (p :: strKeys str digestOrder) := by
  rw [List.perm_iff_count]
  intro x
  cases k <;> simp [strKeys, digestOrder, Function.update, List.count_append, h, List.count_cons] <;> omega

variable {T : Tool} {base : Nat → List Nat}

theorem allocBlock_live (W : World) (w : Nat) : (allocBlock T W).2.mem.live w = W.mem.live w := by unfold allocBlock; split <;> rfl

theorem sumInitialize_ok (hT : T.Ok) (blk : List Nat) (W : World) (hW : NoneInv base blk W) :
    (∃ h W', sumInitialize T none W = .ok (1, some h, W') ∧ HandleInv T base blk h W' ∧ (∀ k, h.calculate k = true ↔ k = .md5) ∧ (∀ k, h.context k = none) ∧ h.bufferSize = 32768 ∧
      h.abort = false ∧ h.position = 0 ∧ h.readCount = 0) ∨
    ∃ W' extra, sumInitialize T none W = .ok (-1, none, W') ∧ NoneInv base (extra ++ blk) W' ∧ extra.length ≤ 1 ∧
      (extra ≠ [] → T.alloc W.mem.count = true ∧ T.alloc (W.mem.count + 1) = true ∧ T.alloc (W.mem.count + 2) = false) ∧
      ∃ n, W.mem.count ≤ n ∧ T.alloc n = false := by
  obtain ⟨hl, hb⟩ := hW
  by_cases h0 : T.alloc W.mem.count = true
  · by_cases h1 : T.alloc (W.mem.count + 1) = true
    · by_cases h2 : T.alloc (W.mem.count + 1 + 1) = true
      · refine .inl ⟨⟨W.mem.count, some (W.mem.count + 1), fun k => k = .md5, fun _ => none,
          fun k => if k = .md5 then some (W.mem.count + 1 + 1, T.stringJunk .md5) else none, 32768, false, 0, 0⟩,
          ⟨⟨W.mem.caller, W.mem.count + 1 + 1 + 1, W.mem.live, W.mem.freed⟩, (W.mem.count + 1 + 1) :: (W.mem.count + 1) :: W.mem.count :: W.blocks⟩,
          by simp only [sumInitialize, allocBlock, h0, h1, h2, if_true], ⟨⟨_, ctxRel_empty hl⟩, ?_, ?_, ?_⟩, ?_, fun _ => rfl, rfl, rfl, rfl, rfl⟩
        · intro k hk
          simp only [decide_eq_true_eq] at hk
          subst hk
          exact ⟨_, _, rfl, hT.stringJunk _, fun h => h _⟩
        · intro k hk
          simp only [decide_eq_false_iff_not] at hk
          simp [hk]
        · refine List.Perm.trans (((hb.cons _).cons _).cons _) ?_
          rw [List.perm_iff_count]
          intro x
          simp [handleBlocks, strKeys, digestOrder, List.count_cons]
          omega
        · intro k
          simp
      · refine .inr ⟨⟨⟨W.mem.caller, W.mem.count + 3, W.mem.live, W.mem.freed⟩, (W.mem.count + 1) :: W.blocks⟩, [W.mem.count + 1], ?_, ⟨hl, hb.cons _⟩, Nat.le_refl _,
          fun _ => ⟨h0, h1, by simpa using h2⟩, W.mem.count + 1 + 1, by omega, by simpa using h2⟩
        simp [sumInitialize, allocBlock, h0, h1, h2, freeBlock]
    · refine .inr ⟨⟨⟨W.mem.caller, W.mem.count + 2, W.mem.live, W.mem.freed⟩, W.blocks⟩, [], ?_, ⟨hl, hb⟩, by simp, by simp, _, Nat.le_succ _, by simpa using h1⟩
      simp [sumInitialize, allocBlock, h0, h1, freeBlock]
  · refine .inr ⟨⟨⟨W.mem.caller, W.mem.count + 1, W.mem.live, W.mem.freed⟩, W.blocks⟩, [], ?_, ⟨hl, hb⟩, by simp, by simp, _, Nat.le_refl _, by simpa using h0⟩
    simp [sumInitialize, allocBlock, h0]

theorem freeBlock_perm {M : Type} (p : Nat) (W : WorldOf M) (bs : List Nat) (h : W.blocks.Perm (p :: bs)) : ∃ W', freeBlock p W = .ok W' ∧ W'.mem = W.mem ∧ W'.blocks.Perm bs := by
  refine ⟨{ W with blocks := W.blocks.erase p }, by rw [freeBlock, if_pos (h.mem_iff.mpr (by simp))], rfl, ?_⟩
  have := h.erase p
  rwa [List.erase_cons_head] at this

theorem freeOptBlock_perm {M : Type} (p : Option Nat) (W : WorldOf M) (bs : List Nat) (h : W.blocks.Perm (p.toList ++ bs)) : ∃ W', freeOptBlock p W = .ok W' ∧ W'.mem = W.mem ∧ W'.blocks.Perm bs := by
  cases p with
  | none => exact ⟨W, rfl, rfl, h⟩
  | some p => exact freeBlock_perm p W bs h

theorem freeContext_ok (hT : T.Ok) (k : Kind) (r : Int) (h : Handle) (W : World) (b : Abs) (hrel : CtxRel base h.context W b) :
    ∃ ctx' W' b', freeContext T k r h W = .ok (r, { h with context := ctx' }, W') ∧ W'.blocks = W.blocks ∧ CtxRel base ctx' W' b' ∧
      ∀ j, ctx' j = if j = k then none else h.context j := by
  unfold freeContext
  cases hc : h.context k with
  | none => exact ⟨h.context, W, b, rfl, rfl, hrel, fun j => by split <;> simp_all⟩
  | some p =>
    obtain ⟨slot', W', e, hb, hr, -⟩ := ctxCall_ok hT k .free h.readCount h W b trivial hrel
    have hst : (kindStep k T.alloc .free (b k) W.mem.count).1.code = 1 ∧ (kindStep k T.alloc .free (b k) W.mem.count).2.slot = none := ⟨rfl, rfl⟩
    refine ⟨_, W', _, ?_, hb, hr, fun j => ?_⟩
    · simp only [e, Res.ok_bind, hst.1]; rfl
    · split
      · rename_i hj
        subst hj
        exact (ctxRel_none hr j).mpr (by rw [Function.update_self]; exact hst.2)
      · rename_i hj
        rw [Function.update_of_ne hj]

theorem freeHashes_ok (hT : T.Ok) : ∀ (ks : List Kind) (r : Int) (h : Handle) (W : World) (b : Abs) (rest : List Nat), ks.Nodup → CtxRel base h.context W b →
    W.blocks.Perm (strKeys h.hashString ks ++ rest) →
    ∃ ctx' W' b', freeHashes T ks r h W = .ok (r, { h with context := ctx' }, W') ∧ CtxRel base ctx' W' b' ∧ W'.blocks.Perm rest ∧
      ∀ k, ctx' k = if k ∈ ks then none else h.context k
  | [], r, h, W, b, rest, _, hrel, hp => ⟨h.context, W, b, rfl, hrel, hp, by simp⟩
  | k :: ks, r, h, W, b, rest, hnd, hrel, hp => by
    have hk : k ∉ ks := (List.nodup_cons.mp hnd).1
    obtain ⟨ctx1, W1, b1, e1, hb1, hr1, hc1⟩ := freeContext_ok hT k r h W b hrel
    obtain ⟨W2, e2, hm2, hp2⟩ := freeOptBlock_perm ((h.hashString k).map (·.1)) W1 (strKeys h.hashString ks ++ rest) (by
      rw [hb1]
      simpa [strKeys] using hp)
    obtain ⟨ctx', W', b', e, hr, hb, hc⟩ := freeHashes_ok hT ks r { h with context := ctx1 } W2 b1 rest (List.nodup_cons.mp hnd).2 (by unfold CtxRel; rw [hm2]; exact hr1) hp2
    refine ⟨ctx', W', b', ?_, hr, hb, fun j => ?_⟩
    · simp only [freeHashes, e1, Res.ok_bind, e2, e]
    · rw [hc j]
      simp only [List.mem_cons, hc1 j]
      by_cases hj : j = k
      · simp [hj]
      · simp [hj]

theorem sumFree_ok (hT : T.Ok) (closeOk : Bool) (blk : List Nat) (slot : Option Handle) (W : World) (hv : VarInv T base blk slot W) :
    ∃ W', sumFree T closeOk slot W = .ok (if closeOk || slot.isNone then 1 else -1, none, W') ∧ NoneInv base blk W' := by
  cases slot with
  | none => exact ⟨W, by simp [sumFree], hv⟩
  | some h =>
    obtain ⟨⟨b, hrel⟩, hstr, hnone, hp⟩ := hv
    obtain ⟨ctx', W1, b1, e1, hr1, hp1, hc1⟩ := freeHashes_ok hT digestOrder 1 h W b (h.self :: (h.input.toList ++ blk)) digestOrder_nodup hrel (hp.trans (by
      rw [List.perm_iff_count]
      intro x
      simp [handleBlocks, List.count_cons, List.count_append]
      omega))
    have hctx : ctx' = fun _ => none := by
      funext k
      rw [hc1 k, if_pos (mem_digestOrder k)]
    obtain ⟨W2, e2, hm2, hp2⟩ := freeOptBlock_perm h.input W1 (h.self :: blk) (hp1.trans (by
      rw [List.perm_iff_count]
      intro x
      simp [List.count_cons, List.count_append]
      omega))
    obtain ⟨W3, e3, hm3, hp3⟩ := freeBlock_perm h.self W2 blk hp2
    refine ⟨W3, ?_, fun w => ?_, hp3⟩
    · simp only [sumFree, e1, Res.ok_bind, e2, e3, Res.pure_eq, Option.isNone_some, Bool.or_false]
    · rw [hm3, hm2]
      have := hr1.2 w
      rw [hctx] at this
      rwa [show ctxKeys (fun _ => none) w = [] by simp [ctxKeys]] at this

theorem enableDigests_ok (hT : T.Ok) (f : Kind → Bool) : ∀ (ks : List Kind) (h : Handle) (W : World) (b : Abs) (rest : List Nat), ks.Nodup → CtxRel base h.context W b →
    StringsOk T h → (∀ k, h.calculate k = false → h.hashString k = none) → W.blocks.Perm (strKeys h.hashString digestOrder ++ rest) →
    ∃ ok calc' str' W', enableDigests T f ks h W = (ok, { h with calculate := calc', hashString := str' }, W') ∧ CtxRel base h.context W' b ∧
      StringsOk T { h with calculate := calc', hashString := str' } ∧ (∀ k, calc' k = false → str' k = none) ∧ W'.blocks.Perm (strKeys str' digestOrder ++ rest) ∧
      (∀ k, h.calculate k = true → calc' k = true ∧ str' k = h.hashString k) ∧ (∀ k, calc' k = true → h.calculate k = true ∨ f k = true) ∧
      (ok = true → ∀ k ∈ ks, f k = true → calc' k = true) ∧ ((∀ n, W.mem.count ≤ n → T.alloc n = true) → ok = true)
  | [], h, W, b, rest, _, hrel, hstr, hnone, hp =>
    ⟨true, h.calculate, h.hashString, W, rfl, hrel, hstr, hnone, hp, fun k hk => ⟨hk, rfl⟩, fun k hk => .inl hk, by simp, fun _ => rfl⟩
  | k :: ks, h, W, b, rest, hnd, hrel, hstr, hnone, hp => by
    have hk : k ∉ ks := (List.nodup_cons.mp hnd).1
    by_cases hc : (f k && !h.calculate k) = true
    · obtain ⟨hf, hck⟩ : f k = true ∧ h.calculate k = false := by simpa using hc
      have hsk := hnone k hck
      have hrelA := allocBlock_rel (T := T) hrel
      by_cases hal : T.alloc W.mem.count = true
      · have ea : allocBlock T W = (some W.mem.count, ⟨{ W.mem with count := W.mem.count + 1 }, W.mem.count :: W.blocks⟩) := by rw [allocBlock, if_pos hal]
        rw [ea] at hrelA
        obtain ⟨ok, calc', str', W', e, h1, h2, h3, h4, h5, h6, h7, h8⟩ := enableDigests_ok hT f ks
          { h with calculate := Function.update h.calculate k true, hashString := Function.update h.hashString k (some (W.mem.count, T.stringJunk k)) }
          ⟨{ W.mem with count := W.mem.count + 1 }, W.mem.count :: W.blocks⟩ b rest (List.nodup_cons.mp hnd).2 hrelA
          (by
            intro j hj
            by_cases hjk : j = k
            · subst hjk
              exact ⟨W.mem.count, T.stringJunk j, by simp only [Function.update_self], hT.stringJunk j, fun h => h _⟩
            · simp only [Function.update_of_ne hjk] at hj ⊢
              exact hstr j hj)
          (by
            intro j hj
            by_cases hjk : j = k
            · subst hjk
              simp at hj
            · simp only [Function.update_of_ne hjk] at hj ⊢
              exact hnone j hj)
          ((hp.cons _).trans ((strKeys_update h.hashString k _ _ hsk).symm.append_right rest))
        refine ⟨ok, calc', str', W', ?_, h1, h2, h3, h4, fun j hj => ?_, fun j hj => ?_, fun hok j hj hfj => ?_, fun hn => h8 fun n hn' => hn n (by simp only at hn'; omega)⟩
        · simp only [enableDigests, hc, if_true, ea, e]
        · have hjk : j ≠ k := by rintro rfl; simp [hck] at hj
          have := h5 j (by simpa only [Function.update_of_ne hjk] using hj)
          simpa only [Function.update_of_ne hjk] using this
        · rcases h6 j hj with h | h
          · by_cases hjk : j = k
            · subst hjk
              exact .inr hf
            · simp only [Function.update_of_ne hjk] at h
              exact .inl h
          · exact .inr h
        · rcases List.mem_cons.mp hj with rfl | hj
          · exact (h5 j (by simp)).1
          · exact h7 hok j hj hfj
      · have ea : allocBlock T W = (none, ⟨{ W.mem with count := W.mem.count + 1 }, W.blocks⟩) := by rw [allocBlock, if_neg hal]
        rw [ea] at hrelA
        have eu : Function.update h.hashString k none = h.hashString := by rw [← hsk, Function.update_eq_self]
        refine ⟨false, h.calculate, h.hashString, _, ?_, hrelA, hstr, hnone, hp, fun j hj => ⟨hj, rfl⟩, fun j hj => .inl hj, by simp, fun hn => absurd (hn _ (Nat.le_refl _)) hal⟩
        simp only [enableDigests, hc, if_true, ea, eu]
    · obtain ⟨ok, calc', str', W', e, h1, h2, h3, h4, h5, h6, h7, h8⟩ := enableDigests_ok hT f ks h W b rest (List.nodup_cons.mp hnd).2 hrel hstr hnone hp
      refine ⟨ok, calc', str', W', ?_, h1, h2, h3, h4, h5, h6, fun hok j hj hfj => ?_, h8⟩
      · simp only [enableDigests, hc, e]; rfl
      · rcases List.mem_cons.mp hj with rfl | hj
        · have : h.calculate j = true := by simpa [hfj] using hc
          exact (h5 j this).1
        · exact h7 hok j hj hfj

theorem setDigestTypes_ok (hT : T.Ok) (mc splitOk splitFreeOk : Bool) (string : List Nat) (blk : List Nat) (h : Handle) (W : World) (hI : HandleInv T base blk h W) :
    ∃ r calc' str' W', setDigestTypes T mc splitOk splitFreeOk string h W = .ok (r, { h with calculate := calc', hashString := str' }, W') ∧
      HandleInv T base blk { h with calculate := calc', hashString := str' } W' ∧ (r = 0 ∨ r = -1) ∧
      (r = 0 → ∀ k, calc' k = true ↔ h.calculate k = true ∨ k.Named string) ∧
      (∀ k, h.calculate k = true → calc' k = true ∧ str' k = h.hashString k) ∧ (∀ k, calc' k = true → h.calculate k = true ∨ k.Named string) ∧
      (splitOk = true → splitFreeOk = true → (∀ n, W.mem.count ≤ n → T.alloc n = true) → r = 0) := by
  cases splitOk with
  | false =>
    exact ⟨-1, h.calculate, h.hashString, W, rfl, hI, .inr rfl, fun h => absurd h (by decide), fun k hk => ⟨hk, rfl⟩, fun k hk => .inl hk, by simp⟩
  | true =>
    obtain ⟨⟨b, hrel⟩, hstr, hnone, hp⟩ := hI
    obtain ⟨f, ef, hf⟩ := segmentsLoop_ok mc (splitAt 44 string) (fun _ => false)
    have hnamed : ∀ k, f k = true ↔ k.Named string := fun k => by
      rw [hf k]
      simp only [Bool.false_eq_true, false_or, Kind.Named]
      constructor
      · rintro ⟨seg, h1, h2⟩
        exact ⟨seg, h2, (mem_splitAt seg string).mp h1⟩
      · rintro ⟨seg, h1, h2⟩
        exact ⟨seg, (mem_splitAt seg string).mpr h2, h1⟩
    obtain ⟨ok, calc', str', W', e, h1, h2, h3, h4, h5, h6, h7, h8⟩ := enableDigests_ok hT f digestOrder h W b (h.self :: (h.input.toList ++ blk)) digestOrder_nodup hrel hstr hnone
      (hp.trans (by
        rw [List.perm_iff_count]
        intro x
        simp [handleBlocks, List.count_cons, List.count_append]
        omega))
    refine ⟨if ok && splitFreeOk then 0 else -1, calc', str', W', ?_, ⟨⟨b, h1⟩, h2, h3, h4.trans ?_⟩, ?_, fun hr k => ⟨fun hk => ?_, fun hk => ?_⟩, h5, fun k hk => ?_, fun _ h9 h10 => ?_⟩
    · simp only [setDigestTypes, Bool.not_true, Bool.false_eq_true, if_false, ef, Res.ok_bind, e, Res.pure_eq]
    · rw [List.perm_iff_count]
      intro x
      simp [handleBlocks, List.count_cons, List.count_append]
      omega
    · split <;> simp
    · rw [← hnamed k]
      exact h6 k hk
    · have hok : ok = true := by
        cases ok
        · simp at hr
        · rfl
      rcases hk with hk | hk
      · exact (h5 k hk).1
      · exact h7 hok k (mem_digestOrder k) ((hnamed k).mpr hk)
    · rw [← hnamed k]
      exact h6 k hk
    · rw [h8 h10, h9]; rfl

theorem setBufferSize_ok (verbose : Bool) (dp : Option Nat) (hdp : dp ≠ some 0) (string : List Nat) (h : Handle) :
    ∃ r n, setBufferSize verbose dp string h = .ok (r, { h with bufferSize := n }) ∧ (r = 1 ∧ n ≤ ssizeMax ∨ (r = 0 ∨ r = -1) ∧ n = h.bufferSize) := by
  obtain ⟨r, v, e, hr⟩ := byteSizeConvert_safe verbose dp hdp string string.length (some 0)
  rcases hr with ⟨rfl, hv⟩ | ⟨rfl, rfl⟩
  · obtain ⟨x, rfl⟩ := Option.isSome_iff_exists.mp hv
    by_cases hx : ssizeMax < x.toNat
    · exact ⟨0, h.bufferSize, by unfold setBufferSize; rw [e]; simp [hx], .inr ⟨.inl rfl, rfl⟩⟩
    · exact ⟨1, x.toNat, by unfold setBufferSize; rw [e]; simp [hx], .inl ⟨rfl, by omega⟩⟩
  · exact ⟨-1, h.bufferSize, by unfold setBufferSize; rw [e]; simp, .inr ⟨.inr rfl, rfl⟩⟩

theorem processInput_inv (hT : T.Ok) (inp : Input) (aborted : Nat → Bool) (blk : List Nat) (h : Handle) (W : World) (hI : HandleInv T base blk h W) :
    ∃ r h' W', processInput T inp aborted h W = .ok (r, h', W') ∧ HandleInv T base blk h' W' ∧ h'.calculate = h.calculate ∧ h'.bufferSize = h.bufferSize := by
  obtain ⟨⟨b, hrel⟩, hstr, hnone, hp⟩ := hI
  obtain ⟨r, ctx', str', ab', pos', rc', W', b', e, hb, hr, hrv, hfail, -, -, -, -, hsuc, -⟩ := processInput_ok hT inp aborted h W b hrel hstr
  have hs : ∀ k, if h.calculate k = true then ∃ p s s', h.hashString k = some (p, s) ∧ str' k = some (p, s') ∧ s'.length = stringSize k ∧
      ((∀ j, 0 ∈ T.stringJunk j) → 0 ∈ s') else str' k = h.hashString k := by
    intro k
    rcases hrv with rfl | rfl
    · obtain ⟨size, d, -, -, -, -, -, -, -, -, -, -, hs⟩ := hsuc rfl
      have := hs k
      split
      · rename_i hk
        rw [if_pos hk] at this
        obtain ⟨p, s, h1, h2⟩ := this
        exact ⟨p, s, _, h1, h2, by rw [List.length_append, hex_length, digest_length, stringSize_eq]; rfl, by simp⟩
      · rename_i hk
        rwa [if_neg hk] at this
    · rw [hfail rfl]
      split
      · rename_i hk
        obtain ⟨p, s, h1, h2, h3⟩ := hstr k hk
        exact ⟨p, s, s, h1, h1, h2, h3⟩
      · rfl
  refine ⟨r, _, W', e, ⟨⟨b', hr⟩, fun k hk => ?_, fun k hk => ?_, ?_⟩, rfl, rfl⟩
  · have := hs k
    rw [if_pos hk] at this
    obtain ⟨p, s, s', -, h2, h3⟩ := this
    exact ⟨p, s', h2, h3⟩
  · have := hs k
    rw [if_neg (by simpa using hk)] at this
    exact this.trans (hnone k hk)
  · rw [hb]
    refine hp.trans (List.Perm.of_eq ?_)
    have : ∀ k, (str' k).map (·.1) = (h.hashString k).map (·.1) := by
      intro k
      have := hs k
      split at this
      · obtain ⟨p, s, s', h1, h2, -⟩ := this
        rw [h1, h2]; rfl
      · rw [this]
    simp only [handleBlocks, strKeys, this]

theorem cString_ok : ∀ s : List Nat, 0 ∈ s → cString s = .ok (s.takeWhile (· ≠ 0))
  | [], h => by simp at h
  | x :: s, h => by
    by_cases hx : x = 0
    · simp [cString, hx]
    · have : 0 ∈ s := by simpa [Ne.symm hx] using h
      simp [cString, hx, cString_ok s this]

/-- The text of the string of a digest. -/
def Handle.text (h : Handle) (k : Kind) : List Nat := (((h.hashString k).map (·.2)).getD []).takeWhile (· ≠ 0)

theorem printHashes_ok (h : Handle) (hstr : ∀ k, h.calculate k = true → ∃ p s, h.hashString k = some (p, s) ∧ 0 ∈ s) :
    ∀ ks : List Kind, printHashes ks h = .ok ((ks.filter h.calculate).map fun k => (k, h.text k))
  | [] => rfl
  | k :: ks => by
    have e := printHashes_ok h hstr ks
    by_cases hk : h.calculate k = true
    · obtain ⟨p, s, hs, h0⟩ := hstr k hk
      simp [printHashes, hk, hs, e, cString_ok s h0, Handle.text]
    · simp [printHashes, hk, e]

theorem StringsOk.terminated {h : Handle} (hstr : StringsOk T h) (h0 : ∀ j, 0 ∈ T.stringJunk j) : ∀ k, h.calculate k = true → ∃ p s, h.hashString k = some (p, s) ∧ 0 ∈ s := fun k hk => by
  obtain ⟨p, s, h1, -, h2⟩ := hstr k hk
  exact ⟨p, s, h1, h2 h0⟩

/-- A decimal point is not the terminator. -/
def HandleOp.Valid : HandleOp → Prop
  | .bufferSize _ dp _ => dp ≠ some 0
  | _ => True

/-- The handle has a buffer size that is not too large, and MD5 is enabled. -/
def SizeOk (slot : Option Handle) : Prop := ∀ h, slot = some h → h.bufferSize ≤ ssizeMax ∧ h.calculate .md5 = true

theorem handleStep_ok (hT : T.Ok) (op : HandleOp) (hv : op.Valid) (hpr : op = .print → ∀ j, 0 ∈ T.stringJunk j) (blk : List Nat) (slot : Option Handle) (W : World) (hI : VarInv T base blk slot W) (hz : SizeOk slot) :
    ∃ r slot' W' extra, handleStep T op slot W = .ok (r, slot', W') ∧ VarInv T base (extra ++ blk) slot' W' ∧ SizeOk slot' ∧ extra.length ≤ 1 ∧
      (extra ≠ [] → op = .init ∧ r = -1 ∧ ∃ n, T.alloc n = false) ∧ ((∃ c, op = .free c) → slot' = none) := by
  by_cases hinit : op = .init
  · subst hinit
    cases slot with
    | some h => exact ⟨-1, some h, W, [], rfl, hI, hz, by simp, by simp, by simp⟩
    | none =>
      rcases sumInitialize_ok hT blk W hI with ⟨h, W', e, h1, h3, -, h2, -⟩ | ⟨W', extra, e, h1, h2, h3, n, -, hn⟩
      · refine ⟨1, some h, W', [], e, h1, fun h' hh => ?_, by simp, by simp, by simp⟩
        cases hh
        exact ⟨by rw [h2]; decide, (h3 _).mpr rfl⟩
      · exact ⟨-1, none, W', extra, e, h1, fun _ hh => (by cases hh), h2, fun _ => ⟨rfl, rfl, n, hn⟩, by simp⟩
  by_cases hfree : ∃ c, op = .free c
  · obtain ⟨c, rfl⟩ := hfree
    obtain ⟨W', e, h1⟩ := sumFree_ok hT c blk slot W hI
    exact ⟨_, none, W', [], e, h1, fun _ hh => (by cases hh), by simp, by simp, fun _ => rfl⟩
  cases slot with
  | none =>
    refine ⟨-1, none, W, [], ?_, hI, hz, by simp, by simp, fun _ => rfl⟩
    cases op <;> first | rfl | exact absurd rfl hinit | exact absurd ⟨_, rfl⟩ hfree
  | some h =>
    have hz := hz h rfl
    have fin : ∀ (r : Int) (h' : Handle) (W' : World), handleStep T op (some h) W = .ok (r, some h', W') → HandleInv T base blk h' W' → h'.bufferSize ≤ ssizeMax ∧ h'.calculate .md5 = true →
        ∃ r slot' W' extra, handleStep T op (some h) W = .ok (r, slot', W') ∧ VarInv T base (extra ++ blk) slot' W' ∧ SizeOk slot' ∧ extra.length ≤ 1 ∧
          (extra ≠ [] → op = .init ∧ r = -1 ∧ ∃ n, T.alloc n = false) ∧ ((∃ c, op = .free c) → slot' = none) := fun r h' W' e h1 h2 =>
      ⟨r, some h', W', [], e, h1, fun g hg => by cases hg; exact h2, by simp, by simp, fun hf => absurd hf hfree⟩
    cases op with
    | init => exact absurd rfl hinit
    | free c => exact absurd ⟨_, rfl⟩ hfree
    | abort => exact fin 1 _ W rfl hI hz
    | «open» ok =>
      refine fin _ _ W rfl ?_ ?_
      · cases ok <;> exact hI
      · cases ok <;> exact hz
    | close ok => exact fin _ h W rfl hI hz
    | process inp aborted =>
      obtain ⟨r, h', W', e, h1, h3, h2⟩ := processInput_inv hT inp aborted blk h W hI
      exact fin r h' W' (by simp [handleStep, e]) h1 (by rw [h2, h3]; exact hz)
    | digests mc s1 s2 string =>
      obtain ⟨r, calc', str', W', e, h1, -, -, h2, -⟩ := setDigestTypes_ok hT mc s1 s2 string blk h W hI
      exact fin r _ W' (by simp [handleStep, e]) h1 ⟨hz.1, (h2 _ hz.2).1⟩
    | bufferSize verbose dp string =>
      obtain ⟨r, n, e, h1⟩ := setBufferSize_ok verbose dp hv string h
      refine fin r { h with bufferSize := n } W (by simp [handleStep, e]) hI ?_
      rcases h1 with ⟨-, h1⟩ | ⟨-, h1⟩
      · exact ⟨h1, hz.2⟩
      · simp only [h1]
        exact hz
    | print =>
      have e := printHashes_ok h (hI.2.1.terminated (hpr rfl)) digestOrder
      exact fin 1 h W (by simp [handleStep, e]) hI hz

theorem handleStep_inv (hT : T.Ok) (op : HandleOp) (hv : op.Valid) (blk : List Nat) (slot : Option Handle) (W : World) (hI : VarInv T base blk slot W) (hz : SizeOk slot)
    (r : Int) (slot' : Option Handle) (W' : World) (e : handleStep T op slot W = .ok (r, slot', W')) :
    ∃ extra, VarInv T base (extra ++ blk) slot' W' ∧ SizeOk slot' ∧ extra.length ≤ 1 ∧ (extra ≠ [] → op = .init ∧ r = -1 ∧ ∃ n, T.alloc n = false) := by
  by_cases hp : op = .print
  · subst hp
    cases slot with
    | none => cases e; exact ⟨[], hI, hz, by simp, by simp⟩
    | some h =>
      simp only [handleStep] at e
      cases hx : printHashes digestOrder h with
      | ok out => rw [hx] at e; cases e; exact ⟨[], hI, hz, by simp, by simp⟩
      | ub => rw [hx] at e; cases e
      | diverge => rw [hx] at e; cases e
  · obtain ⟨r1, slot1, W1, x1, e1, h1, hz1, hx1, hc1, -⟩ := handleStep_ok hT op hv (fun h => absurd h hp) blk slot W hI hz
    rw [e] at e1
    cases e1
    exact ⟨x1, h1, hz1, hx1, hc1⟩

/-- Counts the failed initialise calls. -/
def failedInits (ops : List HandleOp) (rs : List Int) : Nat := (ops.zip rs).countP (fun x => x.1 matches .init && x.2 == -1)

/-- What every sequence of calls preserves. -/
theorem handleRun_inv (hT : T.Ok) : ∀ (ops : List HandleOp) (blk : List Nat) (slot : Option Handle) (W : World), (∀ op ∈ ops, op.Valid) → VarInv T base blk slot W → SizeOk slot →
    ∀ rs slot' W', handleRun T ops slot W = .ok (rs, slot', W') →
    ∃ extra, VarInv T base (extra ++ blk) slot' W' ∧ SizeOk slot' ∧ rs.length = ops.length ∧ extra.length ≤ failedInits ops rs ∧ (extra ≠ [] → ∃ n, T.alloc n = false)
  | [], blk, slot, W, _, hI, hz, rs, slot', W', e => by cases e; exact ⟨[], hI, hz, rfl, by simp, by simp⟩
  | op :: ops, blk, slot, W, hv, hI, hz, rs, slot', W', e => by
    rw [handleRun] at e
    cases e1 : handleStep T op slot W with
    | ok x =>
      obtain ⟨r, slot1, W1⟩ := x
      rw [e1] at e
      simp only [Res.ok_bind] at e
      cases e2 : handleRun T ops slot1 W1 with
      | ok y =>
        obtain ⟨rs2, slot2, W2⟩ := y
        rw [e2] at e
        cases e
        obtain ⟨x1, h1, hz1, hx1, hc1⟩ := handleStep_inv hT op (hv op (by simp)) blk slot W hI hz r slot1 W1 e1
        obtain ⟨x2, h2, hz2, hl2, hx2, hc2⟩ := handleRun_inv hT ops (x1 ++ blk) slot1 W1 (fun o ho => hv o (by simp [ho])) h1 hz1 rs2 slot2 W2 e2
        refine ⟨x2 ++ x1, by rw [List.append_assoc]; exact h2, hz2, by simp [hl2], ?_, fun hne => ?_⟩
        · unfold failedInits at hx2 ⊢
          rw [List.zip_cons_cons, List.countP_cons, List.length_append]
          by_cases hx : x1 = []
          · subst hx
            simp only [List.length_nil]
            omega
          · obtain ⟨rfl, rfl, -⟩ := hc1 hx
            simp
            omega
        · by_cases hx : x1 = []
          · subst hx
            exact hc2 (by simpa using hne)
          · exact (hc1 hx).2.2
      | ub => rw [e2] at e; cases e
      | diverge => rw [e2] at e; cases e
    | ub => rw [e1] at e; cases e
    | diverge => rw [e1] at e; cases e

/-- Sequences do not fail if prints are only made with terminated strings. -/
theorem handleRun_total (hT : T.Ok) : ∀ (ops : List HandleOp) (blk : List Nat) (slot : Option Handle) (W : World), (∀ op ∈ ops, op.Valid ∧ (op = .print → ∀ j, 0 ∈ T.stringJunk j)) →
    VarInv T base blk slot W → SizeOk slot → ∃ x, handleRun T ops slot W = .ok x
  | [], blk, slot, W, _, hI, hz => ⟨_, rfl⟩
  | op :: ops, blk, slot, W, hv, hI, hz => by
    obtain ⟨r, slot1, W1, x1, e1, h1, hz1, -⟩ := handleStep_ok hT op (hv op (by simp)).1 (hv op (by simp)).2 blk slot W hI hz
    obtain ⟨⟨rs, slot2, W2⟩, e2⟩ := handleRun_total hT ops (x1 ++ blk) slot1 W1 (fun o ho => hv o (by simp [ho])) h1 hz1
    exact ⟨(r :: rs, slot2, W2), by simp [handleRun, e1, e2]⟩

theorem handleRun_append : ∀ (a c : List HandleOp) (slot : Option Handle) (W : World), handleRun T (a ++ c) slot W = (do
    let (rs, slot, W) ← handleRun T a slot W
    let (rs', slot, W) ← handleRun T c slot W
    pure (rs ++ rs', slot, W))
  | [], c, slot, W => by
    simp only [List.nil_append, handleRun, Res.ok_bind]
    cases handleRun T c slot W <;> rfl
  | op :: a, c, slot, W => by
    simp only [List.cons_append, handleRun]
    cases handleStep T op slot W with
    | ok x =>
      simp only [Res.ok_bind]
      rw [handleRun_append a c]
      cases handleRun T a x.2.1 x.2.2 with
      | ok y =>
        simp only [Res.ok_bind, Res.pure_eq]
        cases handleRun T c y.2.1 y.2.2 <;> rfl
      | ub => rfl
      | diverge => rfl
    | ub => rfl
    | diverge => rfl

/-- Calls other than process and free leave the contexts alone. -/
theorem handleStep_context (hT : T.Ok) (op : HandleOp) (hv : op.Valid) (hp : ∀ inp a, op ≠ .process inp a) (hf : ∀ c, op ≠ .free c) (blk : List Nat) (h : Handle) (W : World)
    (hI : HandleInv T base blk h W) (r : Int) (slot' : Option Handle) (W' : World) (e : handleStep T op (some h) W = .ok (r, slot', W')) :
    ∃ h', slot' = some h' ∧ h'.context = h.context := by
  cases op with
  | init => cases e; exact ⟨h, rfl, rfl⟩
  | free c => exact absurd rfl (hf c)
  | abort => cases e; exact ⟨_, rfl, rfl⟩
  | «open» ok => cases e; exact ⟨_, rfl, by cases ok <;> rfl⟩
  | close ok => cases e; exact ⟨h, rfl, rfl⟩
  | process inp aborted => exact absurd rfl (hp inp aborted)
  | digests mc s1 s2 string =>
    obtain ⟨r, calc', str', W', e', -⟩ := setDigestTypes_ok hT mc s1 s2 string blk h W hI
    simp [handleStep, e'] at e
    exact ⟨_, e.2.1.symm, rfl⟩
  | bufferSize verbose dp string =>
    obtain ⟨r, n, e', h1⟩ := setBufferSize_ok verbose dp hv string h
    simp [handleStep, e'] at e
    exact ⟨_, e.2.1.symm, rfl⟩
  | print =>
    simp only [handleStep] at e
    cases hx : printHashes digestOrder h with
    | ok out => rw [hx] at e; cases e; exact ⟨h, rfl, rfl⟩
    | ub => rw [hx] at e; cases e
    | diverge => rw [hx] at e; cases e

theorem handleRun_context (hT : T.Ok) : ∀ (ops : List HandleOp) (blk : List Nat) (h : Handle) (W : World), (∀ op ∈ ops, op.Valid) →
    (∀ op ∈ ops, (∀ inp a, op ≠ .process inp a) ∧ ∀ c, op ≠ .free c) → HandleInv T base blk h W → SizeOk (some h) → ∀ rs slot' W', handleRun T ops (some h) W = .ok (rs, slot', W') →
    ∃ h', slot' = some h' ∧ h'.context = h.context
  | [], blk, h, W, _, _, _, _, rs, slot', W', e => by cases e; exact ⟨h, rfl, rfl⟩
  | op :: ops, blk, h, W, hv, hn, hI, hz, rs, slot', W', e => by
    rw [handleRun] at e
    cases e1 : handleStep T op (some h) W with
    | ok x =>
      obtain ⟨r, slot1, W1⟩ := x
      rw [e1] at e
      simp only [Res.ok_bind] at e
      cases e2 : handleRun T ops slot1 W1 with
      | ok y =>
        obtain ⟨rs2, slot2, W2⟩ := y
        rw [e2] at e
        cases e
        obtain ⟨x1, h1, hz1, -⟩ := handleStep_inv hT op (hv op (by simp)) blk (some h) W hI hz r slot1 W1 e1
        obtain ⟨h', rfl, hc⟩ := handleStep_context hT op (hv op (by simp)) (hn op (by simp)).1 (hn op (by simp)).2 blk h W hI r slot1 W1 e1
        obtain ⟨h2, rfl, hc2⟩ := handleRun_context hT ops (x1 ++ blk) h' W1 (fun o ho => hv o (by simp [ho])) (fun o ho => hn o (by simp [ho])) h1 hz1 rs2 slot2 W2 e2
        exact ⟨h2, rfl, hc2.trans hc⟩
      | ub => rw [e2] at e; cases e
      | diverge => rw [e2] at e; cases e
    | ub => rw [e1] at e; cases e
    | diverge => rw [e1] at e; cases e

/-- A call that does not enable digests, process input or free the handle. -/
def HandleOp.quiet : HandleOp → Bool
  | .digests .. | .process .. | .free _ => false
  | _ => true

theorem handleRun_quiet (T : Tool) : ∀ (ops : List HandleOp), (∀ op ∈ ops, op.Valid ∧ op.quiet = true) → ∀ (h : Handle) (W : World),
    (∀ k, h.calculate k = true → ∃ p s, h.hashString k = some (p, s) ∧ 0 ∈ s) →
    ∃ rs h', handleRun T ops (some h) W = .ok (rs, some h', W) ∧ h'.calculate = h.calculate ∧ h'.hashString = h.hashString
  | [], _, h, W, _ => ⟨[], h, rfl, rfl, rfl⟩
  | op :: ops, hv, h, W, hs => by
    have step : ∃ r h', handleStep T op (some h) W = .ok (r, some h', W) ∧ h'.calculate = h.calculate ∧ h'.hashString = h.hashString := by
      obtain ⟨hv1, hq⟩ := hv op (by simp)
      cases op with
      | init => exact ⟨_, h, rfl, rfl, rfl⟩
      | abort => exact ⟨_, _, rfl, rfl, rfl⟩
      | «open» ok => exact ⟨_, _, rfl, by cases ok <;> rfl, by cases ok <;> rfl⟩
      | close ok => exact ⟨_, h, rfl, rfl, rfl⟩
      | bufferSize verbose dp string =>
        obtain ⟨r, n, e', -⟩ := setBufferSize_ok verbose dp hv1 string h
        exact ⟨r, { h with bufferSize := n }, by simp [handleStep, e'], rfl, rfl⟩
      | print => exact ⟨1, h, by simp [handleStep, printHashes_ok h hs digestOrder], rfl, rfl⟩
      | digests => cases hq
      | process => cases hq
      | free => cases hq
    obtain ⟨r, h1, e1, hc1, hs1⟩ := step
    obtain ⟨rs, h2, e2, hc2, hs2⟩ := handleRun_quiet T ops (fun o ho => hv o (by simp [ho])) h1 W (by rw [hc1, hs1]; exact hs)
    exact ⟨r :: rs, h2, by simp [handleRun, e1, e2], hc2.trans hc1, hs2.trans hs1⟩

end Model
