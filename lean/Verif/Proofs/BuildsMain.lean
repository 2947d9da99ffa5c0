import Verif.Proofs.BuildsTool
/-! The main program over an implementation of the contexts that obeys a law. -/

namespace Model.Builds

open Model
open Spec (Kind IterHash ApiCall Reply ApiState hex Line Selected DigestLines printOrder)

variable {M : Type} {C : Contexts M} {T : Tool} {Good : Prop} {limit : Nat} {Rel : (Kind → Option Nat) → M → Msgs → Prop}

theorem sumInitialize_ok (hT : T.Ok) (hC : Law C T Good limit Rel) (blk : List Nat) (W : WorldOf M) (hW : NoneInv Rel blk W) :
    (∃ h W', sumInitialize T C none W = .ok (1, some h, W') ∧ HandleInv T Rel blk h W' ∧ (∀ k, h.calculate k = true ↔ k = .md5) ∧ (∀ k, h.context k = none) ∧ h.bufferSize = 32768 ∧
      h.abort = false ∧ h.position = 0) ∨
    ∃ W' extra, sumInitialize T C none W = .ok (-1, none, W') ∧ NoneInv Rel (extra ++ blk) W' ∧ extra.length ≤ 1 ∧ ∃ n, T.alloc n = false := by
  obtain ⟨hl, hb⟩ := hW
  generalize hm1 : C.attempt W.mem = m1
  generalize hm2 : C.attempt m1 = m2
  generalize hm3 : C.attempt m2 = m3
  have hl1 : Rel (fun _ => none) m1 (fun _ => none) := hm1 ▸ hC.attempt hl
  have hl2 : Rel (fun _ => none) m2 (fun _ => none) := hm2 ▸ hC.attempt hl1
  have hl3 : Rel (fun _ => none) m3 (fun _ => none) := hm3 ▸ hC.attempt hl2
  by_cases h0 : T.alloc (C.count W.mem) = true
  · by_cases h1 : T.alloc (C.count m1) = true
    · by_cases h2 : T.alloc (C.count m2) = true
      · refine .inl ⟨⟨C.count W.mem, some (C.count m1), fun k => k = .md5, fun _ => none,
          fun k => if k = .md5 then some (C.count m2, T.stringJunk .md5) else none, 32768, false, 0, 0⟩,
          ⟨m3, C.count m2 :: C.count m1 :: C.count W.mem :: W.blocks⟩,
          by simp only [sumInitialize, allocBlock, h0, hm1, h1, hm2, h2, hm3, if_true], ⟨⟨_, hl3⟩, ?_, ?_, ?_⟩, ?_, fun _ => rfl, rfl, rfl, rfl⟩
        · intro k hk
          simp only [decide_eq_true_eq] at hk
          subst hk
          exact ⟨_, _, rfl, hT.stringJunk _, fun h => h _⟩
        · intro k hk
          simp only [decide_eq_false_iff_not] at hk
          simp [hk]
        · refine List.Perm.trans (((hb.cons _).cons _).cons _) ?_
          rw [List.perm_iff_count]
          intro x
          simp [handleBlocks, strKeys, digestOrder, List.count_cons]
          omega
        · intro k
          simp
      · obtain ⟨W', e, hm, hp⟩ := freeBlock_perm (C.count W.mem) (⟨m3, C.count m1 :: C.count W.mem :: W.blocks⟩ : WorldOf M) (C.count m1 :: blk)
          ((List.Perm.swap _ _ _).trans (((hb.cons _)).cons _))
        refine .inr ⟨W', [C.count m1], ?_, ⟨hm ▸ hl3, hp⟩, Nat.le_refl _, _, by simpa using h2⟩
        simp [sumInitialize, allocBlock, h0, hm1, h1, hm2, h2, hm3, e]
    · obtain ⟨W', e, hm, hp⟩ := freeBlock_perm (C.count W.mem) (⟨m2, C.count W.mem :: W.blocks⟩ : WorldOf M) blk (hb.cons _)
      refine .inr ⟨W', [], ?_, ⟨hm ▸ hl2, hp⟩, by simp, _, by simpa using h1⟩
      simp [sumInitialize, allocBlock, h0, hm1, h1, hm2, e]
  · refine .inr ⟨⟨m1, W.blocks⟩, [], ?_, ⟨hl1, hb⟩, by simp, _, by simpa using h0⟩
    simp [sumInitialize, allocBlock, h0, hm1]

theorem freeContext_ok (hC : Law C T Good limit Rel) (k : Kind) (r : Int) (h : Handle) (W : WorldOf M) (b : Msgs) (hrel : Rel h.context W.mem b) :
    ∃ ctx' W' b', freeContext C k r h W = .ok (r, { h with context := ctx' }, W') ∧ W'.blocks = W.blocks ∧ Rel ctx' W'.mem b' ∧
      ∀ j, b' j = if j = k then none else b j := by
  unfold freeContext
  cases hc : h.context k with
  | none =>
    have hb := (hC.null hrel k).mp hc
    exact ⟨h.context, W, b, rfl, rfl, hrel, fun j => by split <;> simp_all⟩
  | some p =>
    obtain ⟨x, hx⟩ := Option.ne_none_iff_exists'.mp (fun hb => by rw [(hC.null hrel k).mpr hb] at hc; cases hc)
    obtain ⟨c, slot', m', e, hcode, hr⟩ := hC.free hrel k h.readCount x hx
    refine ⟨_, { W with mem := m' }, _, ?_, rfl, hr, fun j => by rw [Function.update_apply]⟩
    simp only [ctxCall, e, Res.ok_bind, Res.pure_eq, hcode]; rfl

theorem freeHashes_ok (hC : Law C T Good limit Rel) : ∀ (ks : List Kind) (r : Int) (h : Handle) (W : WorldOf M) (b : Msgs) (rest : List Nat), ks.Nodup → Rel h.context W.mem b →
    W.blocks.Perm (strKeys h.hashString ks ++ rest) →
    ∃ ctx' W' b', freeHashes C ks r h W = .ok (r, { h with context := ctx' }, W') ∧ Rel ctx' W'.mem b' ∧ W'.blocks.Perm rest ∧
      ∀ k, b' k = if k ∈ ks then none else b k
  | [], r, h, W, b, rest, _, hrel, hp => ⟨h.context, W, b, rfl, hrel, hp, by simp⟩
  | k :: ks, r, h, W, b, rest, hnd, hrel, hp => by
    have hk : k ∉ ks := (List.nodup_cons.mp hnd).1
    obtain ⟨ctx1, W1, b1, e1, hb1, hr1, hc1⟩ := freeContext_ok hC k r h W b hrel
    obtain ⟨W2, e2, hm2, hp2⟩ := freeOptBlock_perm ((h.hashString k).map (·.1)) W1 (strKeys h.hashString ks ++ rest) (by
      rw [hb1]
      simpa [strKeys] using hp)
    obtain ⟨ctx', W', b', e, hr, hb, hc⟩ := freeHashes_ok hC ks r { h with context := ctx1 } W2 b1 rest (List.nodup_cons.mp hnd).2 (by rw [hm2]; exact hr1) hp2
    refine ⟨ctx', W', b', ?_, hr, hb, fun j => ?_⟩
    · simp only [freeHashes, e1, Res.ok_bind, e2, e]
    · rw [hc j]
      simp only [List.mem_cons, hc1 j]
      by_cases hj : j = k
      · simp [hj]
      · simp [hj]

theorem sumFree_ok (hC : Law C T Good limit Rel) (closeOk : Bool) (blk : List Nat) (slot : Option Handle) (W : WorldOf M) (hv : VarInv T Rel blk slot W) :
    ∃ W', sumFree C closeOk slot W = .ok (if closeOk || slot.isNone then 1 else -1, none, W') ∧ NoneInv Rel blk W' := by
  cases slot with
  | none => exact ⟨W, by simp [sumFree], hv⟩
  | some h =>
    obtain ⟨⟨b, hrel⟩, hstr, hnone, hp⟩ := hv
    obtain ⟨ctx', W1, b1, e1, hr1, hp1, hc1⟩ := freeHashes_ok hC digestOrder 1 h W b (h.self :: (h.input.toList ++ blk)) digestOrder_nodup hrel (hp.trans (by
      rw [List.perm_iff_count]
      intro x
      simp [handleBlocks, List.count_cons, List.count_append]
      omega))
    have hb1 : b1 = fun _ => none := by
      funext k
      rw [hc1 k, if_pos (mem_digestOrder k)]
    have hctx : ctx' = fun _ => none := by
      funext k
      exact (hC.null hr1 k).mpr (by rw [hb1])
    obtain ⟨W2, e2, hm2, hp2⟩ := freeOptBlock_perm h.input W1 (h.self :: blk) (hp1.trans (by
      rw [List.perm_iff_count]
      intro x
      simp [List.count_cons, List.count_append]
      omega))
    obtain ⟨W3, e3, hm3, hp3⟩ := freeBlock_perm h.self W2 blk hp2
    refine ⟨W3, ?_, ?_, hp3⟩
    · simp only [sumFree, e1, Res.ok_bind, e2, e3, Res.pure_eq, Option.isNone_some, Bool.or_false]
    · rw [hm3, hm2]
      rw [hctx, hb1] at hr1
      exact hr1

theorem enableDigests_ok (hT : T.Ok) (hC : Law C T Good limit Rel) (f : Kind → Bool) : ∀ (ks : List Kind) (h : Handle) (W : WorldOf M) (b : Msgs) (rest : List Nat), ks.Nodup → Rel h.context W.mem b →
    StringsOk T h → (∀ k, h.calculate k = false → h.hashString k = none) → W.blocks.Perm (strKeys h.hashString digestOrder ++ rest) →
    ∃ ok calc' str' W', enableDigests T C f ks h W = (ok, { h with calculate := calc', hashString := str' }, W') ∧ Rel h.context W'.mem b ∧
      StringsOk T { h with calculate := calc', hashString := str' } ∧ (∀ k, calc' k = false → str' k = none) ∧ W'.blocks.Perm (strKeys str' digestOrder ++ rest) ∧
      (∀ k, h.calculate k = true → calc' k = true) ∧ (∀ k, calc' k = true → h.calculate k = true ∨ f k = true) ∧
      (ok = true → ∀ k ∈ ks, f k = true → calc' k = true) ∧ ((∀ n, T.alloc n = true) → ok = true)
  | [], h, W, b, rest, _, hrel, hstr, hnone, hp =>
    ⟨true, h.calculate, h.hashString, W, rfl, hrel, hstr, hnone, hp, fun k hk => hk, fun k hk => .inl hk, by simp, fun _ => rfl⟩
  | k :: ks, h, W, b, rest, hnd, hrel, hstr, hnone, hp => by
    have hk : k ∉ ks := (List.nodup_cons.mp hnd).1
    by_cases hc : (f k && !h.calculate k) = true
    · obtain ⟨hf, hck⟩ : f k = true ∧ h.calculate k = false := by simpa using hc
      have hsk := hnone k hck
      have hrelA := hC.attempt hrel
      by_cases hal : T.alloc (C.count W.mem) = true
      · have ea : allocBlock T C W = (some (C.count W.mem), ⟨C.attempt W.mem, C.count W.mem :: W.blocks⟩) := by rw [allocBlock, if_pos hal]
        obtain ⟨ok, calc', str', W', e, h1, h2, h3, h4, h5, h6, h7, h8⟩ := enableDigests_ok hT hC f ks
          { h with calculate := Function.update h.calculate k true, hashString := Function.update h.hashString k (some (C.count W.mem, T.stringJunk k)) }
          ⟨C.attempt W.mem, C.count W.mem :: W.blocks⟩ b rest (List.nodup_cons.mp hnd).2 hrelA
          (by
            intro j hj
            by_cases hjk : j = k
            · subst hjk
              exact ⟨C.count W.mem, T.stringJunk j, by simp only [Function.update_self], hT.stringJunk j, fun h => h _⟩
            · simp only [Function.update_of_ne hjk] at hj ⊢
              exact hstr j hj)
          (by
            intro j hj
            by_cases hjk : j = k
            · subst hjk
              simp at hj
            · simp only [Function.update_of_ne hjk] at hj ⊢
              exact hnone j hj)
          ((hp.cons _).trans ((strKeys_update h.hashString k _ _ hsk).symm.append_right rest))
        refine ⟨ok, calc', str', W', ?_, h1, h2, h3, h4, fun j hj => ?_, fun j hj => ?_, fun hok j hj hfj => ?_, h8⟩
        · simp only [enableDigests, hc, if_true, ea, e]
        · have hjk : j ≠ k := by rintro rfl; simp [hck] at hj
          exact h5 j (by simpa only [Function.update_of_ne hjk] using hj)
        · rcases h6 j hj with h | h
          · by_cases hjk : j = k
            · subst hjk
              exact .inr hf
            · simp only [Function.update_of_ne hjk] at h
              exact .inl h
          · exact .inr h
        · rcases List.mem_cons.mp hj with rfl | hj
          · exact h5 j (by simp)
          · exact h7 hok j hj hfj
      · have ea : allocBlock T C W = (none, ⟨C.attempt W.mem, W.blocks⟩) := by rw [allocBlock, if_neg hal]
        have eu : Function.update h.hashString k none = h.hashString := by rw [← hsk, Function.update_eq_self]
        refine ⟨false, h.calculate, h.hashString, ⟨C.attempt W.mem, W.blocks⟩, ?_, hrelA, hstr, hnone, hp, fun j hj => hj, fun j hj => .inl hj, by simp, fun hn => absurd (hn _) hal⟩
        simp only [enableDigests, hc, if_true, ea, eu]
    · obtain ⟨ok, calc', str', W', e, h1, h2, h3, h4, h5, h6, h7, h8⟩ := enableDigests_ok hT hC f ks h W b rest (List.nodup_cons.mp hnd).2 hrel hstr hnone hp
      refine ⟨ok, calc', str', W', ?_, h1, h2, h3, h4, h5, h6, fun hok j hj hfj => ?_, h8⟩
      · simp only [enableDigests, hc, e]; rfl
      · rcases List.mem_cons.mp hj with rfl | hj
        · have : h.calculate j = true := by simpa [hfj] using hc
          exact h5 j this
        · exact h7 hok j hj hfj

theorem setDigestTypes_ok (hT : T.Ok) (hC : Law C T Good limit Rel) (mc splitOk splitFreeOk : Bool) (string : List Nat) (blk : List Nat) (h : Handle) (W : WorldOf M) (hI : HandleInv T Rel blk h W) :
    ∃ r calc' str' W', setDigestTypes T C mc splitOk splitFreeOk string h W = .ok (r, { h with calculate := calc', hashString := str' }, W') ∧
      HandleInv T Rel blk { h with calculate := calc', hashString := str' } W' ∧ (r = 0 ∨ r = -1) ∧
      (r = 0 → ∀ k, calc' k = true ↔ h.calculate k = true ∨ k.Named string) ∧
      (splitOk = true → splitFreeOk = true → (∀ n, T.alloc n = true) → r = 0) := by
  cases splitOk with
  | false =>
    exact ⟨-1, h.calculate, h.hashString, W, rfl, hI, .inr rfl, fun h => absurd h (by decide), by simp⟩
  | true =>
    obtain ⟨⟨b, hrel⟩, hstr, hnone, hp⟩ := hI
    obtain ⟨f, ef, hf⟩ := segmentsLoop_ok mc (splitAt 44 string) (fun _ => false)
    have hnamed : ∀ k, f k = true ↔ k.Named string := fun k => by
      rw [hf k]
      simp only [Bool.false_eq_true, false_or, Kind.Named]
      constructor
      · rintro ⟨seg, h1, h2⟩
        exact ⟨seg, h2, (mem_splitAt seg string).mp h1⟩
      · rintro ⟨seg, h1, h2⟩
        exact ⟨seg, (mem_splitAt seg string).mpr h2, h1⟩
    obtain ⟨ok, calc', str', W', e, h1, h2, h3, h4, h5, h6, h7, h8⟩ := enableDigests_ok hT hC f digestOrder h W b (h.self :: (h.input.toList ++ blk)) digestOrder_nodup hrel hstr hnone
      (hp.trans (by
        rw [List.perm_iff_count]
        intro x
        simp [handleBlocks, List.count_cons, List.count_append]
        omega))
    refine ⟨if ok && splitFreeOk then 0 else -1, calc', str', W', ?_, ⟨⟨b, h1⟩, h2, h3, h4.trans ?_⟩, ?_, fun hr k => ⟨fun hk => ?_, fun hk => ?_⟩, fun _ h9 h10 => ?_⟩
    · simp only [setDigestTypes, Bool.not_true, Bool.false_eq_true, if_false, ef, Res.ok_bind, e, Res.pure_eq]
    · rw [List.perm_iff_count]
      intro x
      simp [handleBlocks, List.count_cons, List.count_append]
      omega
    · split <;> simp
    · rw [← hnamed k]
      exact h6 k hk
    · have hok : ok = true := by
        cases ok
        · simp at hr
        · rfl
      rcases hk with hk | hk
      · exact h5 k hk
      · exact h7 hok k (mem_digestOrder k) ((hnamed k).mpr hk)
    · rw [h8 h10, h9]; rfl

variable {E : Environment}

/-- What is known about the result of the main program for a source. -/
structure SourceResult (E : Environment) (o : Options) (source : List Nat) (out : List Line) (x : Exit) : Prop where
  lines : ∃ ds, (x.out = out ++ ds ∨ x.out = out ++ ds ++ [.aborted] ∧ x.status = false ∧ E.arrival.atFinal = true) ∧
    (x.status = true → ds ≠ [] ∧ E.arrival.atFinal = false ∧ x.out = out ++ ds) ∧ (E.arrival.atProcessed = true → ds = []) ∧
    (ds ≠ [] → ∃ inp size, E.files source = some inp ∧ inp.size = some size ∧ size ≤ inp.content.length ∧
      (size < 2 ^ 61 → DigestLines o.digests (inp.content.take size) ds))

theorem SourceResult.empty {o : Options} {source : List Nat} {out : List Line} {x : Exit}
    (h : x.out = out ∨ x.out = out ++ [.aborted] ∧ x.status = false ∧ E.arrival.atFinal = true) (hs : x.status = false) : SourceResult E o source out x :=
  ⟨⟨[], by simpa using h, by simp [hs], fun _ => rfl, by simp⟩⟩

theorem onError_ok (hC : Law C E.tool Good limit Rel) (out : List Line) (blk : List Nat) (slot : Option Handle) (W : WorldOf M) (hI : VarInv E.tool Rel blk slot W) :
    ∃ W', onError E C out slot W = .ok (⟨false, out⟩, W') ∧ NoneInv Rel blk W' := by
  obtain ⟨W', e, h⟩ := sumFree_ok hC E.freeOk blk slot W hI
  exact ⟨W', by simp [onError, e], h⟩

theorem onAbort_ok (hC : Law C E.tool Good limit Rel) (out : List Line) (blk : List Nat) (h : Handle) (W : WorldOf M) (hI : HandleInv E.tool Rel blk h W) :
    ∃ x W', onAbort E C out h W = .ok (x, W') ∧ NoneInv Rel blk W' ∧ (x.out = out ∨ x.out = out ++ [.aborted] ∧ x.status = false ∧ E.arrival.atFinal = true) ∧
      (x.status = true → x.out = out ∧ E.arrival.atFinal = false) ∧ (E.closeOk = true → E.freeOk = true → E.arrival.atFinal = false → x.status = true) := by
  by_cases hc : E.closeOk = true
  · obtain ⟨W1, e1, h1⟩ := sumFree_ok hC E.freeOk blk (some h) W hI
    by_cases hf : E.freeOk = true
    · have e1 : sumFree C E.freeOk (some h) W = .ok (1, none, W1) := by simpa [hf] using e1
      by_cases ha : E.arrival.atFinal = true
      · exact ⟨⟨false, out ++ [.aborted]⟩, W1, by simp [onAbort, closeInput, hc, e1, ha], h1, .inr ⟨rfl, rfl, ha⟩, by simp, by simp [ha]⟩
      · have ha : E.arrival.atFinal = false := by simpa using ha
        exact ⟨⟨true, out⟩, W1, by simp [onAbort, closeInput, hc, e1, ha], h1, .inl rfl, by simp [ha], by simp⟩
    · have hf : E.freeOk = false := by simpa using hf
      have e1 : sumFree C E.freeOk (some h) W = .ok (-1, none, W1) := by simpa [hf] using e1
      obtain ⟨W2, e2, h2⟩ := onError_ok hC out blk none W1 h1
      exact ⟨⟨false, out⟩, W2, by simp [onAbort, closeInput, hc, e1, e2], h2, .inl rfl, by simp, by simp [hf]⟩
  · obtain ⟨W2, e2, h2⟩ := onError_ok hC out blk (some h) W hI
    exact ⟨⟨false, out⟩, W2, by simp [onAbort, closeInput, hc, e2], h2, .inl rfl, by simp, by simp [hc]⟩

theorem processAndPrint_ok (hT : E.tool.Ok) (hC : Law C E.tool Good limit Rel) (o : Options) (source : List Nat) (inp : Input) (hfile : E.files source = some inp) (out : List Line) (blk : List Nat) (h : Handle)
    (W : WorldOf M) (hI : HandleInv E.tool Rel blk h W) (hsel : ∀ k, h.calculate k = true ↔ Selected o.digests k) (hab : h.abort = false) (hpos : h.position = 0) :
    ∃ x W', processAndPrint E C inp out h W = .ok (x, W') ∧ NoneInv Rel blk W' ∧ SourceResult E o source out x ∧
      (∀ size, inp.size = some size → size ≤ inp.content.length → (∀ i, ∃ c, inp.reads i = some c ∧ 0 < c) → (∀ n, E.tool.alloc n = true) → Good → E.arrival = .never → E.closeOk = true →
        E.freeOk = true → 0 < h.bufferSize → h.bufferSize ≤ C.sizeMax → h.bufferSize ≤ limit ∨ size ≤ limit → (∀ k, h.context k = none) → x.status = true) := by
  obtain ⟨r, ctx', str', ab', pos', rc', W1, e1, hI1, habt, hsuc, hprog⟩ := processInput_ok hT hC inp E.arrival.atRead blk h W hI
  by_cases ha : E.arrival.atProcessed = true
  · obtain ⟨x, W2, e3, h3, hout, hst, -⟩ := onAbort_ok hC out blk _ W1 hI1
    have hx : x.status = false := by
      by_contra hx
      have := (hst (by simpa using hx)).2
      rw [Arrival.atFinal_of_processed ha] at this
      cases this
    exact ⟨x, W2, by simp [processAndPrint, e1, ha, e3], h3, .empty hout hx, fun _ _ _ _ _ _ hn => by rw [hn] at ha; cases ha⟩
  have ha : E.arrival.atProcessed = false := by simpa using ha
  by_cases hr : r = 1
  · subst hr
    obtain ⟨size, d, hs, hpre, hd, hk⟩ := hsuc rfl
    have hab' : ab' = false := by
      by_contra hab'
      rcases habt (by simpa using hab') with h1 | ⟨n, h3⟩
      · rw [hab] at h1; cases h1
      · rw [Arrival.atRead_false ha] at h3; cases h3
    have hd : d.length = size := by simpa [hab'] using hd
    rw [hpos, List.drop_zero] at hpre
    have hdt : d = inp.content.take size := hd ▸ (List.prefix_iff_eq_take.mp hpre)
    have ep := printHashes_ok { h with context := ctx', hashString := str', abort := ab', position := pos', readCount := rc' } (fun k hc => by
      obtain ⟨p, o, hp, -⟩ := hk k hc
      exact ⟨p, _, hp, by simp⟩) digestOrder
    have htext : size < 2 ^ 61 → ∀ k, h.calculate k = true →
        Handle.text { h with context := ctx', hashString := str', abort := ab', position := pos', readCount := rc' } k = hex (k.std.digest (inp.content.take size)) := fun hl k hc => by
      obtain ⟨p, o, hp, ho⟩ := hk k hc
      simp only [Handle.text, hp, Option.map_some, Option.getD_some]
      rw [takeWhile_hex, ho (by omega), hdt]
    generalize hds : ((digestOrder.filter h.calculate).map fun k => (k, Handle.text { h with context := ctx', hashString := str', abort := ab', position := pos', readCount := rc' } k)).map
        (fun d => Line.digest d.1 d.2) = ds
    obtain ⟨x, W2, e3, h3, hout, hst, hcomp⟩ := onAbort_ok hC (out ++ ds) blk _ W1 hI1
    have hne : ds ≠ [] := by
      have hm : Kind.md5 ∈ digestOrder.filter h.calculate := List.mem_filter.mpr ⟨by decide, (hsel .md5).mpr (.inl rfl)⟩
      rw [← hds]
      intro e0
      rw [List.map_eq_nil_iff.mp (List.map_eq_nil_iff.mp e0)] at hm
      cases hm
    refine ⟨x, W2, ?_, h3, ⟨⟨ds, hout, fun hx => ⟨hne, (hst hx).2, (hst hx).1⟩, fun hx => absurd (ha.symm.trans hx) (by decide), fun _ => ?_⟩⟩, ?_⟩
    · simp only [processAndPrint, e1, Res.ok_bind, ha, Bool.false_eq_true, if_false, ne_eq, not_true_eq_false]
      rw [ep]
      simp only [Res.ok_bind]
      rw [hds, e3]
    · refine ⟨inp, size, hfile, hs, ?_, fun hl => ⟨h.calculate, hsel, ?_⟩⟩
      · rw [← hd]
        exact hpre.length_le
      · rw [← hds, List.map_map, show digestOrder = printOrder from rfl]
        refine List.map_congr_left fun k hk => ?_
        simp [htext hl k (List.mem_filter.mp hk).2]
    · intro size' hs' hsz hreads hal hg harr hc hf hb hbs hlim hctx
      exact hcomp hc hf (by rw [harr]; rfl)
  · obtain ⟨W2, e3, h3⟩ := onError_ok hC out blk (some _) W1 hI1
    refine ⟨⟨false, out⟩, W2, by simp [processAndPrint, e1, ha, e3, hr], h3, .empty (.inl rfl) rfl, ?_⟩
    intro size' hs' hsz hreads hal hg harr hc hf hb hbs hlim hctx
    exact absurd (hprog size' hs' hb hbs hlim hctx hal hg (by omega) hreads) hr

theorem openAndProcess_ok (hT : E.tool.Ok) (hC : Law C E.tool Good limit Rel) (o : Options) (source : List Nat) (out : List Line) (blk : List Nat) (h : Handle) (W : WorldOf M)
    (hI : HandleInv E.tool Rel blk h W) (hsel : ∀ k, h.calculate k = true ↔ Selected o.digests k) (hab : h.abort = false) (hpos : h.position = 0) :
    ∃ x W', openAndProcess E C source out h W = .ok (x, W') ∧ NoneInv Rel blk W' ∧ SourceResult E o source out x ∧
      (∀ inp size, E.files source = some inp → inp.size = some size → size ≤ inp.content.length → (∀ i, ∃ c, inp.reads i = some c ∧ 0 < c) → (∀ n, E.tool.alloc n = true) → Good →
        E.arrival = .never → E.closeOk = true → E.freeOk = true → 0 < h.bufferSize → h.bufferSize ≤ C.sizeMax → h.bufferSize ≤ limit ∨ size ≤ limit → (∀ k, h.context k = none) → x.status = true) := by
  have eopen : (openInput true h).2 = h := by
    cases h
    simp only at hpos
    subst hpos
    rfl
  have abortCase : E.arrival.atOpen = true → ∃ x W', onAbort E C out h W = .ok (x, W') ∧ NoneInv Rel blk W' ∧ SourceResult E o source out x ∧ E.arrival ≠ .never := fun ha => by
    obtain ⟨x, W2, e3, h3, hout, hst, -⟩ := onAbort_ok hC out blk h W hI
    have hx : x.status = false := by
      by_contra hx
      have := (hst (by simpa using hx)).2
      rw [Arrival.atFinal_of_processed (Arrival.atProcessed_of_open ha)] at this
      cases this
    exact ⟨x, W2, e3, h3, .empty hout hx, fun hn => by rw [hn] at ha; cases ha⟩
  unfold openAndProcess
  cases hf : E.files source with
  | none =>
    by_cases ha : E.arrival.atOpen = true
    · obtain ⟨x, W', e, h1, h2, h3⟩ := abortCase ha
      exact ⟨x, W', by simp only [ha, if_true]; exact e, h1, h2, by simp⟩
    · obtain ⟨W2, e3, h3⟩ := onError_ok hC out blk (some h) W hI
      refine ⟨⟨false, out⟩, W2, by simp only [ha]; exact e3, h3, .empty (.inl rfl) rfl, by simp⟩
  | some inp =>
    simp only [eopen]
    by_cases ha : E.arrival.atOpen = true
    · obtain ⟨x, W', e, h1, h2, h3⟩ := abortCase ha
      exact ⟨x, W', by simp only [ha, if_true]; exact e, h1, h2, fun _ _ _ _ _ _ _ _ hn => absurd hn h3⟩
    · obtain ⟨x, W', e, h1, h2, h3⟩ := processAndPrint_ok hT hC o source inp hf out blk h W hI hsel hab hpos
      refine ⟨x, W', by simp only [ha]; exact e, h1, h2, fun inp' size hi => ?_⟩
      cases hi
      exact h3 size

/-- The buffers made for a run hold at most `limit` bytes. -/
def BufferFits (E : Environment) (C : Contexts M) (o : Options) (limit : Nat) : Prop :=
  ∀ h ok n, h.bufferSize = 32768 → applyBufferSize E C o h = .ok (ok, { h with bufferSize := n }) → n ≤ limit

/-- The buffer size option does not fail. -/
def BufferOptionOk (E : Environment) (C : Contexts M) (o : Options) : Prop :=
  ∀ s, o.bufferSize = some s → ∀ h, ∃ r n, setBufferSize C o.verbose E.dp s h = .ok (r, { h with bufferSize := n }) ∧ (r = 0 ∨ r = 1 ∧ 0 < n)

theorem setBufferSize_ok (C : Contexts M) (verbose : Bool) (dp : Option Nat) (hdp : dp ≠ some 0) (string : List Nat) (h : Handle) :
    ∃ r n, setBufferSize C verbose dp string h = .ok (r, { h with bufferSize := n }) ∧ (r = 1 ∧ n ≤ C.sizeMax ∨ (r = 0 ∨ r = -1) ∧ n = h.bufferSize) := by
  obtain ⟨r, v, e, hr⟩ := byteSizeConvert_safe verbose dp hdp string string.length (some 0)
  rcases hr with ⟨rfl, hv⟩ | ⟨rfl, rfl⟩
  · obtain ⟨x, rfl⟩ := Option.isSome_iff_exists.mp hv
    by_cases hx : C.sizeMax < x.toNat
    · exact ⟨0, h.bufferSize, by unfold setBufferSize; rw [e]; simp [hx], .inr ⟨.inl rfl, rfl⟩⟩
    · have hm : x.toNat % 2 ^ C.bits = x.toNat := Nat.mod_eq_of_lt (by have := C.sizeMax_lt; omega)
      exact ⟨1, x.toNat, by unfold setBufferSize; rw [e]; simp [hx, hm], .inl ⟨rfl, by omega⟩⟩
  · exact ⟨-1, h.bufferSize, by unfold setBufferSize; rw [e]; simp, .inr ⟨.inr rfl, rfl⟩⟩

theorem sizeMax_ge (h : 17 ≤ C.bits) : 32768 ≤ C.sizeMax := by
  have : 2 ^ 16 ≤ 2 ^ (C.bits - 1) := Nat.pow_le_pow_right (by omega) (by omega)
  unfold Contexts.sizeMax hostMax
  omega

theorem applyBufferSize_ok (hw : 17 ≤ C.bits) (hdp : E.dp ≠ some 0) (o : Options) (h : Handle) (hb : h.bufferSize = 32768) :
    ∃ ok n, applyBufferSize E C o h = .ok (ok, { h with bufferSize := n }) ∧ n ≤ C.sizeMax ∧ (BufferOptionOk E C o → ok = true ∧ 0 < n) := by
  have h32 := sizeMax_ge hw
  unfold applyBufferSize
  split
  · exact ⟨true, 32768, by rw [← hb], h32, fun _ => ⟨rfl, by decide⟩⟩
  · rename_i s hs
    obtain ⟨r, n, e, hr⟩ := setBufferSize_ok C o.verbose E.dp hdp s h
    rw [e]
    simp only [Res.ok_bind]
    rcases hr with ⟨rfl, hn⟩ | ⟨rfl | rfl, rfl⟩
    · refine ⟨true, n, by simp [Nat.not_lt.mpr hn], hn, fun H => ⟨rfl, ?_⟩⟩
      obtain ⟨r', n', e', h'⟩ := H s hs h
      rw [e] at e'
      injection e' with e'
      have hn' : n = n' := congrArg (fun x : Int × Handle => x.2.bufferSize) e'
      have hr' : (1 : Int) = r' := congrArg (fun x : Int × Handle => x.1) e'
      subst hr'
      rcases h' with h' | ⟨-, h'⟩
      · exact absurd h' (by decide)
      · omega
    · exact ⟨true, 32768, by simp, h32, fun _ => ⟨rfl, by decide⟩⟩
    · refine ⟨false, h.bufferSize, by simp, by omega, fun H => ?_⟩
      obtain ⟨r', n', e', h'⟩ := H s hs h
      rw [e] at e'
      injection e' with e'
      have hr' : (-1 : Int) = r' := congrArg (fun x : Int × Handle => x.1) e'
      subst hr'
      rcases h' with h' | ⟨h', -⟩ <;> exact absurd h' (by decide)

theorem runSource_ok (hT : E.tool.Ok) (hC : Law C E.tool Good limit Rel) (hdp : E.dp ≠ some 0) (o : Options) (source : List Nat) (out : List Line) (blk : List Nat) (W : WorldOf M) (hW : NoneInv Rel blk W) :
    ∃ x W' extra, runSource E C o source out W = .ok (x, W') ∧ NoneInv Rel (extra ++ blk) W' ∧ extra.length ≤ 1 ∧ (extra ≠ [] → x.status = false ∧ ∃ n, E.tool.alloc n = false) ∧
      SourceResult E o source out x ∧
      (∀ inp size, E.files source = some inp → inp.size = some size → size ≤ inp.content.length → (∀ i, ∃ c, inp.reads i = some c ∧ 0 < c) → (∀ n, E.tool.alloc n = true) → Good →
        E.arrival = .never → E.closeOk = true → E.freeOk = true → E.splitOk = true → E.splitFreeOk = true → BufferOptionOk E C o → BufferFits E C o limit ∨ size ≤ limit → x.status = true) := by
  rcases sumInitialize_ok hT hC blk W hW with ⟨h, W1, e1, hI, hcalc, hctx, hbs, hab, hpos⟩ | ⟨W1, extra, e1, hN, hl, n, hn⟩
  · obtain ⟨ok, m, e2, hm, hbo⟩ := applyBufferSize_ok hC.width.1 hdp o h hbs
    have hI2 : HandleInv E.tool Rel blk { h with bufferSize := m } W1 := hI
    have key : ∃ ok2 h2 W2, applyDigests E C o { h with bufferSize := m } W1 = .ok (ok2, h2, W2) ∧ HandleInv E.tool Rel blk h2 W2 ∧ h2.context = h.context ∧ h2.bufferSize = m ∧ h2.abort = h.abort ∧
        h2.position = h.position ∧ (ok2 = true → ∀ k, h2.calculate k = true ↔ Selected o.digests k) ∧
        (E.splitOk = true → E.splitFreeOk = true → (∀ n, E.tool.alloc n = true) → ok2 = true) := by
      unfold applyDigests
      split
      · rename_i hd
        refine ⟨true, _, W1, rfl, hI2, rfl, rfl, rfl, rfl, fun _ k => ?_, fun _ _ _ => rfl⟩
        rw [Selected, hd]
        simp [hcalc]
      · rename_i s hd
        obtain ⟨r, calc', str', W2, e3, h3, hr, h4, h5⟩ := setDigestTypes_ok hT hC E.mc E.splitOk E.splitFreeOk s blk _ W1 hI2
        rw [e3]
        refine ⟨decide (r ≠ -1), _, W2, rfl, h3, rfl, rfl, rfl, rfl, fun hok k => ?_, fun a b c => ?_⟩
        · have hr0 : r = 0 := by
            rcases hr with rfl | rfl
            · rfl
            · simp at hok
          simp only [h4 hr0 k, hcalc, Selected, hd]
          simp
        · simp [h5 a b c]
    obtain ⟨ok2, h2, W2, e3, hI3, hctx2, hbs2, hab2, hpos2, hsel, hgood⟩ := key
    cases ok with
    | false =>
      obtain ⟨W3, e4, h4⟩ := onError_ok hC out blk (some _) W1 hI2
      refine ⟨⟨false, out⟩, W3, [], by simp [runSource, e1, e2, e4], h4, by simp, by simp, .empty (.inl rfl) rfl, ?_⟩
      intro _ _ _ _ _ _ _ _ _ _ _ _ _ H
      exact absurd (hbo H).1 (by decide)
    | true =>
      cases ok2 with
      | false =>
        obtain ⟨W3, e4, h4⟩ := onError_ok hC out blk (some _) W2 hI3
        refine ⟨⟨false, out⟩, W3, [], by simp [runSource, e1, e2, e3, e4], h4, by simp, by simp, .empty (.inl rfl) rfl, ?_⟩
        intro _ _ _ _ _ _ hal _ _ _ _ a b _
        exact absurd (hgood a b hal) (by decide)
      | true =>
        obtain ⟨x, W3, e4, h4, h5, h6⟩ := openAndProcess_ok hT hC o source out blk h2 W2 hI3 (hsel rfl) (hab2.trans hab) (hpos2.trans hpos)
        refine ⟨x, W3, [], by simp [runSource, e1, e2, e3, e4], h4, by simp, by simp, h5, ?_⟩
        intro inp size hf hs hsz hr hal hg harr hc hfr _ _ H hlim
        exact h6 inp size hf hs hsz hr hal hg harr hc hfr (by rw [hbs2]; exact (hbo H).2) (by rw [hbs2]; exact hm)
          (hlim.imp (fun hfit => by rw [hbs2]; exact hfit h true m hbs e2) id) (fun k => by rw [hctx2]; exact hctx k)
  · obtain ⟨W2, e2, h2⟩ := onError_ok hC out (extra ++ blk) none W1 hN
    refine ⟨⟨false, out⟩, W2, extra, by simp [runSource, e1, e2], h2, hl, fun _ => ⟨rfl, n, hn⟩, .empty (.inl rfl) rfl, ?_⟩
    intro _ _ _ _ _ _ hal
    rw [hal n] at hn
    cases hn

end Model.Builds
