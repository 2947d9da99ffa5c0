import Verif.Model.HandleBuilds
import Verif.Proofs.AllocsBuilds
import Verif.Proofs.HandleCalls
/-! What the functions of a sum handle return and change, in every build. -/

namespace Model

open Spec (ApiCall Reply Kind Settings HandleCall)

/-- The free functions return 1. -/
def Contexts.Freed {M : Type} (C : Contexts M) : Prop := ∀ k n slot m, Always (C.call k .free n slot m) fun v => v.1.code = 1

theorem builtin_freed (T : Tool) : (Contexts.builtin T).Freed := by
  intro k n slot m
  refine Always.bind (P := fun v => v.1.code = 1) ?_ fun v e => Always.pure' e
  unfold step apiFree
  dsimp only
  refine Always.bind (P := fun v => v.1 = 1) (Always.bind (hFree_allocs _ _) fun v e => Always.pure' e.1) fun v e => ?_
  obtain ⟨r, c, s⟩ := v
  cases c with
  | none => exact Always.ub'
  | some c => exact Always.pure' e

theorem host_freed (hb : Nat) (T : Tool) : (Contexts.host hb T).Freed := by
  intro k n slot m
  refine Always.bind (P := fun v => v.1.code = 1) ?_ fun v e => Always.pure' e
  unfold hostStep apiFree
  dsimp only
  refine Always.bind (P := fun v => v.1 = 1) (Always.bind (hFree_allocs _ _) fun v e => Always.pure' e.1) fun v e => ?_
  obtain ⟨r, c, s⟩ := v
  cases c with
  | none => exact Always.ub'
  | some c => exact Always.pure' e

theorem mixed_freed (ch : Kind → Choice) (L : Kind → Library) (T : Tool) : (Contexts.mixed ch L T).Freed := by
  intro k n slot m
  dsimp only [Contexts.mixed]
  cases ch k with
  | builtin => exact Always.bind (builtin_freed T k n slot m.mem) fun _ h => Always.pure' h
  | crypto b => exact Always.bind (P := fun v => v.1.code = 1) (Always.bind (bFree_allocs b (L k) slot _) fun _ h => Always.pure' h.1) fun _ h => Always.pure' h

theorem mixedHost_freed (hb : Nat) (ch : Kind → Choice) (L : Kind → Library) (T : Tool) : (Contexts.mixedHost hb ch L T).Freed := by
  intro k n slot m
  dsimp only [Contexts.mixedHost]
  cases ch k with
  | builtin => exact Always.bind (host_freed hb T k n slot m.mem) fun _ h => Always.pure' h
  | crypto b => exact Always.bind (P := fun v => v.1.code = 1) (Always.bind (bFree_allocs b (L k) slot _) fun _ h => Always.pure' h.1) fun _ h => Always.pure' h

namespace Builds

variable {M : Type} {C : Contexts M} {T : Tool}

theorem ctxCall_settings (k : Kind) (c : ApiCall) (n : Nat) (h : Handle) (W : WorldOf M) : Always (ctxCall C k c n h W) fun v => settings v.2.1 = settings h :=
  Always.skip fun _ => Always.pure' rfl

theorem ctxCall_free (hC : C.Freed) (k : Kind) (n : Nat) (h : Handle) (W : WorldOf M) : Always (ctxCall C k .free n h W) fun v => v.1.code = 1 :=
  Always.bind (hC k n _ _) fun _ e => Always.pure' e

theorem initHashes_settings : ∀ (ks : List Kind) (h : Handle) (W : WorldOf M), Always (initHashes C ks h W) fun v => settings v.2.1 = settings h
  | [], _, _ => Always.ok rfl
  | k :: ks, h, W => by
    unfold initHashes
    refine Always.ite (fun _ => Always.bind (ctxCall_settings k _ _ h W) fun v e => ?_) fun _ => initHashes_settings ks h W
    exact Always.ite (fun _ => Always.pure' e) fun _ => (initHashes_settings ks v.2.1 v.2.2).mono fun _ e' => e'.trans e

theorem freeHash_settings (k : Kind) (h : Handle) (W : WorldOf M) : Always (freeHash C k h W) fun v => settings v.1 = settings h := by
  unfold freeHash
  cases h.context k with
  | none => exact Always.ok rfl
  | some _ => exact Always.bind (ctxCall_settings k _ _ h W) fun v e => Always.pure' e

theorem initIntegrity_settings (h : Handle) (W : WorldOf M) : Always (initIntegrity C h W) fun v => settings v.2.1 = settings h := by
  refine Always.bind (initHashes_settings _ h W) fun v e => Always.ite (fun _ => Always.pure' e) fun _ => ?_
  exact Always.bind (freeHash_settings _ v.2.1 v.2.2) fun a ea => Always.bind (freeHash_settings _ a.1 a.2) fun b eb => Always.pure' (eb.trans (ea.trans e))

theorem updateHashes_settings (b : List Byte) (size : Nat) : ∀ (ks : List Kind) (h : Handle) (W : WorldOf M), Always (updateHashes C b size ks h W) fun v => settings v.2.1 = settings h
  | [], _, _ => Always.ok rfl
  | k :: ks, h, W => by
    unfold updateHashes
    refine Always.ite (fun _ => Always.bind (ctxCall_settings k _ _ h W) fun v e => ?_) fun _ => updateHashes_settings b size ks h W
    exact Always.ite (fun _ => Always.pure' e) fun _ => (updateHashes_settings b size ks v.2.1 v.2.2).mono fun _ e' => e'.trans e

theorem updateIntegrity_settings (b : List Byte) (size : Nat) (h : Handle) (W : WorldOf M) : Always (updateIntegrity C b size h W) fun v => settings v.2.1 = settings h :=
  Always.ite (fun _ => Always.ok rfl) fun _ => updateHashes_settings b size _ h W

theorem finalizeHashes_settings : ∀ (ks : List Kind) (h : Handle) (W : WorldOf M), Always (finalizeHashes T C ks h W) fun v => settings v.2.1 = settings h
  | [], _, _ => Always.ok rfl
  | k :: ks, h, W => by
    unfold finalizeHashes
    refine Always.ite (fun _ => ?_) fun _ => finalizeHashes_settings ks h W
    cases h.hashString k with
    | none => exact Always.ok rfl
    | some q =>
      refine Always.bind (ctxCall_settings k _ _ h W) fun v e => Always.ite (fun _ => Always.pure' e) fun _ => Always.skip fun a => ?_
      exact Always.ite (fun _ => Always.pure' e) fun _ => (finalizeHashes_settings ks _ v.2.2).mono fun _ e' => e'.trans e

theorem readInput_settings (inp : Input) (size : Nat) (h : Handle) :
    (readInput C inp size h).2.calculate = h.calculate ∧ (readInput C inp size h).2.bufferSize = h.bufferSize ∧ (readInput C inp size h).2.abort = h.abort ∧
      h.readCount ≤ (readInput C inp size h).2.readCount ∧ (readInput C inp size h).2.readCount ≤ h.readCount + 1 := by
  unfold readInput
  split
  · exact ⟨rfl, rfl, rfl, Nat.le_refl _, Nat.le_succ _⟩
  · split <;> exact ⟨rfl, rfl, rfl, Nat.le_succ _, Nat.le_refl _⟩

theorem processLoop_settings (inp : Input) (stop : Nat → Bool) (ms : Nat) : ∀ (fuel pc : Nat) (b : List Byte) (h : Handle) (W : WorldOf M),
    Always (processLoop C inp stop ms fuel pc b h W) fun v => Processed stop (settings h) (settings v.2.1)
  | fuel, pc, b, h, W => by
    unfold processLoop
    refine Always.ite (fun _ => ?_) fun _ => Always.ok (Processed.refl _ _)
    cases fuel with
    | zero => exact Always.diverge'
    | succ fuel =>
      dsimp only
      obtain ⟨r1, r2, r3, r4, r5⟩ := readInput_settings (C := C) inp (if ms - pc < h.bufferSize then (ms - pc) % 2 ^ C.bits else h.bufferSize) h
      generalize readInput C inp (if ms - pc < h.bufferSize then (ms - pc) % 2 ^ C.bits else h.bufferSize) h = q at r1 r2 r3 r4 r5 ⊢
      obtain ⟨d, g⟩ := q
      dsimp only at r1 r2 r3 r4 r5
      have hg : Processed stop (settings h) (settings g) := ⟨r1, r2, r4, fun e => ⟨r3.trans e, r5⟩, fun e => .inl (r3.symm.trans e)⟩
      cases d with
      | none => exact Always.pure' hg
      | some d =>
        refine Always.skip fun buf => Always.ite (fun _ => Always.pure' hg) fun _ => Always.bind (updateIntegrity_settings buf d.length g W) fun v e => ?_
        obtain ⟨r, f, V⟩ := v
        dsimp only at e
        have e1 : f.calculate = g.calculate := congrArg Settings.digests e
        have e2 : f.bufferSize = g.bufferSize := congrArg Settings.bufferSize e
        have e3 : f.abort = g.abort := congrArg Settings.stopping e
        have e4 : f.readCount = g.readCount := congrArg Settings.reads e
        refine Always.ite (fun _ => Always.pure' (e ▸ hg)) fun _ => ?_
        dsimp only
        refine Always.ite (fun ha => Always.pure' ⟨e1.trans r1, e2.trans r2, by show h.readCount ≤ f.readCount; omega, fun hs => ⟨ha, by show f.readCount ≤ h.readCount + 1; omega⟩, fun hs => ?_⟩) fun ha => ?_
        · change (f.abort || stop f.readCount) = true at hs
          rw [Bool.or_eq_true, e3, r3] at hs
          exact hs.imp id fun hs => ⟨f.readCount, Nat.le_refl _, hs⟩
        · refine (processLoop_settings inp stop ms fuel _ buf { f with abort := f.abort || stop f.readCount } V).mono fun w hw => ?_
          obtain ⟨w1, w2, w3, w4, w5⟩ := hw
          have na : (f.abort || stop f.readCount) = false := by simpa using ha
          have nh : h.abort = false := by
            rw [Bool.or_eq_false_iff, e3, r3] at na
            exact na.1
          refine ⟨w1.trans (e1.trans r1), w2.trans (e2.trans r2), ?_, fun hs => absurd (nh.symm.trans hs) (by decide), fun hs => ?_⟩
          · exact Nat.le_trans (by show h.readCount ≤ f.readCount; omega) w3
          · refine (w5 hs).elim (fun hs => ?_) .inr
            exact absurd (na.symm.trans hs) (by decide)

theorem processInput_settings (inp : Input) (stop : Nat → Bool) (h : Handle) (W : WorldOf M) :
    Always (processInput T C inp stop h W) fun v => (v.1 = 1 ∨ v.1 = -1) ∧ Processed stop (settings h) (settings v.2.1) := by
  have same : ∀ W : WorldOf M, Always (.ok ((-1 : Int), h, W)) fun v : Int × Handle × WorldOf M => (v.1 = 1 ∨ v.1 = -1) ∧ Processed stop (settings h) (settings v.2.1) := fun _ => Always.ok ⟨.inr rfl, Processed.refl _ _⟩
  unfold processInput
  refine Always.ite (fun _ => same W) fun _ => ?_
  cases inp.size with
  | none => exact same W
  | some ms =>
    dsimp only
    generalize allocBlock T C W = q
    obtain ⟨p, W⟩ := q
    cases p with
    | none => exact same W
    | some p =>
      refine Always.bind (initIntegrity_settings h W) fun v e => ?_
      obtain ⟨r, g, V⟩ := v
      dsimp only at e
      rw [← e]
      refine Always.ite (fun _ => Always.skip fun _ => Always.pure' ⟨.inr rfl, Processed.refl _ _⟩) fun _ => Always.bind (processLoop_settings inp stop ms ms 0 _ g V) fun v e => ?_
      refine Always.ite (fun _ => Always.skip fun _ => Always.pure' ⟨.inr rfl, e⟩) fun _ => Always.skip fun U => Always.bind (finalizeHashes_settings _ v.2.1 U) fun a ea => ?_
      rw [← ea] at e
      exact Always.ite (fun _ => Always.pure' ⟨.inr rfl, e⟩) fun _ => Always.pure' ⟨.inl rfl, e⟩

theorem sumInitialize_settings (W : WorldOf M) : Always (sumInitialize T C none W) fun v => v.1 = 1 ∧ v.2.1.map settings = some .initial ∨ v.1 = -1 ∧ v.2.1.map settings = none := by
  unfold sumInitialize
  dsimp only
  generalize allocBlock T C W = q
  obtain ⟨p, W⟩ := q
  cases p with
  | none => exact Always.ok (.inr ⟨rfl, rfl⟩)
  | some p =>
    dsimp only
    generalize allocBlock T C W = q
    obtain ⟨p', W⟩ := q
    cases p' with
    | none => exact Always.skip fun _ => Always.pure' (.inr ⟨rfl, rfl⟩)
    | some p' =>
      dsimp only
      generalize allocBlock T C W = q
      obtain ⟨s, W⟩ := q
      cases s with
      | none => exact Always.skip fun _ => Always.pure' (.inr ⟨rfl, rfl⟩)
      | some s => exact Always.ok (.inl ⟨rfl, rfl⟩)

theorem freeHashes_result (hC : C.Freed) : ∀ (ks : List Kind) (r : Int) (h : Handle) (W : WorldOf M), Always (freeHashes C ks r h W) fun v => v.1 = r
  | [], _, _, _ => Always.ok rfl
  | k :: ks, r, h, W => by
    unfold freeHashes
    refine Always.bind (P := fun v => v.1 = r) ?_ fun v e => Always.skip fun V => (freeHashes_result hC ks v.1 v.2.1 V).mono fun _ e' => e'.trans e
    unfold freeContext
    cases h.context k with
    | none => exact Always.ok rfl
    | some _ => exact Always.bind (ctxCall_free hC k _ h W) fun v e => Always.pure' (if_neg fun ne => ne e)

theorem enableDigests_settings (f : Kind → Bool) : ∀ (ks : List Kind) (h : Handle) (W : WorldOf M),
    ∃ g, settings (enableDigests T C f ks h W).2.1 = { settings h with digests := g } ∧ (∀ k, h.calculate k = true → g k = true) ∧ (∀ k, g k = true → h.calculate k = true ∨ f k = true) ∧
      ((enableDigests T C f ks h W).1 = true → ∀ k ∈ ks, f k = true → g k = true)
  | [], h, _ => ⟨h.calculate, rfl, fun _ e => e, fun _ e => .inl e, fun _ _ hk => by simp at hk⟩
  | k :: ks, h, W => by
    unfold enableDigests
    split
    · rename_i hc
      have hfk : f k = true := by
        simp only [Bool.and_eq_true] at hc
        exact hc.1
      generalize allocBlock T C W = q
      obtain ⟨p, V⟩ := q
      cases p with
      | none => exact ⟨h.calculate, rfl, fun _ e => e, fun _ e => .inl e, fun h => by cases h⟩
      | some p =>
        obtain ⟨g, e, hg, hg2, hg3⟩ := enableDigests_settings f ks { h with calculate := Function.update h.calculate k true, hashString := Function.update h.hashString k (some (p, T.stringJunk k)) } V
        refine ⟨g, e, fun j hj => hg j ?_, fun j hj => ?_, fun hok j hj hfj => ?_⟩
        · by_cases hk : j = k
          · subst hk; exact Function.update_self ..
          · exact (Function.update_of_ne hk ..).trans hj
        · rcases hg2 j hj with h1 | h1
          · by_cases hk : j = k
            · subst hk; exact .inr hfk
            · exact .inl ((Function.update_of_ne hk ..).symm.trans h1)
          · exact .inr h1
        · rcases List.mem_cons.mp hj with rfl | hj
          · exact hg j (Function.update_self ..)
          · exact hg3 hok j hj hfj
    · rename_i hc
      obtain ⟨g, e, hg, hg2, hg3⟩ := enableDigests_settings f ks h W
      refine ⟨g, e, hg, hg2, fun hok j hj hfj => ?_⟩
      rcases List.mem_cons.mp hj with rfl | hj
      · exact hg j (by simpa [hfj] using hc)
      · exact hg3 hok j hj hfj

theorem setBufferSize_settings (verbose : Bool) (dp : Option Nat) (s : List Nat) (h : Handle) :
    Always (setBufferSize C verbose dp s h) fun v => (v.1 = 1 ∨ v.1 = 0 ∨ v.1 = -1) ∧ (v.1 ≠ 1 → settings v.2 = settings h) ∧
      (v.1 = 1 → ∃ n ≤ Settings.limit C.bits, settings v.2 = { settings h with bufferSize := n }) := by
  unfold setBufferSize
  refine Always.bind (byteSizeConvert_result verbose dp _ _) fun v e => ?_
  obtain ⟨r, v⟩ := v
  dsimp only at e
  refine Always.ite (fun _ => Always.pure' ⟨.inr (.inr rfl), fun _ => rfl, fun e => absurd e (by simp)⟩) fun h1 => ?_
  have hr : r = 1 := e.resolve_right h1
  subst hr
  refine Always.ite (fun _ => ?_) fun h0 => absurd (by decide : (1 : Int) ≠ 0) h0
  cases v with
  | none => exact Always.ub'
  | some v =>
    refine Always.ite (fun _ => Always.pure' ⟨.inr (.inl rfl), fun _ => rfl, fun e => absurd e (by simp)⟩) fun hv => Always.pure' ⟨.inl rfl, fun e => absurd rfl e, fun _ => ⟨v.toNat % 2 ^ C.bits, ?_, rfl⟩⟩
    exact (Nat.mod_le _ _).trans (Nat.not_lt.mp hv)

theorem handleStep_settings (hC : C.Freed) (op : HandleOp) (slot : Option Handle) (W : WorldOf M) : Always (handleStep T C op slot W) fun v => HandleCall C.bits op (slot.map settings) v.1 (v.2.1.map settings) := by
  cases slot with
  | none =>
    cases op with
    | init => exact sumInitialize_settings W
    | free c => exact Always.ok ⟨rfl, rfl⟩
    | _ => exact Always.ok ⟨rfl, rfl⟩
  | some h =>
    cases op with
    | init => exact Always.ok ⟨rfl, rfl⟩
    | free c =>
      refine Always.bind (freeHashes_result hC _ 1 h W) fun v e => Always.skip fun V => ?_
      dsimp only
      refine Always.skip fun U => Always.pure' ⟨?_, rfl⟩
      show (if c = true then v.1 else -1) = _
      rw [e]
    | abort => exact Always.ok ⟨rfl, rfl⟩
    | «open» ok => cases ok <;> exact Always.ok ⟨rfl, rfl⟩
    | close ok => cases ok <;> exact Always.ok ⟨rfl, rfl⟩
    | process inp stop => exact Always.bind (processInput_settings inp stop h W) fun v e => Always.pure' ⟨e.1, settings v.2.1, rfl, e.2⟩
    | digests mc a b s =>
      refine Always.bind (P := fun v => (v.1 = 0 ∨ v.1 = -1) ∧ (v.1 = 0 → a = true ∧ b = true) ∧ ∃ g, settings v.2.1 = { settings h with digests := g } ∧ (∀ k, h.calculate k = true → g k = true) ∧
        (∀ k, g k = true → h.calculate k = true ∨ k.Named s) ∧ (v.1 = 0 → ∀ k : Kind, k.Named s → g k = true)) ?_ fun v e => Always.pure' ?_
      · unfold setDigestTypes
        refine Always.ite (fun _ => Always.ok ⟨.inr rfl, fun h => absurd h (by simp), h.calculate, rfl, fun _ e => e, fun _ e => .inl e, fun h => absurd h (by simp)⟩) fun ha => ?_
        obtain ⟨f, ef, hf⟩ := segmentsLoop_named mc s
        rw [ef, Res.ok_bind]
        obtain ⟨g, e, hg, hg2, hg3⟩ := enableDigests_settings (T := T) (C := C) f digestOrder h W
        generalize enableDigests T C f digestOrder h W = q at e hg3
        obtain ⟨ok, h', V⟩ := q
        have all : ∀ k, k ∈ digestOrder := fun k => by cases k <;> decide
        refine Always.pure' ⟨?_, fun hr => ?_, g, e, hg, fun k hk => (hg2 k hk).imp id (hf k).mp, fun hr k hk => hg3 ?_ k (all k) ((hf k).mpr hk)⟩
        · dsimp only
          split
          · exact .inl rfl
          · exact .inr rfl
        · revert hr
          cases a <;> cases b <;> cases ok <;> simp_all
        · revert hr
          cases b <;> cases ok <;> simp
      · obtain ⟨h1, h0, g, h2, h3⟩ := e
        exact ⟨h1, h0, g, congrArg some h2, h3⟩
    | bufferSize verbose dp s =>
      refine Always.bind (setBufferSize_settings verbose dp s h) fun v e => Always.pure' ⟨e.1, fun hr => congrArg some (e.2.1 hr), fun hr => ?_⟩
      obtain ⟨n, hn, h2⟩ := e.2.2 hr
      exact ⟨n, hn, congrArg some h2⟩
    | print => exact Always.skip fun _ => Always.pure' ⟨rfl, rfl⟩

end Builds

end Model
