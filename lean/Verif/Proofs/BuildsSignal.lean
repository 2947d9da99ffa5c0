import Verif.Model.BuildsSignal
import Verif.Proofs.Signal
import Verif.Proofs.BuildsMessages
/-! The main program with signals at any moment, over any implementation of the contexts. -/

namespace Model.Builds

open Spec (Kind Line Message)

variable {M : Type}

/-! ### The abort flag of the handle matters only for its tests -/

theorem freeHashes_withAbort (C : Contexts M) (b : Bool) : ∀ (ks : List Kind) (r : Int) (h : Handle) (W : WorldOf M),
    freeHashes C ks r (h.withAbort b) W = (freeHashes C ks r h W >>= fun y => pure (y.1, y.2.1.withAbort b, y.2.2))
  | [], r, h, W => rfl
  | k :: ks, r, h, W => by
    have hc : freeContext C k r (h.withAbort b) W = (freeContext C k r h W >>= fun y => pure (y.1, y.2.1.withAbort b, y.2.2)) := by
      unfold freeContext
      simp only [Handle.withAbort]
      cases h.context k with
      | none => rfl
      | some p =>
        simp only [ctxCall, Res.bind_assoc]
        refine Res.bind_same fun a => ?_
        rfl
    simp only [freeHashes, hc, Res.bind_assoc]
    refine Res.bind_same fun a => ?_
    simp only [Res.pure_eq, Res.ok_bind]
    refine Res.bind_same fun W' => ?_
    exact freeHashes_withAbort C b ks _ _ _

theorem sumFree_withAbort (C : Contexts M) (c b : Bool) (h : Handle) (W : WorldOf M) : sumFree C c (some (h.withAbort b)) W = sumFree C c (some h) W := by
  unfold sumFree
  simp only [freeHashes_withAbort, Res.bind_assoc]
  refine Res.bind_same fun a => ?_
  rfl

/-! ### The reads -/

theorem ctxCall_readCount {C : Contexts M} {k : Kind} {c : Spec.ApiCall} {n : Nat} {h h' : Handle} {W W' : WorldOf M} {r : Spec.Reply} (e : ctxCall C k c n h W = .ok (r, h', W')) : h'.readCount = h.readCount := by
  obtain ⟨a, -, e⟩ := Res.bind_eq_ok e
  cases e
  rfl

theorem initHashes_readCount {C : Contexts M} : ∀ {ks : List Kind} {h h' : Handle} {W W' : WorldOf M} {ok : Bool}, initHashes C ks h W = .ok (ok, h', W') → h'.readCount = h.readCount
  | [], h, h', W, W', ok, e => by cases e; rfl
  | k :: ks, h, h', W, W', ok, e => by
    unfold initHashes at e
    split at e
    · obtain ⟨⟨r, h1, W1⟩, e1, e⟩ := Res.bind_eq_ok e
      have := ctxCall_readCount e1
      dsimp only at e
      split at e
      · cases e; exact this
      · exact (initHashes_readCount e).trans this
    · exact initHashes_readCount e

theorem freeHash_readCount {C : Contexts M} {k : Kind} {h h' : Handle} {W W' : WorldOf M} (e : freeHash C k h W = .ok (h', W')) : h'.readCount = h.readCount := by
  unfold freeHash at e
  split at e
  · cases e; rfl
  · obtain ⟨⟨r, h1, W1⟩, e1, e⟩ := Res.bind_eq_ok e
    cases e
    exact ctxCall_readCount e1

theorem updateHashes_readCount {C : Contexts M} {buffer : List Byte} {size : Nat} : ∀ {ks : List Kind} {h h' : Handle} {W W' : WorldOf M} {r : Int}, updateHashes C buffer size ks h W = .ok (r, h', W') →
    h'.readCount = h.readCount
  | [], h, h', W, W', ok, e => by cases e; rfl
  | k :: ks, h, h', W, W', ok, e => by
    unfold updateHashes at e
    split at e
    · obtain ⟨⟨r, h1, W1⟩, e1, e⟩ := Res.bind_eq_ok e
      have := ctxCall_readCount e1
      dsimp only at e
      split at e
      · cases e; exact this
      · exact (updateHashes_readCount e).trans this
    · exact updateHashes_readCount e

theorem finalizeHashes_readCount {T : Tool} {C : Contexts M} : ∀ {ks : List Kind} {h h' : Handle} {W W' : WorldOf M} {r : Int}, finalizeHashes T C ks h W = .ok (r, h', W') → h'.readCount = h.readCount
  | [], h, h', W, W', ok, e => by cases e; rfl
  | k :: ks, h, h', W, W', ok, e => by
    unfold finalizeHashes at e
    split at e
    · split at e
      · cases e; rfl
      · obtain ⟨⟨r, h1, W1⟩, e1, e⟩ := Res.bind_eq_ok e
        have := ctxCall_readCount e1
        dsimp only at e
        split at e
        · cases e; exact this
        · obtain ⟨⟨c, s⟩, -, e⟩ := Res.bind_eq_ok e
          dsimp only at e
          split at e
          · cases e; exact this
          · exact (finalizeHashes_readCount e).trans this
    · exact finalizeHashes_readCount e

/-- Only the tests that are made matter. -/
theorem processLoop_congr {C : Contexts M} {inp : Input} {f g : Nat → Bool} {m : Nat} : ∀ {fuel c : Nat} {buffer : List Byte} {h h' : Handle} {W W' : WorldOf M} {ok : Bool},
    processLoop C inp f m fuel c buffer h W = .ok (ok, h', W') → (∀ n, n ≤ h'.readCount → f n = g n) → h.readCount ≤ h'.readCount ∧ processLoop C inp g m fuel c buffer h W = .ok (ok, h', W') := by
  intro fuel
  induction fuel with
  | zero =>
    intro c buffer h h' W W' ok e hfg
    unfold processLoop at e ⊢
    split at e
    · cases e
    · rename_i hc
      rw [if_neg hc]
      cases e
      exact ⟨le_refl _, rfl⟩
  | succ fuel ih =>
    intro c buffer h h' W W' ok e hfg
    unfold processLoop at e ⊢
    split at e
    · rename_i hc
      rw [if_pos hc]
      dsimp only at e ⊢
      have hrd : ∀ sz, (readInput C inp sz h).2.readCount = h.readCount ∨ (readInput C inp sz h).2.readCount = h.readCount + 1 := fun sz => by
        unfold readInput
        split
        · exact .inl rfl
        · split <;> exact .inr rfl
      generalize (if m - c < h.bufferSize then (m - c) % 2 ^ C.bits else h.bufferSize) = sz at e ⊢
      have hrd := hrd sz
      generalize readInput C inp sz h = rd at e hrd ⊢
      rcases rd with ⟨_ | d, h1⟩
      · cases e
        dsimp only at hrd
        exact ⟨by omega, rfl⟩
      · dsimp only at e hrd ⊢
        obtain ⟨buf, e0, e⟩ := Res.bind_eq_ok e
        rw [e0, Res.ok_bind]
        split at e
        · rename_i hd
          rw [if_pos hd]
          cases e
          exact ⟨by omega, rfl⟩
        · rename_i hd
          rw [if_neg hd]
          obtain ⟨⟨r, h2, W2⟩, e1, e⟩ := Res.bind_eq_ok e
          rw [e1, Res.ok_bind]
          have h2c : h2.readCount = h1.readCount := by
            unfold updateIntegrity at e1
            split at e1
            · cases e1; rfl
            · exact updateHashes_readCount e1
          dsimp only at e ⊢
          split at e
          · rename_i hr
            rw [if_pos hr]
            cases e
            exact ⟨by omega, rfl⟩
          · rename_i hr
            rw [if_neg hr]
            split at e
            · rename_i ha
              cases e
              have : f h2.readCount = g h2.readCount := hfg _ (le_refl _)
              rw [← this, if_pos ha]
              exact ⟨by show h.readCount ≤ h2.readCount; omega, rfl⟩
            · rename_i ha
              obtain ⟨h3, h4⟩ := ih e hfg
              have h3 : h2.readCount ≤ h'.readCount := h3
              have : f h2.readCount = g h2.readCount := hfg _ h3
              rw [this] at h4 ha
              rw [if_neg ha]
              exact ⟨by omega, h4⟩
    · rename_i hc
      rw [if_neg hc]
      cases e
      exact ⟨le_refl _, rfl⟩

theorem processInput_congr {T : Tool} {C : Contexts M} {inp : Input} {f g : Nat → Bool} {h h' : Handle} {W W' : WorldOf M} {r : Int} (e : processInput T C inp f h W = .ok (r, h', W'))
    (hfg : ∀ n, n ≤ h'.readCount → f n = g n) : processInput T C inp g h W = .ok (r, h', W') := by
  unfold processInput at e ⊢
  split at e
  · rename_i hb
    rw [if_pos hb]; exact e
  rename_i hb
  rw [if_neg hb]
  cases hs : inp.size with
  | none => rw [hs] at e; exact e
  | some size =>
    rw [hs] at e
    dsimp only at e ⊢
    generalize allocBlock T C W = al at e ⊢
    rcases al with ⟨_ | q, W1⟩
    · exact e
    · dsimp only at e ⊢
      obtain ⟨⟨r1, h1, W2⟩, e1, e⟩ := Res.bind_eq_ok e
      rw [e1, Res.ok_bind]
      dsimp only at e ⊢
      split at e
      · rename_i hr
        rw [if_pos hr]; exact e
      · rename_i hr
        rw [if_neg hr]
        obtain ⟨⟨ok, h2, W3⟩, e2, e⟩ := Res.bind_eq_ok e
        have hc : h'.readCount = h2.readCount := by
          dsimp only at e
          split at e
          · obtain ⟨W4, -, e⟩ := Res.bind_eq_ok e
            cases e
            rfl
          · obtain ⟨W4, -, e⟩ := Res.bind_eq_ok e
            obtain ⟨⟨r5, h5, W5⟩, e5, e⟩ := Res.bind_eq_ok e
            have := finalizeHashes_readCount e5
            dsimp only at e
            split at e <;> cases e <;> exact this
        obtain ⟨-, e3⟩ := processLoop_congr e2 (fun n hn => hfg n (by omega))
        rw [e3, Res.ok_bind]
        exact e

/-- The loop ends at the first test of a flag that is set. -/
theorem processLoop_prompt {C : Contexts M} {inp : Input} {f : Nat → Bool} {m n : Nat} (hf : ∀ j, n ≤ j → f j = true) : ∀ {fuel c : Nat} {buffer : List Byte} {h h' : Handle} {W W' : WorldOf M} {ok : Bool},
    processLoop C inp f m fuel c buffer h W = .ok (ok, h', W') → h'.readCount ≤ max n (h.readCount + 1) := by
  intro fuel
  induction fuel with
  | zero =>
    intro c buffer h h' W W' ok e
    unfold processLoop at e
    split at e
    · cases e
    · cases e
      omega
  | succ fuel ih =>
    intro c buffer h h' W W' ok e
    unfold processLoop at e
    split at e
    · dsimp only at e
      have hrd : ∀ sz, (readInput C inp sz h).2.readCount = h.readCount ∨ (readInput C inp sz h).2.readCount = h.readCount + 1 := fun sz => by
        unfold readInput
        split
        · exact .inl rfl
        · split <;> exact .inr rfl
      generalize (if m - c < h.bufferSize then (m - c) % 2 ^ C.bits else h.bufferSize) = sz at e
      have hrd := hrd sz
      generalize readInput C inp sz h = rd at e hrd
      rcases rd with ⟨_ | d, h1⟩
      · cases e
        dsimp only at hrd
        omega
      · dsimp only at e hrd
        obtain ⟨buf, -, e⟩ := Res.bind_eq_ok e
        split at e
        · cases e
          omega
        · obtain ⟨⟨r, h2, W2⟩, e1, e⟩ := Res.bind_eq_ok e
          have h2c : h2.readCount = h1.readCount := by
            unfold updateIntegrity at e1
            split at e1
            · cases e1; rfl
            · exact updateHashes_readCount e1
          dsimp only at e
          split at e
          · cases e
            omega
          · split at e
            · cases e
              show h2.readCount ≤ _
              omega
            · rename_i ha
              have h3 := ih e
              dsimp only at h3
              have h4 : h2.readCount < n := by
                by_contra h
                exact ha (by simp [hf _ (not_lt.mp h)])
              omega
    · cases e
      omega

theorem processInput_prompt {T : Tool} {C : Contexts M} {inp : Input} {f : Nat → Bool} {n : Nat} (hf : ∀ j, n ≤ j → f j = true) {h h' : Handle} {W W' : WorldOf M} {r : Int} (e : processInput T C inp f h W = .ok (r, h', W')) :
    h'.readCount ≤ max n (h.readCount + 1) := by
  unfold processInput at e
  split at e
  · cases e
    omega
  cases hs : inp.size with
  | none =>
    rw [hs] at e
    cases e
    omega
  | some size =>
    rw [hs] at e
    dsimp only at e
    generalize allocBlock T C W = al at e
    rcases al with ⟨_ | q, W1⟩
    · cases e
      omega
    · dsimp only at e
      obtain ⟨⟨r1, h1, W2⟩, e1, e⟩ := Res.bind_eq_ok e
      have h1c : h1.readCount = h.readCount := by
        unfold initIntegrity at e1
        obtain ⟨⟨r0, h0, W0⟩, e0, e1⟩ := Res.bind_eq_ok e1
        have h0c := initHashes_readCount e0
        dsimp only at e1
        split at e1
        · cases e1
          exact h0c
        · obtain ⟨⟨h2, W2⟩, e2, e1⟩ := Res.bind_eq_ok e1
          obtain ⟨⟨h3, W3⟩, e3, e1⟩ := Res.bind_eq_ok e1
          cases e1
          exact (freeHash_readCount e3).trans ((freeHash_readCount e2).trans h0c)
      dsimp only at e
      split at e
      · obtain ⟨W3, -, e⟩ := Res.bind_eq_ok e
        cases e
        omega
      · obtain ⟨⟨ok, h2, W3⟩, e2, e⟩ := Res.bind_eq_ok e
        have h3 : h2.readCount ≤ max n (h1.readCount + 1) := processLoop_prompt hf e2
        have hc : h'.readCount = h2.readCount := by
          dsimp only at e
          split at e
          · obtain ⟨W4, -, e⟩ := Res.bind_eq_ok e
            cases e
            rfl
          · obtain ⟨W4, -, e⟩ := Res.bind_eq_ok e
            obtain ⟨⟨r5, h5, W5⟩, e5, e⟩ := Res.bind_eq_ok e
            have := finalizeHashes_readCount e5
            dsimp only at e
            split at e <;> cases e <;> exact this
        omega

/-! ### Signals -/

/-- What signals change. -/
structure Moved (p q : Proc M) : Prop where
  out : q.out = p.out
  err : q.err = p.err
  world : q.world = p.world
  error : q.error = p.error
  null : p.var = .null → q.var = .null
  live : ∀ h, p.var = .live h → ∃ b, q.var = .live (h.withAbort b)
  freed : p.var = .freed → q.var = .freed
  abort : p.abort = true → q.abort = true
  detached : p.attached = false → q = p
  handled : p.handled ≤ q.handled
  same : q.handled = p.handled → q = p
  set : p.handled < q.handled → q.abort = true ∧ q.stdin = false
  reads : q.reads = p.reads

theorem Moved.refl (p : Proc M) : Moved p p :=
  ⟨rfl, rfl, rfl, rfl, id, fun h e => ⟨h.abort, e⟩, id, id, fun _ => rfl, le_refl _, fun _ => rfl, fun h => absurd h (lt_irrefl _), rfl⟩

theorem deliver_moved (resets : Bool) : ∀ (n : Nat) (p q : Proc M) (dead : Bool), deliver resets n p = .ok (dead, q) →
    Moved p q ∧ (dead = true → q.attached = false ∧ 0 < n) ∧ (dead = false → 0 < n → p.attached = true ∧ p.handled < q.handled) ∧ (n = 0 → q = p)
  | 0, p, q, dead, e => by
    cases e
    exact ⟨.refl p, by simp, by simp, fun _ => rfl⟩
  | n + 1, p, q, dead, e => by
    unfold deliver at e
    split at e
    · rename_i ha
      cases e
      refine ⟨.refl p, fun _ => ⟨by simpa using ha, by omega⟩, by simp, by simp⟩
    · rename_i ha
      have ha : p.attached = true := by simpa using ha
      obtain ⟨p1, e1, e⟩ := Res.bind_eq_ok e
      obtain ⟨m, d1, -, -⟩ := deliver_moved resets n _ q dead e
      have hp1 : p1.out = p.out ∧ p1.err = p.err ∧ p1.world = p.world ∧ p1.error = p.error ∧ p1.abort = true ∧ p1.stdin = false ∧ p1.handled = p.handled + 1 ∧ p1.reads = p.reads ∧
          (p.var = .null → p1.var = .null) ∧ (∀ h, p.var = .live h → p1.var = .live (h.withAbort true)) ∧ p.var ≠ .freed := by
        unfold signalHandler at e1
        split at e1
        · rename_i hv
          cases e1
          exact ⟨rfl, rfl, rfl, rfl, rfl, rfl, rfl, rfl, fun _ => hv, fun h e => (by rw [hv] at e; cases e), by rw [hv]; exact fun h => by cases h⟩
        · rename_i h hv
          cases e1
          exact ⟨rfl, rfl, rfl, rfl, rfl, rfl, rfl, rfl, fun e => (by rw [hv] at e; cases e), fun h' e => (by rw [hv] at e; cases e; rfl), by rw [hv]; exact fun h => by cases h⟩
        · cases e1
      obtain ⟨a1, a2, a3, a4, a5, a6, a7, a11, a8, a9, a10⟩ := hp1
      have hh := m.handled
      dsimp only at hh
      refine ⟨⟨m.out.trans a1, m.err.trans a2, m.world.trans a3, m.error.trans a4, fun e => m.null (a8 e), fun h e => ?_, fun e => absurd e a10, fun _ => m.abort a5,
        fun h => (by rw [ha] at h; cases h), by omega, fun h => by omega, fun _ => ?_, m.reads.trans a11⟩, fun h => ⟨(d1 h).1, by omega⟩, fun _ _ => ⟨ha, by omega⟩, by simp⟩
      · obtain ⟨b, e⟩ := m.live _ (a9 h e)
        exact ⟨b, e⟩
      · by_cases hlt : p1.handled < q.handled
        · exact m.set hlt
        · have := m.same (by dsimp only; omega)
          rw [this]
          exact ⟨a5, a6⟩

theorem Moved.trans {p q r : Proc M} (a : Moved p q) (b : Moved q r) : Moved p r := by
  refine ⟨b.out.trans a.out, b.err.trans a.err, b.world.trans a.world, b.error.trans a.error, fun e => b.null (a.null e), fun h e => ?_, fun e => b.freed (a.freed e), fun e => b.abort (a.abort e),
    fun e => ?_, le_trans a.handled b.handled, fun e => ?_, fun e => ?_, b.reads.trans a.reads⟩
  · obtain ⟨c, e⟩ := a.live h e
    obtain ⟨d, e⟩ := b.live _ e
    exact ⟨d, e⟩
  · have := a.detached e
    subst this
    exact b.detached e
  · have h1 := a.handled
    have h2 := b.handled
    have := a.same (by omega)
    subst this
    exact b.same e
  · by_cases h : q.handled < r.handled
    · exact b.set h
    · have := b.same (by have := b.handled; omega)
      subst this
      exact a.set e

/-- The process is killed at a point, or it goes on. -/
theorem pass_cases {S : Signals} {pt : Point} {p : Proc M} {k : Proc M → Res (Fate M)} {f : Fate M} (e : pass S pt p k = .ok f) :
    (∃ q, f = .killed q ∧ Moved p q ∧ q.attached = false) ∨ (∃ q, k q = .ok f ∧ Moved p q ∧ (0 < S.count pt → p.handled < q.handled ∧ p.attached = true) ∧ (S.count pt = 0 → q = p)) := by
  obtain ⟨⟨dead, q⟩, e1, e⟩ := Res.bind_eq_ok e
  obtain ⟨m, d1, d2, d3⟩ := deliver_moved _ _ _ _ _ e1
  cases dead with
  | true =>
    cases e
    exact .inl ⟨q, rfl, m, (d1 rfl).1⟩
  | false => exact .inr ⟨q, e, m, fun h => ⟨(d2 rfl h).2, (d2 rfl h).1⟩, d3⟩

theorem passReads_cases {S : Signals} {k : Proc M → Res (Fate M)} {f : Fate M} : ∀ {n i : Nat} {p : Proc M}, passReads S i n p k = .ok f →
    (∃ q, f = .killed q ∧ Moved p q ∧ q.attached = false) ∨
      (∃ q, k q = .ok f ∧ Moved p q ∧ (∀ j, i ≤ j → j < i + n → 0 < S.count (.read j) → p.handled < q.handled ∧ p.attached = true) ∧
        ((∀ j, i ≤ j → j < i + n → S.count (.read j) = 0) → q = p))
  | 0, i, p, e => .inr ⟨p, e, .refl p, fun j h1 h2 => by omega, fun _ => rfl⟩
  | n + 1, i, p, e => by
    rcases pass_cases e with ⟨q, h1, h2, h3⟩ | ⟨q, e, m, hc, hz⟩
    · exact .inl ⟨q, h1, h2, h3⟩
    · rcases passReads_cases e with ⟨r, h1, h2, h3⟩ | ⟨r, e, m2, hc2, hz2⟩
      · exact .inl ⟨r, h1, m.trans h2, h3⟩
      · refine .inr ⟨r, e, m.trans m2, fun j h1 h2 hj => ?_, fun h0 => (hz2 fun j h1 h2 => h0 j (by omega) (by omega)).trans (hz (h0 i (le_refl _) (by omega)))⟩
        have h3 := m.handled
        have h4 := m2.handled
        by_cases hij : j = i
        · subst hij
          have := hc hj
          exact ⟨by omega, this.2⟩
        · have := hc2 j (by omega) (by omega) hj
          refine ⟨by omega, ?_⟩
          by_contra hn
          have e1 := m.detached (by simpa using hn)
          rw [e1] at this
          exact hn this.2

theorem passLines_cases {S : Signals} {k : Proc M → Res (Fate M)} {f : Fate M} : ∀ {ls : List Line} {i : Nat} {p : Proc M}, passLines S i ls p k = .ok f →
    (∃ q ms, f = .killed q ∧ ms <+: ls ∧ Moved { p with out := p.out ++ ms } q ∧ q.attached = false) ∨ (∃ q, k q = .ok f ∧ Moved { p with out := p.out ++ ls } q)
  | [], i, p, e => by
    rcases pass_cases e with ⟨q, h1, h2, h3⟩ | ⟨q, e, m, hc, hz⟩
    · exact .inl ⟨q, [], h1, List.prefix_refl _, by simpa using h2, h3⟩
    · exact .inr ⟨q, e, by simpa using m⟩
  | l :: ls, i, p, e => by
    rcases pass_cases e with ⟨q, h1, h2, h3⟩ | ⟨q, e, m, hc, hz⟩
    · exact .inl ⟨q, [], h1, List.nil_prefix, by simpa using h2, h3⟩
    · have key : ∀ ms : List Line, Moved { p with out := p.out ++ l :: ms } { q with out := q.out ++ [l] ++ ms } := fun ms => by
        refine ⟨by simp [m.out], m.err, m.world, m.error, m.null, m.live, m.freed, m.abort, fun e => ?_, m.handled, fun e => ?_, m.set, m.reads⟩
        · have := m.detached e
          subst this
          simp
        · have := m.same e
          subst this
          simp
      rcases passLines_cases e with ⟨r, ms, h1, h2, h3, h4⟩ | ⟨r, e, m2⟩
      · exact .inl ⟨r, l :: ms, h1, List.cons_prefix_cons.mpr ⟨rfl, h2⟩, (key ms).trans h3, h4⟩
      · exact .inr ⟨r, e, (key ls).trans m2⟩

/-! ### The program with signals does what the program with one arrival does -/

/-- The counts of handled signals, the flag and standard input agree. -/
structure Tidy (p : Proc M) : Prop where
  zero : p.handled = 0 → p.abort = false ∧ p.stdin = true
  pos : 0 < p.handled → p.abort = true ∧ p.stdin = false

theorem Tidy.moved {p q : Proc M} (t : Tidy p) (m : Moved p q) : Tidy q := by
  refine ⟨fun h => ?_, fun h => ?_⟩
  · have := m.handled
    have := m.same (by omega)
    subst this
    exact t.zero h
  · by_cases hlt : p.handled < q.handled
    · exact m.set hlt
    · have := m.same (by have := m.handled; omega)
      subst this
      exact t.pos h

theorem Moved.slot {p q : Proc M} {slot : Option Handle} (m : Moved p q) (h : Slot p.var slot) : Slot q.var slot := by
  rcases h with ⟨h, e⟩ | ⟨g, b, e, h⟩
  · exact .inl ⟨m.null h, e⟩
  · obtain ⟨c, h⟩ := m.live _ h
    exact .inr ⟨g, c, e, h⟩

/-- An end of the process agrees with a result of the program without the handler: the same exit, messages and memory; if killed, part of the output. -/
def SigEnds (m : Res (ExitM × WorldOf M)) : Fate M → Prop
  | .exited x q => m = .ok (x, q.world) ∧ Tidy q ∧ (q.error = true → x.exit.out.getLast? = some .aborted ∧ x.exit.status = false ∧ q.abort = true)
  | .killed q => q.attached = false ∧ Tidy q ∧ ∀ x W, m = .ok (x, W) → q.out <+: x.exit.out ∧ q.err <+: x.err

section fits

variable {E : Environment} {C : Contexts M} {Y : SystemCalls} {S : Signals}

theorem mOnError_out {out : List Line} {err : List Message} {slot : Option Handle} {W W' : WorldOf M} {x : ExitM} (h : mOnError E C out err slot W = .ok (x, W')) : x = ⟨⟨false, out⟩, err⟩ := by
  obtain ⟨a, -, h⟩ := Res.bind_eq_ok h
  cases h
  rfl

theorem mOnAbort_prefix {out : List Line} {err : List Message} {h : Handle} {W W' : WorldOf M} {x : ExitM} (e : mOnAbort E C Y out err h W = .ok (x, W')) : out <+: x.exit.out ∧ err <+: x.err := by
  unfold mOnAbort at e
  split at e
  · rw [mOnError_out e]
    exact ⟨List.prefix_refl _, List.prefix_append _ _⟩
  · obtain ⟨⟨r, slot, W1⟩, -, e⟩ := Res.bind_eq_ok e
    have hd : err <+: (if signalDetach Y.detach ≠ 1 then err ++ [.detach] else err) := by
      split
      · exact List.prefix_append _ _
      · exact List.prefix_refl _
    dsimp only at e
    split at e
    · rw [mOnError_out e]
      exact ⟨List.prefix_refl _, hd.trans (List.prefix_append _ _)⟩
    · split at e <;> cases e
      · exact ⟨List.prefix_append _ _, hd⟩
      · exact ⟨List.prefix_refl _, hd⟩

theorem mProcessAndPrint_prefix {inp : Input} {out : List Line} {err : List Message} {h : Handle} {W W' : WorldOf M} {x : ExitM} (e : mProcessAndPrint E C Y inp out err h W = .ok (x, W')) :
    out <+: x.exit.out ∧ err <+: x.err := by
  obtain ⟨⟨r, h1, W1⟩, -, e⟩ := Res.bind_eq_ok e
  dsimp only at e
  split at e
  · exact mOnAbort_prefix e
  · split at e
    · rw [mOnError_out e]
      exact ⟨List.prefix_refl _, List.prefix_append _ _⟩
    · obtain ⟨ds, -, e⟩ := Res.bind_eq_ok e
      exact ⟨(List.prefix_append _ _).trans (mOnAbort_prefix e).1, (mOnAbort_prefix e).2⟩

theorem mOpenAndProcess_prefix {source : List Nat} {out : List Line} {err : List Message} {h : Handle} {W W' : WorldOf M} {x : ExitM} (e : mOpenAndProcess E C Y source out err h W = .ok (x, W')) :
    out <+: x.exit.out ∧ err <+: x.err := by
  unfold mOpenAndProcess at e
  split at e
  · split at e
    · exact mOnAbort_prefix e
    · rw [mOnError_out e]
      exact ⟨List.prefix_refl _, List.prefix_append _ _⟩
  · split at e
    · exact mOnAbort_prefix e
    · exact mProcessAndPrint_prefix e

theorem sOnError_ends {p : Proc M} {f : Fate M} (e : sOnError E C S p = .ok f) {slot : Option Handle} (hs : Slot p.var slot) (ht : Tidy p) :
    SigEnds (mOnError E C p.out p.err slot p.world) f ∧ ∀ x q, f = .exited x q → x.exit.status = false := by
  unfold sOnError at e
  have ht : Tidy { p with error := false } := ⟨ht.zero, ht.pos⟩
  rcases pass_cases e with ⟨q, rfl, m, hq⟩ | ⟨q, e, m, -, -⟩
  · refine ⟨⟨hq, ht.moved m, fun x W h => ?_⟩, fun x q h => by cases h⟩
    rw [mOnError_out h, m.out, m.err]
    exact ⟨List.prefix_refl _, List.prefix_refl _⟩
  have ht := ht.moved m
  have hs := m.slot (p := { p with error := false }) hs
  rcases hs with ⟨h, rfl⟩ | ⟨g, b, rfl, h⟩
  · rw [h] at e
    dsimp only at e
    rcases pass_cases e with ⟨r, rfl, m2, hq⟩ | ⟨r, e, m2, -, -⟩
    · refine ⟨⟨hq, ht.moved m2, fun x W h => ?_⟩, fun x q h => by cases h⟩
      rw [mOnError_out h, m2.out, m2.err, m.out, m.err]
      exact ⟨List.prefix_refl _, List.prefix_refl _⟩
    · cases e
      refine ⟨⟨?_, ht.moved m2, fun h => ?_⟩, fun x q h => by cases h; rfl⟩
      · rw [m2.out, m2.err, m2.world, m.out, m.err, m.world]
        rfl
      · rw [m2.error, m.error] at h
        cases h
  · rw [h] at e
    dsimp only at e
    rw [sumFree_withAbort] at e
    obtain ⟨⟨r, sl, W⟩, e1, e⟩ := Res.bind_eq_ok e
    have hm : mOnError E C p.out p.err (some g) p.world = .ok (⟨⟨false, p.out⟩, p.err⟩, W) := by
      have e1 : sumFree C E.freeOk (some g) p.world = .ok (r, sl, W) := by
        rw [← e1, m.world]
      simp [mOnError, e1]
    have ht2 : Tidy { q with var := .freed, world := W } := ⟨ht.zero, ht.pos⟩
    rcases pass_cases e with ⟨q2, rfl, m2, hq⟩ | ⟨q2, e, m2, -, -⟩
    · refine ⟨⟨hq, ht2.moved m2, fun x W h => ?_⟩, fun x q h => by cases h⟩
      rw [mOnError_out h, m2.out, m2.err, m.out, m.err]
      exact ⟨List.prefix_refl _, List.prefix_refl _⟩
    have ht3 : Tidy { q2 with var := .null } := ⟨(ht2.moved m2).zero, (ht2.moved m2).pos⟩
    rcases pass_cases e with ⟨q3, rfl, m3, hq⟩ | ⟨q3, e, m3, -, -⟩
    · refine ⟨⟨hq, ht3.moved m3, fun x W h => ?_⟩, fun x q h => by cases h⟩
      rw [mOnError_out h, m3.out, m3.err, m2.out, m2.err, m.out, m.err]
      exact ⟨List.prefix_refl _, List.prefix_refl _⟩
    · cases e
      refine ⟨⟨?_, ht3.moved m3, fun h => ?_⟩, fun x q h => by cases h; rfl⟩
      · rw [hm, m3.out, m3.err, m3.world, m2.out, m2.err, m2.world, m.out, m.err]
      · rw [m3.error] at h
        dsimp only at h
        rw [m2.error] at h
        dsimp only at h
        rw [m.error] at h
        cases h

/-- The arrival that the last test sees. -/
def fin (b : Bool) : Arrival := if b then .late else .never

theorem fin_atFinal (b : Bool) : (fin b).atFinal = b := by cases b <;> rfl

theorem mOnAbort_arrival {a : Arrival} {b : Bool} (h : a.atFinal = b) (out : List Line) (err : List Message) (hd : Handle) (W : WorldOf M) :
    mOnAbort { E with arrival := a } C Y out err hd W = mOnAbort { E with arrival := fin b } C Y out err hd W := by
  unfold mOnAbort
  simp only [h, fin_atFinal]
  rfl

/-- Exit status 0 means that no signal was handled, except after the last test. -/
def NoSignal (S : Signals) : Fate M → Prop
  | .exited x q => x.exit.status = true → q.handled = 0 ∨ 0 < S.count .last
  | .killed _ => True

/-- Exit status 0. -/
def Fate.succeeds : Fate M → Prop
  | .exited x _ => x.exit.status = true
  | .killed _ => False

theorem sOnAbort_ends {p : Proc M} {f : Fate M} (e : sOnAbort E C Y S p = .ok f) {g : Handle} (hs : Slot p.var (some g)) (ht : Tidy p) (herr : p.abort = false → p.error = false) :
    ∃ b, (p.abort = true → b = true) ∧ SigEnds (mOnAbort { E with arrival := fin b } C Y p.out p.err g p.world) f ∧ NoSignal S f ∧ (f.succeeds → b = false) := by
  unfold sOnAbort at e
  have key : ∀ b, mOnAbort { E with arrival := fin b } C Y p.out p.err g p.world = (if closeInput E.closeOk ≠ 0 then mOnError E C p.out (p.err ++ [.closeHandle]) (some g) p.world else
      sumFree C E.freeOk (some g) p.world >>= fun y => if y.1 ≠ 1 then mOnError E C p.out ((if signalDetach Y.detach ≠ 1 then p.err ++ [.detach] else p.err) ++ [.freeHandle]) y.2.1 y.2.2
        else if b then .ok (⟨⟨false, p.out ++ [.aborted]⟩, if signalDetach Y.detach ≠ 1 then p.err ++ [.detach] else p.err⟩, y.2.2)
        else .ok (⟨⟨true, p.out⟩, if signalDetach Y.detach ≠ 1 then p.err ++ [.detach] else p.err⟩, y.2.2)) := fun b => by
    unfold mOnAbort
    simp only [fin_atFinal]
    rfl
  have dead : ∀ q : Proc M, q.attached = false → Tidy q → q.out = p.out → p.err = q.err ∨ (if signalDetach Y.detach ≠ 1 then p.err ++ [.detach] else p.err) = q.err → closeInput E.closeOk = 0 →
      ∃ b, (p.abort = true → b = true) ∧ SigEnds (mOnAbort { E with arrival := fin b } C Y p.out p.err g p.world) (.killed q) ∧ NoSignal S (.killed q) ∧ (Fate.succeeds (.killed q) → b = false) := by
    intro q h1 h2 h3 h4 hc
    refine ⟨true, fun _ => rfl, ⟨h1, h2, fun x W h => ?_⟩, trivial, fun h => h.elim⟩
    rcases h4 with h4 | h4
    · rw [h3, ← h4]
      exact mOnAbort_prefix h
    · rw [h3]
      refine ⟨(mOnAbort_prefix h).1, ?_⟩
      rw [key, if_neg (by simp [hc])] at h
      obtain ⟨⟨r, sl, W1⟩, -, h⟩ := Res.bind_eq_ok h
      dsimp only at h
      rw [h4] at h
      split at h
      · rw [mOnError_out h]
        exact List.prefix_append _ _
      · cases h
        exact List.prefix_refl _
  split at e
  · rename_i hc
    obtain ⟨h1, h2⟩ := sOnError_ends e (slot := some g) hs ⟨ht.zero, ht.pos⟩
    refine ⟨true, fun _ => rfl, ?_, ?_, ?_⟩
    · rw [key, if_pos hc]
      exact h1
    · cases f with
      | exited x q => exact fun h => absurd ((h2 x q rfl).symm.trans h) (by decide)
      | killed q => trivial
    · cases f with
      | exited x q => exact fun h => absurd ((h2 x q rfl).symm.trans h) (by decide)
      | killed q => exact fun h => h.elim
  rename_i hc
  have hc0 : closeInput E.closeOk = 0 := by simpa using hc
  rcases pass_cases e with ⟨q, rfl, m, hq⟩ | ⟨q, e, m, -, -⟩
  · exact dead q hq (ht.moved m) m.out (.inl m.err.symm) hc0
  have ht := ht.moved m
  have hs := m.slot hs
  generalize hp1 : (if signalDetach Y.detach ≠ 1 then { q with err := q.err ++ [.detach], error := false } else { q with attached := false }) = p1 at e
  have h1 : p1.out = p.out ∧ (if signalDetach Y.detach ≠ 1 then p.err ++ [.detach] else p.err) = p1.err ∧ p1.world = p.world ∧ p1.var = q.var ∧ p1.abort = q.abort ∧ Tidy p1 ∧ (p1.error = true → p.error = true) := by
    rw [← hp1]
    split
    · exact ⟨m.out, by rw [m.err], m.world, rfl, rfl, ⟨ht.zero, ht.pos⟩, fun h => by cases h⟩
    · exact ⟨m.out, by rw [m.err], m.world, rfl, rfl, ⟨ht.zero, ht.pos⟩, fun h => by rw [← m.error]; exact h⟩
  obtain ⟨o1, er1, w1, v1, ab1, ht1, eo1⟩ := h1
  clear hp1
  rcases pass_cases e with ⟨q2, rfl, m2, hq⟩ | ⟨q2, e, m2, -, -⟩
  · exact dead q2 hq (ht1.moved m2) (m2.out.trans o1) (.inr (er1.trans m2.err.symm)) hc0
  have ht2 := ht1.moved m2
  have hs2 := m2.slot (slot := some g) (by rw [v1]; exact hs)
  rcases hs2 with ⟨h, h'⟩ | ⟨g', b', h', h⟩
  · cases h'
  cases h'
  rw [h] at e
  dsimp only at e
  rw [sumFree_withAbort] at e
  obtain ⟨⟨r, sl, W⟩, e1, e⟩ := Res.bind_eq_ok e
  have e1 : sumFree C E.freeOk (some g) p.world = .ok (r, sl, W) := by rw [← e1, m2.world, w1]
  have hsl : sl = none := by
    unfold sumFree at e1
    obtain ⟨⟨_, _, _⟩, -, e1⟩ := Res.bind_eq_ok e1
    obtain ⟨_, -, e1⟩ := Res.bind_eq_ok e1
    obtain ⟨_, -, e1⟩ := Res.bind_eq_ok e1
    cases e1
    rfl
  subst hsl
  have ht3 : Tidy { q2 with var := .freed, world := W } := ⟨ht2.zero, ht2.pos⟩
  rcases pass_cases e with ⟨q3, rfl, m3, hq⟩ | ⟨q3, e, m3, -, -⟩
  · exact dead q3 hq (ht3.moved m3) (m3.out.trans (m2.out.trans o1)) (.inr (er1.trans (m3.err.trans m2.err).symm)) hc0
  have ht3 := ht3.moved m3
  have o3 : q3.out = p.out := m3.out.trans (m2.out.trans o1)
  have er3 : (if signalDetach Y.detach ≠ 1 then p.err ++ [.detach] else p.err) = q3.err := er1.trans (m3.err.trans m2.err).symm
  have w3 : q3.world = W := m3.world
  have hab : p.abort = true → q3.abort = true := fun h => m3.abort (m2.abort (by rw [ab1]; exact m.abort h))
  split at e
  · rename_i hr
    obtain ⟨h1, h2⟩ := sOnError_ends e (slot := none) (.inl ⟨rfl, rfl⟩) ⟨ht3.zero, ht3.pos⟩
    refine ⟨true, fun _ => rfl, ?_, ?_, ?_⟩
    · rw [key, if_neg hc, e1, Res.ok_bind]
      dsimp only
      rw [if_pos hr, er3, ← o3, ← w3]
      exact h1
    · cases f with
      | exited x q => exact fun h => absurd ((h2 x q rfl).symm.trans h) (by decide)
      | killed q => trivial
    · cases f with
      | exited x q => exact fun h => absurd ((h2 x q rfl).symm.trans h) (by decide)
      | killed q => exact fun h => h.elim
  rename_i hr
  have ht4 : Tidy { q3 with var := .null } := ⟨ht3.zero, ht3.pos⟩
  rcases pass_cases e with ⟨q4, rfl, m4, hq⟩ | ⟨q4, e, m4, -, -⟩
  · exact dead q4 hq (ht4.moved m4) (m4.out.trans o3) (.inr (er3.trans m4.err.symm)) hc0
  have ht4 := ht4.moved m4
  have o4 : q4.out = p.out := m4.out.trans o3
  have er4 : (if signalDetach Y.detach ≠ 1 then p.err ++ [.detach] else p.err) = q4.err := er3.trans m4.err.symm
  have w4 : q4.world = W := m4.world.trans w3
  have hab4 : p.abort = true → q4.abort = true := fun h => m4.abort (hab h)
  split at e
  · rename_i ha
    have ht5 : Tidy { q4 with out := q4.out ++ [.aborted] } := ⟨ht4.zero, ht4.pos⟩
    refine ⟨true, fun _ => rfl, ?_⟩
    rw [key, if_neg hc, e1, Res.ok_bind]
    dsimp only
    rw [if_neg hr, if_pos rfl, er4, ← o4]
    rcases pass_cases e with ⟨q5, rfl, m5, hq⟩ | ⟨q5, e, m5, -, -⟩
    · refine ⟨⟨hq, ht5.moved m5, fun x W' h => ?_⟩, trivial, fun h => h.elim⟩
      cases h
      rw [m5.out, m5.err]
      exact ⟨List.prefix_refl _, List.prefix_refl _⟩
    · cases e
      refine ⟨⟨?_, ht5.moved m5, fun _ => ?_⟩, fun h => (by cases h), fun h => (by cases h)⟩
      · rw [m5.out, m5.err, m5.world, w4]
      · rw [m5.out]
        exact ⟨by simp, rfl, m5.abort ha⟩
  · rename_i ha
    have ha : q4.abort = false := by simpa using ha
    have hz : q4.handled = 0 := by
      by_contra hn
      have := (ht4.pos (by omega)).1
      rw [ha] at this
      cases this
    refine ⟨false, fun h => absurd ((hab4 h).symm.trans ha) (by decide), ?_⟩
    rw [key, if_neg hc, e1, Res.ok_bind]
    dsimp only
    rw [if_neg hr, if_neg (by decide), er4, ← o4]
    rcases pass_cases e with ⟨q5, rfl, m5, hq⟩ | ⟨q5, e, m5, -, hz5⟩
    · refine ⟨⟨hq, ht4.moved m5, fun x W' h => ?_⟩, trivial, fun h => h.elim⟩
      cases h
      rw [m5.out, m5.err]
      exact ⟨List.prefix_refl _, List.prefix_refl _⟩
    · cases e
      refine ⟨⟨?_, ht4.moved m5, fun he => ?_⟩, fun _ => ?_, fun _ => rfl⟩
      · rw [m5.out, m5.err, m5.world, w4]
      · have h3 : q3.error = true := by
          rw [← he, m5.error, m4.error]
        have h2 : q2.error = true := by
          rw [← h3, m3.error]
        have h1 : p.error = true := eo1 (by rw [← h2, m2.error])
        rw [herr (by
          by_contra hn
          have := hab4 (by simpa using hn)
          rw [ha] at this
          cases this)] at h1
        cases h1
      · by_cases h0 : S.count .last = 0
        · rw [hz5 h0]
          exact .inl hz
        · exact .inr (by omega)

theorem NoSignal.killed (q : Proc M) : NoSignal S (.killed q) := trivial

/-- What is claimed for a run: it agrees with the program for one arrival; exit status 0 agrees with the program without signals. -/
def Agrees (S : Signals) (P : Arrival → Prop) (m : Arrival → Res (ExitM × WorldOf M)) (f : Fate M) : Prop :=
  ∃ a, P a ∧ SigEnds (m a) f ∧ NoSignal S f ∧ (f.succeeds → a = .never)

theorem agrees_failed {P : Arrival → Prop} {m : Arrival → Res (ExitM × WorldOf M)} {f : Fate M} (a : Arrival) (hP : P a) (h : SigEnds (m a) f ∧ ∀ x q, f = .exited x q → x.exit.status = false) :
    Agrees S P m f := by
  refine ⟨a, hP, h.1, ?_, ?_⟩
  · cases f with
    | exited x q => exact fun e => absurd ((h.2 x q rfl).symm.trans e) (by decide)
    | killed q => trivial
  · cases f with
    | exited x q => exact fun e => absurd ((h.2 x q rfl).symm.trans e) (by decide)
    | killed q => exact fun e => e.elim

theorem agrees_killed {P : Arrival → Prop} {m : Arrival → Res (ExitM × WorldOf M)} {q : Proc M} (a : Arrival) (hP : P a) (hq : q.attached = false) (ht : Tidy q)
    (h : ∀ x W, m a = .ok (x, W) → q.out <+: x.exit.out ∧ q.err <+: x.err) : Agrees S P m (.killed q) :=
  ⟨a, hP, ⟨hq, ht, h⟩, trivial, fun e => e.elim⟩

/-- A run that goes to `on_abort` after a signal. -/
theorem agrees_aborted {P : Arrival → Prop} {m : Arrival → Res (ExitM × WorldOf M)} {p : Proc M} {f : Fate M} {g : Handle} (a : Arrival) (hP : P a) (ha : a.atFinal = true) (hab : p.abort = true)
    (hm : m a = mOnAbort { E with arrival := a } C Y p.out p.err g p.world) (e : sOnAbort E C Y S p = .ok f) (hs : Slot p.var (some g)) (ht : Tidy p) : Agrees S P m f := by
  obtain ⟨b, h1, h2, h3, h4⟩ := sOnAbort_ends e hs ht (fun h => absurd (hab.symm.trans h) (by decide))
  have hb := h1 hab
  subst hb
  refine ⟨a, hP, ?_, h3, fun h => absurd (h4 h) (by decide)⟩
  rw [hm, mOnAbort_arrival ha]
  exact h2

theorem sProcessAndPrint_agrees {inp : Input} {p : Proc M} {f : Fate M} {h : Handle} (e : sProcessAndPrint E C Y S inp p = .ok f) (hv : p.var = .live h) (ht : Tidy p) (hz : p.handled = 0) :
    Agrees S (fun a => a.atOpen = false) (fun a => mProcessAndPrint { E with arrival := a } C Y inp p.out p.err h p.world) f := by
  unfold sProcessAndPrint at e
  rw [hv] at e
  dsimp only at e
  obtain ⟨⟨r, h1, W⟩, e1, e⟩ := Res.bind_eq_ok e
  dsimp only at e
  have pre : ∀ (a : Arrival) (x : ExitM) (W' : WorldOf M), mProcessAndPrint { E with arrival := a } C Y inp p.out p.err h p.world = .ok (x, W') → p.out <+: x.exit.out ∧ p.err <+: x.err :=
    fun a x W' h => mProcessAndPrint_prefix h
  have ht0 : Tidy { p with var := .live h1, world := W, error := decide (r ≠ 1), reads := h1.readCount } := ⟨ht.zero, ht.pos⟩
  rcases passReads_cases e with ⟨q, rfl, m, hq⟩ | ⟨q, e', m, hsig, hno⟩
  rotate_left
  clear e
  rename' e' => e
  rotate_left
  · exact agrees_killed .never rfl hq (ht0.moved m) fun x W' h => by rw [m.out, m.err]; exact pre _ x W' h
  have ht1 := ht0.moved m
  have hl1 : Slot q.var (some h1) := m.slot (.inr ⟨h1, h1.abort, rfl, rfl⟩)
  rcases pass_cases e with ⟨q2, rfl, m2, hq⟩ | ⟨q2, e', m2, -, -⟩
  rotate_left
  clear e
  rename' e' => e
  rotate_left
  · exact agrees_killed .never rfl hq (ht1.moved m2) fun x W' h => by rw [m2.out, m2.err, m.out, m.err]; exact pre _ x W' h
  have ht2 := ht1.moved m2
  have hl2 := m2.slot hl1
  have o2 : q2.out = p.out := m2.out.trans m.out
  have er2 : q2.err = p.err := m2.err.trans m.err
  have w2 : q2.world = W := m2.world.trans m.world
  by_cases hex : ∃ k, k ≤ h1.readCount ∧ 0 < S.count (.read k)
  · -- a signal while reading
    have hex' : ∃ k, 0 < S.count (.read k) := hex.imp fun _ h => h.2
    have hk := Nat.find_spec hex'
    have hmin : ∀ k, 0 < S.count (.read k) → Nat.find hex' ≤ k := fun k h => Nat.find_min' hex' h
    generalize Nat.find hex' = k0 at hk hmin
    obtain ⟨k, hk1, hk2⟩ := hex
    have hs := hsig k (by omega) (by omega) hk2
    have hatt : p.attached = true := hs.2
    have hab : q2.abort = true := m2.abort (m.set hs.1).1
    rw [if_pos hab] at e
    have hfun : (fun n => p.attached && (List.range (n + 1)).any fun k => decide (0 < S.count (.read k))) = (Arrival.reading k0).atRead := by
      funext n
      rw [hatt, Bool.true_and, Bool.eq_iff_iff]
      simp only [List.any_eq_true, List.mem_range, decide_eq_true_eq, Arrival.atRead]
      constructor
      · rintro ⟨j, hj, h⟩
        have := hmin j h
        omega
      · intro h
        exact ⟨k0, by omega, hk⟩
    rw [hfun] at e1
    refine agrees_aborted (.reading k0) rfl rfl hab ?_ e hl2 ht2
    unfold mProcessAndPrint
    dsimp only
    rw [e1, Res.ok_bind, o2, er2, w2]
    rfl
  · -- no signal while reading
    have hno := hno fun j h1 h2 => by
      by_contra hn
      exact hex ⟨j, by omega, by omega⟩
    subst hno
    have hcongr : ∀ a : Arrival, a.atProcessed = false ∨ a = .processed → processInput E.tool C inp a.atRead h p.world = .ok (r, h1, W) := fun a ha => by
      refine processInput_congr e1 fun n hn => ?_
      have h0 : ((List.range (n + 1)).any fun k => decide (0 < S.count (.read k))) = false := by
        rw [List.any_eq_false]
        intro k hk
        simp only [List.mem_range] at hk
        simp only [decide_eq_true_eq]
        intro hc
        exact hex ⟨k, by omega, hc⟩
      rw [h0, Bool.and_false]
      rcases ha with ha | rfl
      · exact (Arrival.atRead_false ha n).symm
      · rfl
    by_cases hab : q2.abort = true
    · rw [if_pos hab] at e
      refine agrees_aborted .processed rfl rfl hab ?_ e hl2 ht2
      unfold mProcessAndPrint
      dsimp only
      rw [hcongr .processed (.inr rfl), Res.ok_bind, o2, er2, w2]
      rfl
    · rw [if_neg hab] at e
      have hab : q2.abort = false := by simpa using hab
      have hz2 : q2.handled = 0 := by
        by_contra hn
        have := (ht2.pos (by omega)).1
        rw [hab] at this
        cases this
      have hsame := m2.same (by dsimp only; omega)
      subst hsame
      split at e
      · rename_i hr
        refine agrees_failed .never rfl ?_
        unfold mProcessAndPrint
        dsimp only
        rw [hcongr .never (.inl rfl), Res.ok_bind]
        dsimp only
        rw [if_neg (show ¬ Arrival.never.atProcessed = true by decide), if_pos hr]
        exact sOnError_ends e (.inr ⟨h1, h1.abort, rfl, rfl⟩) ⟨ht2.zero, ht2.pos⟩
      · rename_i hr
        have hr : r = 1 := by simpa using hr
        subst hr
        obtain ⟨ds, e2, e⟩ := Res.bind_eq_ok e
        have hm : ∀ b, mProcessAndPrint { E with arrival := fin b } C Y inp p.out p.err h p.world =
            mOnAbort { E with arrival := fin b } C Y (p.out ++ ds.map fun d => .digest d.1 d.2) p.err h1 W := fun b => by
          unfold mProcessAndPrint
          dsimp only
          rw [hcongr (fin b) (.inl (by cases b <;> rfl)), Res.ok_bind]
          dsimp only
          rw [if_neg (by cases b <;> decide), if_neg (by decide), e2, Res.ok_bind]
        rcases passLines_cases e with ⟨q3, ms, rfl, hms, m3, hq⟩ | ⟨q3, e, m3⟩
        · dsimp only at m3
          refine agrees_killed .never rfl hq (Tidy.moved (by exact ⟨ht.zero, ht.pos⟩) m3) fun x W' h => ?_
          have h : mProcessAndPrint { E with arrival := fin false } C Y inp p.out p.err _ p.world = .ok (x, W') := h
          rw [hm] at h
          rw [m3.out, m3.err]
          have := mOnAbort_prefix h
          refine ⟨List.IsPrefix.trans ?_ this.1, this.2⟩
          exact (List.prefix_append_right_inj _).mpr hms
        · dsimp only at m3
          have hl3 : Slot q3.var (some h1) := m3.slot (.inr ⟨h1, h1.abort, rfl, rfl⟩)
          have ht3 : Tidy q3 := Tidy.moved (by exact ⟨ht.zero, ht.pos⟩) m3
          obtain ⟨b, -, h2, h3, h4⟩ := sOnAbort_ends e hl3 ht3 (fun _ => by rw [m3.error]; rfl)
          refine ⟨fin b, by cases b <;> rfl, ?_, h3, fun h => by rw [h4 h]; rfl⟩
          dsimp only
          rw [hm, ← show q3.out = p.out ++ ds.map (fun d => Line.digest d.1 d.2) from m3.out, ← show q3.err = p.err from m3.err, ← show q3.world = W from m3.world]
          exact h2

theorem sOpenAndProcess_agrees {source : List Nat} {p : Proc M} {f : Fate M} {h : Handle} (e : sOpenAndProcess E C Y S source p = .ok f) (hv : p.var = .live h) (ht : Tidy p) (hz : p.handled = 0) :
    Agrees S (fun _ => True) (fun a => mOpenAndProcess { E with arrival := a } C Y source p.out p.err h p.world) f := by
  unfold sOpenAndProcess at e
  rw [hv] at e
  dsimp only at e
  have ht0 : Tidy { p with var := .live (openInput (E.files source).isSome h).2, error := decide ((openInput (E.files source).isSome h).1 ≠ 1) } := ⟨ht.zero, ht.pos⟩
  have hm : ∀ a : Arrival, a.atOpen = true → mOpenAndProcess { E with arrival := a } C Y source p.out p.err h p.world =
      mOnAbort { E with arrival := a } C Y p.out p.err (openInput (E.files source).isSome h).2 p.world := fun a ha => by
    unfold mOpenAndProcess
    dsimp only
    rw [if_pos ha]
    cases E.files source with
    | none => rfl
    | some inp => simp only [if_pos ha]; rfl
  rcases pass_cases e with ⟨q, rfl, m, hq⟩ | ⟨q, e, m, -, -⟩
  · exact agrees_killed .never trivial hq (ht0.moved m) fun x W' h => by rw [m.out, m.err]; exact mOpenAndProcess_prefix h
  have ht1 := ht0.moved m
  split at e
  · rename_i hab
    refine agrees_aborted .opening trivial rfl hab ?_ e (m.slot (.inr ⟨_, _, rfl, rfl⟩)) ht1
    rw [hm _ rfl, m.out, m.err, m.world]
  · rename_i hab
    have hz1 : q.handled = 0 := by
      by_contra hn
      have := (ht1.pos (by omega)).1
      exact hab this
    have hsame := m.same (by dsimp only; omega)
    subst hsame
    cases hf : E.files source with
    | none =>
      rw [hf] at e
      dsimp only at e
      refine agrees_failed .never trivial ?_
      unfold mOpenAndProcess
      dsimp only
      rw [hf]
      exact sOnError_ends e (.inr ⟨h, h.abort, rfl, rfl⟩) ⟨ht1.zero, ht1.pos⟩
    | some inp =>
      rw [hf] at e
      dsimp only at e
      obtain ⟨a, ha, h2, h3, h4⟩ := sProcessAndPrint_agrees e rfl ⟨ht1.zero, ht1.pos⟩ hz
      refine ⟨a, trivial, ?_, h3, h4⟩
      unfold mOpenAndProcess
      dsimp only
      rw [hf]
      dsimp only
      rw [if_neg (by simp [ha])]
      exact h2

theorem pass_unattached {pt : Point} {p : Proc M} {k : Proc M → Res (Fate M)} {f : Fate M} (e : pass S pt p k = .ok f) (hp : p.attached = false) : f = .killed p ∨ k p = .ok f := by
  rcases pass_cases e with ⟨q, h, m, -⟩ | ⟨q, h, m, -, -⟩
  · rw [m.detached hp] at h
    exact .inl h
  · rw [m.detached hp] at h
    exact .inr h

theorem mRunSource_prefix {o : Options} {source : List Nat} {out : List Line} {W W' : WorldOf M} {x : ExitM} (e : mRunSource E C Y o source out W = .ok (x, W')) : out <+: x.exit.out := by
  unfold mRunSource at e
  obtain ⟨⟨r, slot, W1⟩, -, e⟩ := Res.bind_eq_ok e
  dsimp only at e
  split at e
  · rw [mOnError_out e]
  · split at e
    · cases e
    · obtain ⟨⟨ok, h, err⟩, -, e⟩ := Res.bind_eq_ok e
      dsimp only at e
      split at e
      · rw [mOnError_out e]
      · obtain ⟨⟨ok, h, W2, err⟩, -, e⟩ := Res.bind_eq_ok e
        dsimp only at e
        split at e
        · rw [mOnError_out e]
        · exact (mOpenAndProcess_prefix e).1

theorem mRunSource_eq {o : Options} {source : List Nat} {out : List Line} {W W1 : WorldOf M} {r : Int} {slot : Option Handle} (e1 : sumInitialize E.tool C none W = .ok (r, slot, W1)) (a : Arrival) :
    mRunSource { E with arrival := a } C Y o source out W = (if r ≠ 1 then mOnError E C out [.createHandle] slot W1 else match (generalizing := false) slot with
      | none => .ub
      | some h => do
        let (ok, h, err) ← mApplyBufferSize E C o [] h
        if !ok then mOnError E C out err (some h) W1
        else do
          let (ok, h, W, err) ← mApplyDigests E C o err h W1
          if !ok then mOnError E C out err (some h) W
          else mOpenAndProcess { E with arrival := a } C Y source out (if signalAttach true Y.attach ≠ 1 then err ++ [.attach] else err) h W) := by
  unfold mRunSource
  dsimp only
  rw [e1, Res.ok_bind]
  cases slot <;> rfl

theorem sRunSource_agrees {o : Options} {source : List Nat} {p : Proc M} {f : Fate M} (e : sRunSource E C Y S o source p = .ok f) (ha : p.attached = false) (hv : p.var = .null) (her : p.err = [])
    (ht : Tidy p) (hz : p.handled = 0) : Agrees S (fun _ => True) (fun a => mRunSource { E with arrival := a } C Y o source p.out p.world) f := by
  unfold sRunSource at e
  rcases pass_unattached e ha with rfl | e
  · exact agrees_killed .never trivial ha ht fun x W h => ⟨mRunSource_prefix h, by rw [her]; exact List.nil_prefix⟩
  obtain ⟨⟨r, slot, W⟩, e1, e⟩ := Res.bind_eq_ok e
  dsimp only at e
  have hm := fun a => mRunSource_eq (E := E) (Y := Y) (o := o) (source := source) (out := p.out) e1 a
  simp only [hm]
  split at e
  · rename_i hr
    simp only [if_pos hr]
    refine agrees_failed .never trivial ?_
    have := sOnError_ends e (slot := slot) (by
      cases slot with
      | none => exact .inl ⟨rfl, rfl⟩
      | some h => exact .inr ⟨h, h.abort, rfl, rfl⟩) ⟨ht.zero, ht.pos⟩
    dsimp only at this
    rw [her] at this
    exact this
  rename_i hr
  simp only [if_neg hr]
  split at e
  · cases e
  rename_i h0
  dsimp only
  obtain ⟨⟨ok, h, err⟩, e2, e⟩ := Res.bind_eq_ok e
  rw [her] at e2
  simp only [e2, Res.ok_bind]
  dsimp only at e
  split at e
  · rename_i hok
    simp only [if_pos hok]
    exact agrees_failed .never trivial (sOnError_ends e (.inr ⟨h, h.abort, rfl, rfl⟩) ⟨ht.zero, ht.pos⟩)
  rename_i hok
  simp only [if_neg hok]
  obtain ⟨⟨ok2, h2, W2, err2⟩, e3, e⟩ := Res.bind_eq_ok e
  simp only [e3, Res.ok_bind]
  dsimp only at e
  split at e
  · rename_i hok
    simp only [if_pos hok]
    exact agrees_failed .never trivial (sOnError_ends e (.inr ⟨h2, h2.abort, rfl, rfl⟩) ⟨ht.zero, ht.pos⟩)
  rename_i hok2
  simp only [if_neg hok2]
  rcases pass_unattached e ha with rfl | e
  · refine agrees_killed .never trivial ha ⟨ht.zero, ht.pos⟩ fun x W h => ?_
    have := mOpenAndProcess_prefix h
    refine ⟨this.1, List.IsPrefix.trans ?_ this.2⟩
    split
    · exact List.prefix_append _ _
    · exact List.prefix_refl _
  split at e
  · rename_i hs
    simp only [if_pos hs]
    exact sOpenAndProcess_agrees e rfl ⟨ht.zero, ht.pos⟩ hz
  · rename_i hs
    simp only [if_neg hs]
    exact sOpenAndProcess_agrees e rfl ⟨ht.zero, ht.pos⟩ hz

theorem sHmacsum_agrees {args : List (List Nat)} {W : WorldOf M} {f : Fate M} (e : sHmacsum E C Y S args W = .ok f) :
    Agrees S (fun _ => True) (fun a => mHmacsum { E with arrival := a } C Y args W) f := by
  unfold sHmacsum at e
  have ht : ∀ p : Proc M, p.abort = false → p.stdin = true → p.handled = 0 → Tidy p := fun p h1 h2 h3 => ⟨fun _ => ⟨h1, h2⟩, fun h => by omega⟩
  rcases pass_unattached e rfl with rfl | e
  · exact agrees_killed .never trivial rfl (ht _ rfl rfl rfl) fun x W h => ⟨List.nil_prefix, List.nil_prefix⟩
  dsimp only at e
  have hm : ∀ a, mHmacsum { E with arrival := a } C Y args W = (if !E.localeOk then mOnError E C [] [.locale] none W
      else if outputInitialize 2 Y.bufferOut Y.bufferErr ≠ 1 then mOnError E C [] [.output] none W
      else do
        let (p, arg) ← mParseOptions E.mc args ((args.map List.length).sum + 1) ⟨none, none, false⟩ optInit
        match p with
        | .invalid => mOnError E C [.version, .usage] [.invalidArgument arg] none W
        | .help => pure (⟨⟨true, [.version, .usage]⟩, []⟩, W)
        | .version => pure (⟨⟨true, [.version, .copyright]⟩, []⟩, W)
        | .missing => mOnError E C [.version, .usage] [.missingSource] none W
        | .run o source => mRunSource { E with arrival := a } C Y o source [.version] W) := fun a => rfl
  simp only [hm]
  split at e
  · rename_i h
    simp only [if_pos h]
    exact agrees_failed .never trivial (sOnError_ends e (.inl ⟨rfl, rfl⟩) (ht _ rfl rfl rfl))
  rename_i h
  simp only [if_neg h]
  split at e
  · rename_i h
    simp only [if_pos h]
    exact agrees_failed .never trivial (sOnError_ends e (.inl ⟨rfl, rfl⟩) (ht _ rfl rfl rfl))
  rename_i h
  simp only [if_neg h]
  rcases pass_unattached e rfl with rfl | e
  · refine agrees_killed .never trivial rfl (ht _ rfl rfl rfl) fun x W' h => ⟨?_, List.nil_prefix⟩
    obtain ⟨⟨q, arg⟩, -, h⟩ := Res.bind_eq_ok h
    have hv : ∀ l : List Line, [Line.version] <+: .version :: l := fun l => ⟨l, rfl⟩
    cases q <;> dsimp only at h
    · exact mRunSource_prefix h
    · cases h; exact hv _
    · cases h; exact hv _
    · rw [mOnError_out h]; exact hv _
    · rw [mOnError_out h]; exact hv _
  obtain ⟨⟨q, arg⟩, e1, e⟩ := Res.bind_eq_ok e
  simp only [e1, Res.ok_bind]
  have told : ∀ l : List Line, pass S .told { attached := false, abort := false, stdin := true, error := false, var := .null, out := l, err := [], world := W, handled := 0, reads := 0 } (leave true) = .ok f →
      Agrees S (fun _ => True) (fun _ => pure (⟨⟨true, l⟩, []⟩, W)) f := fun l e => by
    rcases pass_unattached e rfl with rfl | e
    · refine agrees_killed .never trivial rfl (ht _ rfl rfl rfl) fun x W' h => ?_
      cases h
      exact ⟨List.prefix_refl _, List.prefix_refl _⟩
    · cases e
      exact ⟨.never, trivial, ⟨rfl, ht _ rfl rfl rfl, fun h => by cases h⟩, fun _ => .inl rfl, fun _ => rfl⟩
  cases q <;> dsimp only at e ⊢
  · exact sRunSource_agrees e rfl rfl rfl (ht _ rfl rfl rfl) rfl
  · exact told _ e
  · exact told _ e
  · exact agrees_failed .never trivial (sOnError_ends e (.inl ⟨rfl, rfl⟩) (ht _ rfl rfl rfl))
  · exact agrees_failed .never trivial (sOnError_ends e (.inl ⟨rfl, rfl⟩) (ht _ rfl rfl rfl))

/-! ### Exit status 0: no signal came -/

theorem pass_quiet {pt : Point} {p : Proc M} {k : Proc M → Res (Fate M)} {f : Fate M} (e : pass S pt p k = .ok f) (hf : f.succeeds) (hk : ∀ q, k q = .ok f → q.abort = false) : S.count pt = 0 ∧ k p = .ok f := by
  rcases pass_cases e with ⟨q, rfl, -, -⟩ | ⟨q, e, m, h1, h2⟩
  · exact hf.elim
  · have h0 : S.count pt = 0 := by
      by_contra hn
      have := (m.set (h1 (by omega)).1).1
      rw [hk q e] at this
      cases this
    rw [h2 h0] at e
    exact ⟨h0, e⟩

theorem pass_silent {pt : Point} {p : Proc M} {k : Proc M → Res (Fate M)} {f : Fate M} (e : pass S pt p k = .ok f) (hf : f.succeeds) (hp : p.attached = false) : S.count pt = 0 ∧ k p = .ok f := by
  rcases pass_cases e with ⟨q, rfl, -, -⟩ | ⟨q, e, m, h1, h2⟩
  · exact hf.elim
  · have h0 : S.count pt = 0 := by
      by_contra hn
      have := (h1 (by omega)).2
      rw [hp] at this
      cases this
    rw [h2 h0] at e
    exact ⟨h0, e⟩

theorem leave_fails {p : Proc M} {f : Fate M} (e : leave false p = .ok f) : ¬ f.succeeds := by
  cases e
  exact fun h => Bool.noConfusion h

theorem pass_fails {pt : Point} {p : Proc M} {k : Proc M → Res (Fate M)} {f : Fate M} (e : pass S pt p k = .ok f) (hk : ∀ q, k q = .ok f → ¬ f.succeeds) : ¬ f.succeeds := by
  rcases pass_cases e with ⟨q, rfl, -, -⟩ | ⟨q, e, -⟩
  · exact id
  · exact hk q e

theorem sOnError_fails {p : Proc M} {f : Fate M} (e : sOnError E C S p = .ok f) : ¬ f.succeeds := by
  refine pass_fails e fun q e => ?_
  split at e
  · exact pass_fails e fun _ e => leave_fails e
  · obtain ⟨⟨r, sl, W⟩, -, e⟩ := Res.bind_eq_ok e
    exact pass_fails e fun _ e => pass_fails e fun _ e => leave_fails e
  · cases e

/-- The last moments. -/
structure QuietEnd (Y : SystemCalls) (S : Signals) : Prop where
  closing : S.count .closing = 0
  detached : S.count .detached = 0
  freeing : S.count .freeing = 0
  ending : S.count .ending = 0
  last : Y.detach = true → S.count .last = 0

theorem sOnAbort_quiet {p : Proc M} {f : Fate M} (e : sOnAbort E C Y S p = .ok f) (hf : f.succeeds) : p.abort = false ∧ QuietEnd Y S ∧ ∃ x q, f = .exited x q ∧ x.exit.out = p.out ∧ q.reads = p.reads := by
  unfold sOnAbort at e
  split at e
  · exact absurd hf (sOnError_fails e)
  have h5 : ∀ q, (if q.abort = true then pass S .last { q with out := q.out ++ [.aborted] } (leave false) else pass S .last q (leave true)) = .ok f →
      q.abort = false ∧ (q.attached = false → S.count .last = 0) ∧ ∃ x q', f = .exited x q' ∧ x.exit.out = q.out ∧ q'.reads = q.reads := fun q e => by
    split at e
    · exact absurd hf (pass_fails e fun _ e => leave_fails e)
    · rename_i h
      refine ⟨by simpa using h, fun ha => (pass_silent e hf ha).1, ?_⟩
      rcases pass_cases e with ⟨q', rfl, -, -⟩ | ⟨q', e, m, -⟩
      · exact hf.elim
      · cases e
        exact ⟨_, q', rfl, m.out, m.reads⟩
  have h4 : ∀ (r : Int) (q : Proc M), (if r ≠ 1 then sOnError E C S { q with var := .null, err := q.err ++ [.freeHandle], error := true } else pass S .ending { q with var := .null } fun p =>
      if p.abort = true then pass S .last { p with out := p.out ++ [.aborted] } (leave false) else pass S .last p (leave true)) = .ok f →
      q.abort = false ∧ S.count .ending = 0 ∧ (q.attached = false → S.count .last = 0) ∧ ∃ x q', f = .exited x q' ∧ x.exit.out = q.out ∧ q'.reads = q.reads := fun r q e => by
    split at e
    · exact absurd hf (sOnError_fails e)
    · obtain ⟨h, e⟩ := pass_quiet e hf fun q e => (h5 q e).1
      exact ⟨(h5 _ e).1, h, (h5 _ e).2⟩
  have h3 : ∀ q : Proc M, (match q.var with
      | .live h => do
        let (r, _, W) ← sumFree C E.freeOk (some h) q.world
        pass S .freeing { q with var := .freed, world := W } fun p =>
          if r ≠ 1 then sOnError E C S { p with var := .null, err := p.err ++ [Message.freeHandle], error := true }
          else pass S .ending { p with var := .null } fun p =>
            if p.abort then pass S .last { p with out := p.out ++ [Line.aborted] } (leave false)
            else pass S .last p (leave true)
      | _ => .ub) = .ok f → q.abort = false ∧ S.count .freeing = 0 ∧ S.count .ending = 0 ∧ (q.attached = false → S.count .last = 0) ∧ ∃ x q', f = .exited x q' ∧ x.exit.out = q.out ∧ q'.reads = q.reads := fun q e => by
    split at e
    · obtain ⟨⟨r, sl, W⟩, -, e⟩ := Res.bind_eq_ok e
      obtain ⟨h, e⟩ := pass_quiet e hf fun q e => (h4 r q e).1
      obtain ⟨a, b, c⟩ := h4 r _ e
      exact ⟨a, h, b, c⟩
    · cases e
  obtain ⟨h1, e⟩ := pass_quiet e hf fun q e => by
    obtain ⟨-, e⟩ := pass_quiet e hf fun q e => (h3 q e).1
    have := (h3 _ e).1
    split at this <;> exact this
  obtain ⟨h2, e⟩ := pass_quiet e hf fun q e => (h3 q e).1
  obtain ⟨a, b, c, d, x, q, hx, ho, hr⟩ := h3 _ e
  refine ⟨by split at a <;> exact a, ⟨h1, h2, b, c, fun hd => d ?_⟩, x, q, hx, ?_, ?_⟩
  · rw [if_neg (by rw [hd]; decide)]
  · rw [ho]
    split <;> rfl
  · rw [hr]
    split <;> rfl

theorem passReads_quiet {k : Proc M → Res (Fate M)} {f : Fate M} : ∀ {n i : Nat} {p : Proc M}, passReads S i n p k = .ok f → f.succeeds → (∀ q, k q = .ok f → q.abort = false) →
    (∀ j, i ≤ j → j < i + n → S.count (.read j) = 0) ∧ k p = .ok f
  | 0, i, p, e, hf, hk => ⟨fun j h1 h2 => by omega, e⟩
  | n + 1, i, p, e, hf, hk => by
    obtain ⟨h, e⟩ := pass_quiet e hf fun q e => hk q ((passReads_quiet e hf hk).2)
    obtain ⟨h1, e⟩ := passReads_quiet e hf hk
    refine ⟨fun j h2 h3 => ?_, e⟩
    by_cases hj : j = i
    · rw [hj, h]
    · exact h1 j (by omega) (by omega)

theorem passLines_quiet {k : Proc M → Res (Fate M)} {f : Fate M} : ∀ {ls : List Line} {i : Nat} {p : Proc M}, passLines S i ls p k = .ok f → f.succeeds → (∀ q, k q = .ok f → q.abort = false) →
    p.abort = false ∧ (∀ j, i ≤ j → j ≤ i + ls.length → S.count (.printing j) = 0) ∧ ∃ q, k q = .ok f ∧ q.out = p.out ++ ls ∧ q.reads = p.reads
  | [], i, p, e, hf, hk => by
    obtain ⟨h, e⟩ := pass_quiet e hf hk
    refine ⟨hk p e, fun j h1 h2 => ?_, p, e, (List.append_nil _).symm, rfl⟩
    rw [show j = i by simp only [List.length_nil] at h2; omega, h]
  | l :: ls, i, p, e, hf, hk => by
    obtain ⟨h, e⟩ := pass_quiet e hf fun q e => (passLines_quiet e hf hk).1
    obtain ⟨h0, h1, q, e, ho, hrd⟩ := passLines_quiet e hf hk
    refine ⟨h0, fun j h2 h3 => ?_, q, e, by rw [ho]; exact List.append_assoc _ [l] ls, hrd⟩
    simp only [List.length_cons] at h3
    by_cases hj : j = i
    · rw [hj, h]
    · exact h1 j (by omega) (by omega)

/-- The moments of processing: the reads that were made, and the lines. -/
structure QuietRun (Y : SystemCalls) (S : Signals) (reads lines : Nat) : Prop where
  read : ∀ j, j ≤ reads → S.count (.read j) = 0
  processed : S.count .processed = 0
  printing : ∀ j, j ≤ lines → S.count (.printing j) = 0
  ends : QuietEnd Y S

theorem sProcessAndPrint_quiet {inp : Input} {p : Proc M} {f : Fate M} (e : sProcessAndPrint E C Y S inp p = .ok f) (hf : f.succeeds) :
    p.abort = false ∧ ∃ h aborted r h' W' ds, p.var = .live h ∧ processInput E.tool C inp aborted h p.world = .ok (r, h', W') ∧ (∀ n, n ≤ h'.readCount → aborted n = false) ∧ printHashes digestOrder h' = .ok ds ∧ QuietRun Y S h'.readCount ds.length ∧
      r = 1 ∧ ∃ x q, f = .exited x q ∧ x.exit.out = p.out ++ (ds.map fun d => .digest d.1 d.2) ∧ q.reads = h'.readCount := by
  unfold sProcessAndPrint at e
  split at e
  swap
  · cases e
  rename_i h hv
  obtain ⟨⟨r, h1, W⟩, e1, e⟩ := Res.bind_eq_ok e
  dsimp only at e
  have h3 : ∀ q : Proc M, (if q.abort = true then sOnAbort E C Y S q
      else if r ≠ 1 then sOnError E C S { q with err := q.err ++ [.processInput] }
      else match q.var with
        | .live h => do
          let ds ← printHashes digestOrder h
          passLines S 0 (ds.map fun d => .digest d.1 d.2) q (sOnAbort E C Y S)
        | _ => .ub) = .ok f → q.abort = false ∧ ∃ h ds, q.var = .live h ∧ printHashes digestOrder h = .ok ds ∧ (∀ j, j ≤ ds.length → S.count (.printing j) = 0) ∧ QuietEnd Y S ∧ r = 1 ∧
          ∃ x q', f = .exited x q' ∧ x.exit.out = q.out ++ (ds.map fun d => .digest d.1 d.2) ∧ q'.reads = q.reads := fun q e => by
    split at e
    · exact absurd (sOnAbort_quiet e hf).1 (by simpa)
    rename_i ha
    split at e
    · exact absurd hf (sOnError_fails e)
    rename_i hr
    split at e
    · rename_i h hv
      obtain ⟨ds, e2, e⟩ := Res.bind_eq_ok e
      obtain ⟨h1, h2, q', e, ho, hrd⟩ := passLines_quiet e hf fun q e => (sOnAbort_quiet e hf).1
      obtain ⟨-, h3, x, q2, hx, ho2, hrd2⟩ := sOnAbort_quiet e hf
      exact ⟨h1, h, ds, hv, e2, fun j hj => h2 j (by omega) (by simpa using hj), h3, by simpa using hr, x, q2, hx, ho2.trans ho, hrd2.trans hrd⟩
    · cases e
  obtain ⟨h4, e⟩ := passReads_quiet e hf fun q e => by
    obtain ⟨-, e⟩ := pass_quiet e hf fun q e => (h3 q e).1
    exact (h3 _ e).1
  obtain ⟨h5, e⟩ := pass_quiet e hf fun q e => (h3 q e).1
  obtain ⟨a, h2, ds, hv2, e2, h6, h7, hr, hx⟩ := h3 _ e
  cases hv2
  refine ⟨a, h, _, r, h1, W, ds, hv, e1, fun n hn => ?_, e2, ⟨fun j hj => h4 j (by omega) (by omega), h5, h6, h7⟩, hr, hx⟩
  have : ((List.range (n + 1)).any fun k => decide (0 < S.count (.read k))) = false := by
    rw [List.any_eq_false]
    intro k hk
    simp only [List.mem_range] at hk
    rw [h4 k (by omega) (by omega)]
    decide
  rw [this, Bool.and_false]

theorem sOpenAndProcess_quiet {source : List Nat} {p : Proc M} {f : Fate M} (e : sOpenAndProcess E C Y S source p = .ok f) (hf : f.succeeds) :
    p.abort = false ∧ S.count .opening = 0 ∧ ∃ inp h aborted r h' W' ds, E.files source = some inp ∧ p.var = .live h ∧ processInput E.tool C inp aborted (openInput true h).2 p.world = .ok (r, h', W') ∧ (∀ n, n ≤ h'.readCount → aborted n = false) ∧
      printHashes digestOrder h' = .ok ds ∧ QuietRun Y S h'.readCount ds.length ∧
      r = 1 ∧ ∃ x q, f = .exited x q ∧ x.exit.out = p.out ++ (ds.map fun d => .digest d.1 d.2) ∧ q.reads = h'.readCount := by
  unfold sOpenAndProcess at e
  split at e
  swap
  · cases e
  rename_i h hv
  have key : ∀ q : Proc M, (if q.abort = true then sOnAbort E C Y S q
      else match E.files source with
        | none => sOnError E C S { q with err := q.err ++ [.openInput] }
        | some inp => sProcessAndPrint E C Y S inp q) = .ok f → q.abort = false ∧ ∃ inp, E.files source = some inp ∧ sProcessAndPrint E C Y S inp q = .ok f := fun q e => by
    split at e
    · exact absurd (sOnAbort_quiet e hf).1 (by simpa)
    split at e
    · exact absurd hf (sOnError_fails e)
    · rename_i inp hi
      exact ⟨(sProcessAndPrint_quiet e hf).1, inp, hi, e⟩
  obtain ⟨h1, e⟩ := pass_quiet e hf fun q e => (key q e).1
  obtain ⟨h2, inp, hi, e⟩ := key _ e
  obtain ⟨-, h3, ab, r, h', W', ds, hv', e1, hab, e2, hq⟩ := sProcessAndPrint_quiet e hf
  cases hv'
  rw [hi] at e1
  exact ⟨h2, h1, inp, h, ab, r, h', W', ds, hi, hv, e1, hab, e2, hq⟩

theorem sRunSource_quiet {o : Options} {source : List Nat} {p : Proc M} {f : Fate M} (e : sRunSource E C Y S o source p = .ok f) (hf : f.succeeds) :
    p.abort = false ∧ S.count .create = 0 ∧ S.count .configured = 0 ∧ S.count .opening = 0 ∧ ∃ h0 W0 ok1 h1 err1 ok2 h2 W2 err2 inp aborted h3 W3 ds, sumInitialize E.tool C none p.world = .ok (1, some h0, W0) ∧
      mApplyBufferSize E C o p.err h0 = .ok (ok1, h1, err1) ∧ mApplyDigests E C o err1 h1 W0 = .ok (ok2, h2, W2, err2) ∧ ok2 = true ∧ E.files source = some inp ∧
      processInput E.tool C inp aborted (openInput true h2).2 W2 = .ok (1, h3, W3) ∧ (∀ n, n ≤ h3.readCount → aborted n = false) ∧ printHashes digestOrder h3 = .ok ds ∧ QuietRun Y S h3.readCount ds.length ∧
      ∃ x q, f = .exited x q ∧ x.exit.out = p.out ++ (ds.map fun d => .digest d.1 d.2) ∧ q.reads = h3.readCount := by
  have key : ∀ q : Proc M, (do
      let (r, slot, W) ← sumInitialize E.tool C none q.world
      if r ≠ 1 then sOnError E C S { q with world := W, var := Var.ofSlot slot, err := q.err ++ [Message.createHandle], error := true }
      else match slot with
        | none => .ub
        | some h => do
          let (ok, h, err) ← mApplyBufferSize E C o q.err h
          if !ok then sOnError E C S { q with world := W, var := .live h, err := err, error := true }
          else do
            let (ok, h, W, err) ← mApplyDigests E C o err h W
            if !ok then sOnError E C S { q with world := W, var := .live h, err := err, error := true }
            else pass S .configured { q with world := W, var := .live h, err := err } fun p =>
              sOpenAndProcess E C Y S source (if signalAttach true Y.attach ≠ 1 then { p with err := p.err ++ [Message.attach] } else { p with attached := true })) = .ok f →
      q.abort = false ∧ S.count .configured = 0 ∧ S.count .opening = 0 ∧ ∃ h0 W0 ok1 h1 err1 ok2 h2 W2 err2 inp aborted h3 W3 ds, sumInitialize E.tool C none q.world = .ok (1, some h0, W0) ∧
        mApplyBufferSize E C o q.err h0 = .ok (ok1, h1, err1) ∧ mApplyDigests E C o err1 h1 W0 = .ok (ok2, h2, W2, err2) ∧ ok2 = true ∧ E.files source = some inp ∧
        processInput E.tool C inp aborted (openInput true h2).2 W2 = .ok (1, h3, W3) ∧ (∀ n, n ≤ h3.readCount → aborted n = false) ∧ printHashes digestOrder h3 = .ok ds ∧ QuietRun Y S h3.readCount ds.length ∧
        ∃ x q', f = .exited x q' ∧ x.exit.out = q.out ++ (ds.map fun d => .digest d.1 d.2) ∧ q'.reads = h3.readCount := fun q e => by
    obtain ⟨⟨r, slot, W⟩, e1, e⟩ := Res.bind_eq_ok e
    dsimp only at e
    split at e
    · exact absurd hf (sOnError_fails e)
    rename_i hr
    have hr : r = 1 := by simpa using hr
    subst hr
    split at e
    · cases e
    rename_i h0
    obtain ⟨⟨ok1, h1, err1⟩, e2, e⟩ := Res.bind_eq_ok e
    dsimp only at e
    split at e
    · exact absurd hf (sOnError_fails e)
    obtain ⟨⟨ok2, h2, W2, err2⟩, e3, e⟩ := Res.bind_eq_ok e
    dsimp only at e
    split at e
    · exact absurd hf (sOnError_fails e)
    rename_i hok
    have at' : ∀ q : Proc M, (if signalAttach true Y.attach ≠ 1 then { q with err := q.err ++ [Message.attach] } else { q with attached := true }).abort = q.abort := fun q => by split <;> rfl
    obtain ⟨hc, e⟩ := pass_quiet e hf fun q e => by
      have := (sOpenAndProcess_quiet e hf).1
      rwa [at'] at this
    obtain ⟨ha, ho, inp, h, ab, r, h', W', ds, hi, hv, e4, hab, e5, hq, rfl, x, q', hx, hxo, hrd⟩ := sOpenAndProcess_quiet e hf
    rw [at'] at ha
    have hv : h2 = h := by split at hv <;> (cases hv; rfl)
    subst hv
    have e4 : processInput E.tool C inp ab (openInput true h2).2 W2 = .ok (1, h', W') := by
      rw [← e4]
      split <;> rfl
    refine ⟨ha, hc, ho, h0, W, ok1, h1, err1, ok2, h2, W2, err2, inp, ab, h', W', ds, e1, e2, e3, by simpa using hok, hi, e4, hab, e5, hq, x, q', hx, ?_, hrd⟩
    rw [hxo]
    split <;> rfl
  obtain ⟨h1, e⟩ := pass_quiet e hf fun q e => (key q e).1
  obtain ⟨h2, h3⟩ := key _ e
  exact ⟨h2, h1, h3⟩

theorem sHmacsum_quiet {args : List (List Nat)} {W : WorldOf M} {f : Fate M} (e : sHmacsum E C Y S args W = .ok f) (hf : f.succeeds) : S.count .begin = 0 ∧ S.count .parsing = 0 ∧
    ((S.count .told = 0 ∧ (∃ x q, f = .exited x q ∧ q.handled = 0) ∧ ∃ p arg, mParseOptions E.mc args ((args.map List.length).sum + 1) ⟨none, none, false⟩ optInit = .ok (p, arg) ∧
      (p = .help ∨ p = .version)) ∨ ∃ o source arg p, mParseOptions E.mc args ((args.map List.length).sum + 1) ⟨none, none, false⟩ optInit = .ok (.run o source, arg) ∧
      sRunSource E C Y S o source p = .ok f ∧ p.out = [.version] ∧ p.err = [] ∧ p.world = W) := by
  obtain ⟨h1, e⟩ := pass_silent e hf rfl
  dsimp only at e
  split at e
  · exact absurd hf (sOnError_fails e)
  split at e
  · exact absurd hf (sOnError_fails e)
  obtain ⟨h2, e⟩ := pass_silent e hf rfl
  obtain ⟨⟨q, arg⟩, e1, e⟩ := Res.bind_eq_ok e
  refine ⟨h1, h2, ?_⟩
  cases q <;> dsimp only at e
  · exact .inr ⟨_, _, _, _, e1, e, rfl, rfl, rfl⟩
  · obtain ⟨h3, e⟩ := pass_silent e hf rfl
    cases e
    exact .inl ⟨h3, ⟨_, _, rfl, rfl⟩, _, _, e1, .inl rfl⟩
  · obtain ⟨h3, e⟩ := pass_silent e hf rfl
    cases e
    exact .inl ⟨h3, ⟨_, _, rfl, rfl⟩, _, _, e1, .inr rfl⟩
  · exact absurd hf (sOnError_fails e)
  · exact absurd hf (sOnError_fails e)

end fits

end Model.Builds
