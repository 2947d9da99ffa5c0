import Verif.Proofs.SignalFileCalls
/-! The number of reads in the list of calls. -/

namespace Model.Builds

open Model
open Spec (Line FileCall readsOf)

variable {M : Type} {E : Environment} {C : Contexts M} {Y : SystemCalls} {S : Signals}

/-- The number of reads. -/
def readsIn (c : List FileCall) : Nat := (readsOf c).length

theorem readsIn_append (a b : List FileCall) : readsIn (a ++ b) = readsIn a + readsIn b := by
  unfold readsIn
  induction a with
  | nil => simp [readsOf]
  | cons c a ih => cases c <;> simp [readsOf, ih] <;> omega

theorem fReadInput_count {inp : Input} {size : Nat} {h h' : Handle} {d : Option (List Byte)} {c : List FileCall} (e : fReadInput C inp size h = (d, h', c)) : h'.readCount = h.readCount + readsIn c := by
  unfold fReadInput at e
  split at e
  · cases e
    rfl
  cases hr : inp.reads h.readCount with
  | none =>
    rw [hr] at e
    cases e
    rfl
  | some n =>
    rw [hr] at e
    cases e
    rfl

theorem updateIntegrity_readCount {buffer : List Byte} {size : Nat} {h h' : Handle} {W W' : WorldOf M} {r : Int} (e : updateIntegrity C buffer size h W = .ok (r, h', W')) : h'.readCount = h.readCount := by
  unfold updateIntegrity at e
  split at e
  · cases e
    rfl
  · exact updateHashes_readCount e

theorem initIntegrity_readCount {h h' : Handle} {W W' : WorldOf M} {r : Int} (e : initIntegrity C h W = .ok (r, h', W')) : h'.readCount = h.readCount := by
  obtain ⟨⟨r1, h1, W1⟩, e1, e⟩ := Res.bind_eq_ok e
  dsimp only at e
  split at e
  · cases e
    exact initHashes_readCount e1
  · obtain ⟨⟨h2, W2⟩, e2, e⟩ := Res.bind_eq_ok e
    obtain ⟨⟨h3, W3⟩, e3, e⟩ := Res.bind_eq_ok e
    cases e
    exact (freeHash_readCount e3).trans ((freeHash_readCount e2).trans (initHashes_readCount e1))

theorem processError_readCount {p : Nat} {h h' : Handle} {W W' : WorldOf M} {r : Int} (e : processError p h W = .ok (r, h', W')) : h'.readCount = h.readCount := by
  unfold processError at e
  obtain ⟨W1, -, e⟩ := Res.bind_eq_ok e
  cases e
  rfl

theorem fProcessLoop_count (inp : Input) (aborted : Nat → Bool) (size : Nat) : ∀ (fuel pc : Nat) (buffer : List Byte) (h : Handle) (W : WorldOf M) (calls : List FileCall) (ok : Bool) (h' : Handle) (W' : WorldOf M) (calls' : List FileCall),
    fProcessLoop C inp aborted size fuel pc buffer h W calls = .ok (ok, h', W', calls') → readsIn calls' + h.readCount = readsIn calls + h'.readCount
  | 0, pc, buffer, h, W, calls, ok, h', W', calls', e => by
    rw [fProcessLoop] at e
    split at e <;> cases e
    rfl
  | fuel + 1, pc, buffer, h, W, calls, ok, h', W', calls', e => by
    rw [fProcessLoop] at e
    split at e
    · dsimp only at e
      rcases hr : fReadInput C inp (if size - pc < h.bufferSize then (size - pc) % 2 ^ C.bits else h.bufferSize) h with ⟨_ | d, h1, c⟩
      · have hc := fReadInput_count hr
        simp only [hr] at e
        cases e
        rw [readsIn_append]
        omega
      · have hc := fReadInput_count hr
        simp only [hr] at e
        obtain ⟨b, -, e⟩ := Res.bind_eq_ok e
        split at e
        · cases e
          rw [readsIn_append]
          omega
        obtain ⟨⟨r, h2, W2⟩, e2, e⟩ := Res.bind_eq_ok e
        have hk := updateIntegrity_readCount e2
        dsimp only at e
        split at e
        · cases e
          rw [readsIn_append]
          omega
        split at e
        · cases e
          rw [readsIn_append]
          dsimp only
          omega
        · have ih := fProcessLoop_count inp aborted size fuel _ _ _ _ _ _ _ _ _ e
          rw [readsIn_append] at ih
          dsimp only at ih
          omega
    · cases e
      rfl

theorem fProcessInput_count {T : Tool} {inp : Input} {aborted : Nat → Bool} {h h' : Handle} {W W' : WorldOf M} {calls calls' : List FileCall} {r : Int} (e : fProcessInput T C inp aborted h W calls = .ok (r, h', W', calls')) :
    readsIn calls' + h.readCount = readsIn calls + h'.readCount := by
  have one : ∀ s, readsIn (calls ++ [.size s]) = readsIn calls := fun s => readsIn_append ..
  unfold fProcessInput at e
  split at e
  · cases e
    rfl
  cases hsz : inp.size with
  | none =>
    rw [hsz] at e
    cases e
    rw [one]
  | some n =>
    rw [hsz] at e
    dsimp only at e
    rcases hal : allocBlock T C W with ⟨_ | p, W1⟩
    · rw [hal] at e
      cases e
      rw [one]
    rw [hal] at e
    dsimp only at e
    obtain ⟨⟨r1, h1, W2⟩, e1, e⟩ := Res.bind_eq_ok e
    have hk := initIntegrity_readCount e1
    dsimp only at e
    split at e
    · obtain ⟨⟨r2, h2, W3⟩, e2, e⟩ := Res.bind_eq_ok e
      have := processError_readCount e2
      cases e
      rw [one]
      dsimp only
      omega
    obtain ⟨⟨ok, h2, W3, c⟩, e2, e⟩ := Res.bind_eq_ok e
    have hl := fProcessLoop_count _ _ _ _ _ _ _ _ _ _ _ _ _ e2
    rw [one] at hl
    dsimp only at e
    split at e
    · obtain ⟨⟨r3, h3, W4⟩, e3, e⟩ := Res.bind_eq_ok e
      have := processError_readCount e3
      cases e
      dsimp only
      omega
    · obtain ⟨W4, -, e⟩ := Res.bind_eq_ok e
      obtain ⟨⟨r3, h3, W5⟩, e3, e⟩ := Res.bind_eq_ok e
      have := finalizeHashes_readCount e3
      dsimp only at e
      split at e <;> cases e <;> omega

/-- A process that ends by itself has made as many reads as are in the list. -/
def Counted (f : Fate M) (c : List FileCall) : Prop := ∀ x q, f = .exited x q → q.reads = readsIn c

theorem gPass_counted {pt : Point} {p : Proc M} {calls c : List FileCall} {k : Proc M → Res (Fate M × List FileCall)} {f : Fate M} (e : gPass S pt p calls k = .ok (f, c)) (hk : ∀ q, k q = .ok (f, c) → q.reads = p.reads → Counted f c) : Counted f c := by
  rcases gPass_cases e with ⟨q, rfl, rfl⟩ | ⟨q, e, m, -⟩
  · intro x q h
    cases h
  · exact hk q e m.reads

theorem gPassReads_counted {calls c : List FileCall} {k : Proc M → Res (Fate M × List FileCall)} {f : Fate M} : ∀ {n i : Nat} {p : Proc M}, gPassReads S calls i n p k = .ok (f, c) → (∀ q, k q = .ok (f, c) → q.reads = p.reads → Counted f c) → Counted f c
  | 0, _, p, e, hk => hk p e rfl
  | _ + 1, _, _, e, hk => gPass_counted e fun _ e hr => gPassReads_counted e fun q e h => hk q e (h.trans hr)

theorem gPassLines_counted {calls c : List FileCall} {k : Proc M → Res (Fate M × List FileCall)} {f : Fate M} : ∀ {ls : List Line} {i : Nat} {p : Proc M}, gPassLines S calls i ls p k = .ok (f, c) → (∀ q, k q = .ok (f, c) → q.reads = p.reads → Counted f c) →
    Counted f c
  | [], _, _, e, hk => gPass_counted e hk
  | _ :: _, _, _, e, hk => gPass_counted e fun _ e hr => gPassLines_counted e fun q e h => hk q e (h.trans hr)

theorem gLeave_counted {b : Bool} {calls c : List FileCall} {p : Proc M} {f : Fate M} (e : gLeave b calls p = .ok (f, c)) (hp : p.reads = readsIn calls) : Counted f c := by
  cases e
  intro x q h
  cases h
  exact hp

theorem gOnError_counted {calls c : List FileCall} {p : Proc M} {f : Fate M} (e : gOnError E C S calls p = .ok (f, c)) (hp : p.reads = readsIn calls) : Counted f c := by
  refine gPass_counted e fun q e hq => ?_
  cases hv : q.var with
  | null =>
    rw [hv] at e
    exact gPass_counted e fun _ e h => gLeave_counted e (h.trans (hq.trans hp))
  | live h =>
    rw [hv] at e
    obtain ⟨⟨r, sl, W⟩, -, e⟩ := Res.bind_eq_ok e
    exact gPass_counted e fun _ e h1 => gPass_counted e fun _ e h2 => gLeave_counted e (by
      rw [readsIn_append]
      exact h2.trans (h1.trans (hq.trans hp)))
  | freed =>
    rw [hv] at e
    cases e

theorem gOnAbort_counted {calls c : List FileCall} {p : Proc M} {f : Fate M} (e : gOnAbort E C Y S calls p = .ok (f, c)) (hp : p.reads = readsIn calls) : Counted f c := by
  have hcl : readsIn (calls ++ [.close E.closeOk]) = readsIn calls := readsIn_append ..
  unfold gOnAbort at e
  split at e
  · exact gOnError_counted e (by rw [hcl]; exact hp)
  refine gPass_counted e fun q e hq => gPass_counted e fun q1 e hq1 => ?_
  have hq1 : q1.reads = readsIn calls := hq1.trans (by split <;> exact hq.trans hp)
  cases hv1 : q1.var with
  | null => rw [hv1] at e; cases e
  | freed => rw [hv1] at e; cases e
  | live g =>
    rw [hv1] at e
    obtain ⟨⟨r, sl, W⟩, -, e⟩ := Res.bind_eq_ok e
    have hfr : readsIn (calls ++ [.close E.closeOk] ++ freeCalls E.freeOk (some g)) = readsIn calls := by
      rw [readsIn_append, hcl]
      rfl
    refine gPass_counted e fun q2 e hq2 => ?_
    have hq2 : q2.reads = readsIn (calls ++ [.close E.closeOk] ++ freeCalls E.freeOk (some g)) := by
      rw [hfr]
      exact hq2.trans hq1
    split at e
    · exact gOnError_counted e hq2
    refine gPass_counted e fun q3 e hq3 => ?_
    split at e <;> exact gPass_counted e fun q4 e hq4 => gLeave_counted e (hq4.trans (hq3.trans hq2))

theorem gProcessAndPrint_counted {inp : Input} {calls c : List FileCall} {p : Proc M} {f : Fate M} {h : Handle} (hv : p.var = .live h) (h0 : h.readCount = readsIn calls) (e : gProcessAndPrint E C Y S inp calls p = .ok (f, c)) : Counted f c := by
  unfold gProcessAndPrint at e
  rw [hv] at e
  obtain ⟨⟨r, h1, W, calls1⟩, e1, e⟩ := Res.bind_eq_ok e
  have hc := fProcessInput_count e1
  have hc : h1.readCount = readsIn calls1 := by omega
  refine gPassReads_counted e fun q e hq => gPass_counted e fun q1 e hq1 => ?_
  have hq1 : q1.reads = readsIn calls1 := hq1.trans (hq.trans hc)
  split at e
  · exact gOnAbort_counted e hq1
  split at e
  · exact gOnError_counted e hq1
  cases hv1 : q1.var with
  | null => rw [hv1] at e; cases e
  | freed => rw [hv1] at e; cases e
  | live g =>
    rw [hv1] at e
    obtain ⟨ds, -, e⟩ := Res.bind_eq_ok e
    exact gPassLines_counted e fun q2 e hq2 => gOnAbort_counted e (hq2.trans hq1)

theorem gOpenAndProcess_counted {source : List Nat} {c : List FileCall} {p : Proc M} {f : Fate M} {h : Handle} (hv : p.var = .live h) (h0 : h.readCount = 0) (hr : p.reads = 0)
    (e : gOpenAndProcess E C Y S source [.create true] p = .ok (f, c)) : Counted f c := by
  unfold gOpenAndProcess at e
  rw [hv] at e
  dsimp only at e
  rcases gPass_cases e with ⟨q, rfl, rfl⟩ | ⟨q, e, m, -⟩
  · intro x q h
    cases h
  have hq : q.reads = 0 := m.reads.trans hr
  obtain ⟨b, hv⟩ := m.live _ rfl
  split at e
  · exact gOnAbort_counted e hq
  cases hs : E.files source with
  | none =>
    rw [hs] at e
    exact gOnError_counted e hq
  | some inp =>
    rw [hs] at e hv
    exact gProcessAndPrint_counted (calls := [.create true, .open source true]) hv h0 e

theorem gRunSource_counted {o : Options} {source : List Nat} {c : List FileCall} {p : Proc M} {f : Fate M} (hr : p.reads = 0) (e : gRunSource E C Y S o source p = .ok (f, c)) : Counted f c := by
  refine gPass_counted e fun q e hq => ?_
  have hq : q.reads = 0 := hq.trans hr
  obtain ⟨⟨r, slot, W1, calls⟩, e1, e⟩ := Res.bind_eq_ok e
  dsimp only at e
  have e1' : sumInitialize E.tool C none q.world = .ok (r, slot, W1) := by
    rw [← fSumInitialize_erase, e1]
    rfl
  rcases fSumInitialize_calls e1 with ⟨rfl, rfl, hc⟩ | ⟨h, rfl, ha, rfl, rfl⟩
  · rw [if_pos (by decide)] at e
    exact gOnError_counted e (by rcases hc with rfl | rfl | rfl <;> exact hq)
  rw [if_neg (by decide)] at e
  have k0 := sumInitialize_readCount e1'
  obtain ⟨⟨ok, h1, err⟩, e2, e⟩ := Res.bind_eq_ok e
  have k1 := mApplyBufferSize_readCount e2
  dsimp only at e
  split at e
  · exact gOnError_counted e hq
  obtain ⟨⟨ok, h2, W2, err2⟩, e3, e⟩ := Res.bind_eq_ok e
  have k2 := mApplyDigests_readCount e3
  dsimp only at e
  split at e
  · exact gOnError_counted e hq
  rcases gPass_cases e with ⟨q, rfl, rfl⟩ | ⟨q1, e, m, -⟩
  · intro x q h
    cases h
  obtain ⟨b, hv⟩ := m.live _ rfl
  refine gOpenAndProcess_counted (h := h2.withAbort b) ?_ (k2.trans (k1.trans k0)) ?_ e
  · split <;> exact hv
  · split <;> exact m.reads.trans hq

theorem gHmacsum_counted {args : List (List Nat)} {W : WorldOf M} {f : Fate M} {c : List FileCall} (e : gHmacsum E C Y S args W = .ok (f, c)) : Counted f c := by
  refine gPass_counted e fun q e hq => ?_
  split at e
  · exact gOnError_counted e hq
  split at e
  · exact gOnError_counted e hq
  refine gPass_counted e fun q1 e hq1 => ?_
  have hq1 : q1.reads = 0 := hq1.trans hq
  obtain ⟨⟨r, arg⟩, -, e⟩ := Res.bind_eq_ok e
  cases r with
  | run o source => exact gRunSource_counted hq1 e
  | help => exact gPass_counted e fun q e h => gLeave_counted e (h.trans hq1)
  | version => exact gPass_counted e fun q e h => gLeave_counted e (h.trans hq1)
  | invalid => exact gOnError_counted e hq1
  | missing => exact gOnError_counted e hq1

end Model.Builds
