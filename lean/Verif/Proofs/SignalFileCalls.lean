import Verif.Model.SignalFileCalls
import Verif.Proofs.FileCalls
import Verif.Proofs.BuildsSignalMain
/-! The calls that hmacsum makes of libcfile, with signals at any moment. -/

namespace Model.Builds

open Model
open Spec (Kind Line Message FileCall ReadsWithin bytesRead)

variable {M : Type} {E : Environment} {C : Contexts M} {Y : SystemCalls} {S : Signals}

/-! ### Without the list of calls it is the same program -/

/-- Without the calls. -/
def gErase (r : Res (Fate M × List FileCall)) : Res (Fate M) := r >>= fun y => pure y.1

theorem gErase_bind {α} (x : Res α) (f : α → Res (Fate M × List FileCall)) : gErase (x >>= f) = x >>= fun a => gErase (f a) := by cases x <;> rfl

theorem gPass_erase {pt : Point} {p : Proc M} {calls : List FileCall} {k : Proc M → Res (Fate M × List FileCall)} {k' : Proc M → Res (Fate M)} (hk : ∀ q, gErase (k q) = k' q) : gErase (gPass S pt p calls k) = pass S pt p k' := by
  unfold gPass pass
  rw [gErase_bind]
  refine Res.bind_same fun a => ?_
  obtain ⟨dead, q⟩ := a
  cases dead
  · exact hk q
  · rfl

theorem gPassReads_erase {calls : List FileCall} {k : Proc M → Res (Fate M × List FileCall)} {k' : Proc M → Res (Fate M)} (hk : ∀ q, gErase (k q) = k' q) : ∀ (n i : Nat) (p : Proc M),
    gErase (gPassReads S calls i n p k) = passReads S i n p k'
  | 0, _, p => hk p
  | n + 1, _, _ => gPass_erase fun _ => gPassReads_erase hk n _ _

theorem gPassLines_erase {calls : List FileCall} {k : Proc M → Res (Fate M × List FileCall)} {k' : Proc M → Res (Fate M)} (hk : ∀ q, gErase (k q) = k' q) : ∀ (ls : List Line) (i : Nat) (p : Proc M),
    gErase (gPassLines S calls i ls p k) = passLines S i ls p k'
  | [], _, _ => gPass_erase hk
  | _ :: ls, _, _ => gPass_erase fun _ => gPassLines_erase hk ls _ _

theorem gOnError_erase (calls : List FileCall) (p : Proc M) : gErase (gOnError E C S calls p) = sOnError E C S p := by
  refine gPass_erase fun q => ?_
  cases q.var with
  | null => exact gPass_erase fun _ => rfl
  | live h =>
    dsimp only
    rw [gErase_bind]
    exact Res.bind_same fun a => gPass_erase fun _ => gPass_erase fun _ => rfl
  | freed => rfl

theorem gOnAbort_erase (calls : List FileCall) (p : Proc M) : gErase (gOnAbort E C Y S calls p) = sOnAbort E C Y S p := by
  unfold gOnAbort sOnAbort
  split
  · exact gOnError_erase ..
  refine gPass_erase fun q => gPass_erase fun q => ?_
  cases q.var with
  | null => rfl
  | freed => rfl
  | live h =>
    dsimp only
    rw [gErase_bind]
    refine Res.bind_same fun a => gPass_erase fun q => ?_
    split
    · exact gOnError_erase ..
    refine gPass_erase fun q => ?_
    split <;> exact gPass_erase fun _ => rfl

theorem gProcessAndPrint_erase (inp : Input) (calls : List FileCall) (p : Proc M) : gErase (gProcessAndPrint E C Y S inp calls p) = sProcessAndPrint E C Y S inp p := by
  unfold gProcessAndPrint sProcessAndPrint
  cases p.var with
  | null => rfl
  | freed => rfl
  | live h =>
    dsimp only
    rw [gErase_bind, ← fProcessInput_erase E.tool inp _ h p.world calls, Res.bind_assoc]
    refine Res.bind_same fun a => ?_
    obtain ⟨r, h, W, c⟩ := a
    simp only [Res.pure_eq, Res.ok_bind]
    refine gPassReads_erase (fun q => gPass_erase fun q => ?_) _ _ _
    split
    · exact gOnAbort_erase ..
    split
    · exact gOnError_erase ..
    cases q.var with
    | null => rfl
    | freed => rfl
    | live h =>
      dsimp only
      rw [gErase_bind]
      exact Res.bind_same fun a => gPassLines_erase (fun q => gOnAbort_erase ..) _ _ _

theorem gOpenAndProcess_erase (source : List Nat) (calls : List FileCall) (p : Proc M) : gErase (gOpenAndProcess E C Y S source calls p) = sOpenAndProcess E C Y S source p := by
  unfold gOpenAndProcess sOpenAndProcess
  cases p.var with
  | null => rfl
  | freed => rfl
  | live h =>
    refine gPass_erase fun q => ?_
    split
    · exact gOnAbort_erase ..
    cases E.files source with
    | none => exact gOnError_erase ..
    | some inp => exact gProcessAndPrint_erase ..

theorem gRunSource_erase (o : Options) (source : List Nat) (p : Proc M) : gErase (gRunSource E C Y S o source p) = sRunSource E C Y S o source p := by
  refine gPass_erase fun q => ?_
  rw [gErase_bind, ← fSumInitialize_erase, Res.bind_assoc]
  refine Res.bind_same fun a => ?_
  obtain ⟨r, slot, W, c⟩ := a
  simp only [Res.pure_eq, Res.ok_bind]
  split
  · exact gOnError_erase ..
  cases slot with
  | none => rfl
  | some h =>
    dsimp only
    rw [gErase_bind]
    refine Res.bind_same fun b => ?_
    obtain ⟨ok, h, err⟩ := b
    dsimp only
    split
    · exact gOnError_erase ..
    rw [gErase_bind]
    refine Res.bind_same fun b => ?_
    obtain ⟨ok, h, W, err⟩ := b
    dsimp only
    split
    · exact gOnError_erase ..
    · exact gPass_erase fun _ => gOpenAndProcess_erase ..

theorem gHmacsum_erase (args : List (List Nat)) (W : WorldOf M) : gErase (gHmacsum E C Y S args W) = sHmacsum E C Y S args W := by
  refine gPass_erase fun q => ?_
  split
  · exact gOnError_erase ..
  split
  · exact gOnError_erase ..
  refine gPass_erase fun q => ?_
  rw [gErase_bind]
  refine Res.bind_same fun b => ?_
  obtain ⟨r, arg⟩ := b
  cases r with
  | run o source => exact gRunSource_erase ..
  | help => exact gPass_erase fun _ => rfl
  | version => exact gPass_erase fun _ => rfl
  | invalid => exact gOnError_erase ..
  | missing => exact gOnError_erase ..

/-! ### The calls -/

theorem gPass_cases {pt : Point} {p : Proc M} {calls c : List FileCall} {k : Proc M → Res (Fate M × List FileCall)} {f : Fate M} (e : gPass S pt p calls k = .ok (f, c)) :
    (∃ q, f = .killed q ∧ c = calls) ∨ (∃ q, k q = .ok (f, c) ∧ Moved p q ∧ (0 < S.count pt → p.handled < q.handled ∧ p.attached = true) ∧ (S.count pt = 0 → q = p)) := by
  obtain ⟨⟨dead, q⟩, e1, e⟩ := Res.bind_eq_ok e
  obtain ⟨m, d1, d2, d3⟩ := deliver_moved _ _ _ _ _ e1
  cases dead with
  | true =>
    cases e
    exact .inl ⟨q, rfl, rfl⟩
  | false => exact .inr ⟨q, e, m, fun h => ⟨(d2 rfl h).2, (d2 rfl h).1⟩, d3⟩

theorem gPassReads_cases {calls c : List FileCall} {k : Proc M → Res (Fate M × List FileCall)} {f : Fate M} : ∀ {n i : Nat} {p : Proc M}, gPassReads S calls i n p k = .ok (f, c) →
    (∃ q, f = .killed q ∧ c = calls) ∨ (∃ q, k q = .ok (f, c) ∧ Moved p q ∧ (∀ j, i ≤ j → j < i + n → 0 < S.count (.read j) → p.handled < q.handled))
  | 0, i, p, e => .inr ⟨p, e, .refl p, fun j h1 h2 => by omega⟩
  | n + 1, i, p, e => by
    rcases gPass_cases e with h | ⟨q, e, m, hc, -⟩
    · exact .inl h
    · rcases gPassReads_cases e with h | ⟨r, e, m2, hc2⟩
      · exact .inl h
      · refine .inr ⟨r, e, m.trans m2, fun j h1 h2 hj => ?_⟩
        have h3 := m.handled
        have h4 := m2.handled
        by_cases hij : j = i
        · subst hij
          have := (hc hj).1
          omega
        · have := hc2 j (by omega) (by omega) hj
          omega

theorem gPassLines_cases {calls c : List FileCall} {k : Proc M → Res (Fate M × List FileCall)} {f : Fate M} : ∀ {ls : List Line} {i : Nat} {p : Proc M}, gPassLines S calls i ls p k = .ok (f, c) →
    (∃ q, f = .killed q ∧ c = calls) ∨ (∃ q, k q = .ok (f, c) ∧ ∀ h, p.var = .live h → ∃ b, q.var = .live (h.withAbort b))
  | [], i, p, e => by
    rcases gPass_cases e with h | ⟨q, e, m, -⟩
    · exact .inl h
    · exact .inr ⟨q, e, m.live⟩
  | l :: ls, i, p, e => by
    rcases gPass_cases e with h | ⟨q, e, m, -⟩
    · exact .inl h
    · rcases gPassLines_cases e with h | ⟨r, e, m2⟩
      · exact .inl h
      · refine .inr ⟨r, e, fun h hv => ?_⟩
        obtain ⟨b, hq⟩ := m.live h hv
        obtain ⟨b', hr⟩ := m2 (h.withAbort b) hq
        exact ⟨b', hr⟩

/-- The process ends by itself. -/
def Fate.ends : Fate M → Prop
  | .exited _ _ => True
  | .killed _ => False

theorem gLeave_false {calls c : List FileCall} {p : Proc M} {f : Fate M} (e : gLeave false calls p = .ok (f, c)) : ¬ f.succeeds ∧ c = calls := by
  cases e
  exact ⟨fun h => Bool.noConfusion h, rfl⟩

/-- After an error: the object is freed if there is one, unless the process is killed before. -/
theorem gOnError_calls {calls c : List FileCall} {p : Proc M} {f : Fate M} (e : gOnError E C S calls p = .ok (f, c)) :
    ¬ f.succeeds ∧ (p.var = .null → c = calls) ∧ (∀ h, p.var = .live h → c = calls ++ [.free E.freeOk] ∨ c = calls ∧ ¬ f.ends) := by
  rcases gPass_cases e with ⟨q, rfl, rfl⟩ | ⟨q, e, m, -⟩
  · exact ⟨id, fun _ => rfl, fun _ _ => .inr ⟨rfl, id⟩⟩
  cases hv : q.var with
  | null =>
    rw [hv] at e
    have hc : ¬ f.succeeds ∧ c = calls := by
      rcases gPass_cases e with ⟨q, rfl, rfl⟩ | ⟨q, e, -⟩
      · exact ⟨id, rfl⟩
      · exact gLeave_false e
    refine ⟨hc.1, fun _ => hc.2, fun h hp => ?_⟩
    obtain ⟨b, hb⟩ := m.live h hp
    rw [hv] at hb
    cases hb
  | live h =>
    rw [hv] at e
    obtain ⟨⟨r, sl, W⟩, -, e⟩ := Res.bind_eq_ok e
    have hc : ¬ f.succeeds ∧ c = calls ++ [.free E.freeOk] := by
      rcases gPass_cases e with ⟨q, rfl, rfl⟩ | ⟨q, e, -⟩
      · exact ⟨id, rfl⟩
      rcases gPass_cases e with ⟨q, rfl, rfl⟩ | ⟨q, e, -⟩
      · exact ⟨id, rfl⟩
      · exact gLeave_false e
    refine ⟨hc.1, fun hp => ?_, fun _ _ => .inl hc.2⟩
    have := m.null hp
    rw [hv] at this
    cases this
  | freed =>
    rw [hv] at e
    cases e

/-- At the end: the file is closed, then the object is freed, unless the process is killed before. -/
theorem gOnAbort_calls {calls c : List FileCall} {p : Proc M} {f : Fate M} {h : Handle} (hv : p.var = .live h) (e : gOnAbort E C Y S calls p = .ok (f, c)) :
    (c = calls ++ [.close E.closeOk, .free E.freeOk] ∨ c = calls ++ [.close E.closeOk] ∧ ¬ f.ends) ∧ (f.succeeds → E.closeOk = true ∧ E.freeOk = true ∧ p.abort = false ∧ c = calls ++ [.close E.closeOk, .free E.freeOk]) := by
  unfold gOnAbort at e
  split at e
  · obtain ⟨h1, -, h3⟩ := gOnError_calls e
    refine ⟨?_, fun q => absurd q h1⟩
    rcases h3 h hv with h | h
    · exact .inl (by rw [h, List.append_assoc]; rfl)
    · exact .inr h
  rename_i hc
  have hc : E.closeOk = true := by
    revert hc
    cases E.closeOk <;> decide
  rcases gPass_cases e with ⟨q, rfl, rfl⟩ | ⟨q, e, m, -⟩
  · exact ⟨.inr ⟨rfl, id⟩, False.elim⟩
  rcases gPass_cases e with ⟨q, rfl, rfl⟩ | ⟨q1, e, m1, -⟩
  · exact ⟨.inr ⟨rfl, id⟩, False.elim⟩
  have hab : p.abort = true → q1.abort = true := fun h => m1.abort (by split <;> exact m.abort h)
  cases hv1 : q1.var with
  | null => rw [hv1] at e; cases e
  | freed => rw [hv1] at e; cases e
  | live g =>
    rw [hv1] at e
    obtain ⟨⟨r, sl, W⟩, e1, e⟩ := Res.bind_eq_ok e
    obtain ⟨-, hr⟩ := sumFree_end e1
    have hl : calls ++ [.close E.closeOk] ++ freeCalls E.freeOk (some g) = calls ++ [.close E.closeOk, .free E.freeOk] := by simp [freeCalls]
    dsimp only at e
    rw [hl] at e
    rcases gPass_cases e with ⟨q, rfl, rfl⟩ | ⟨q2, e, m2, -⟩
    · exact ⟨.inl rfl, False.elim⟩
    split at e
    · obtain ⟨h1, h2, -⟩ := gOnError_calls e
      exact ⟨.inl (h2 rfl), fun q => absurd q h1⟩
    rename_i hr1
    have hfo := hr (by simpa using hr1)
    rcases gPass_cases e with ⟨q, rfl, rfl⟩ | ⟨q3, e, m3, -⟩
    · exact ⟨.inl rfl, False.elim⟩
    split at e
    · rcases gPass_cases e with ⟨q, rfl, rfl⟩ | ⟨q, e, -⟩
      · exact ⟨.inl rfl, False.elim⟩
      · obtain ⟨h1, h2⟩ := gLeave_false e
        exact ⟨.inl h2, fun q => absurd q h1⟩
    · rename_i hq3
      have hp : p.abort = false := by
        by_contra hn
        exact hq3 (m3.abort (m2.abort (hab (by simpa using hn))))
      rcases gPass_cases e with ⟨q, rfl, rfl⟩ | ⟨q, e, -⟩
      · exact ⟨.inl rfl, False.elim⟩
      · cases e
        exact ⟨.inl rfl, fun _ => ⟨hc, hfo, hp, rfl⟩⟩

/-- What follows the processing of an open file. -/
def Closing (E : Environment) (f : Fate M) (u : List FileCall) : Prop :=
  (u = [.free E.freeOk] ∨ u = [.close E.closeOk, .free E.freeOk] ∨ (u = [] ∨ u = [.close E.closeOk]) ∧ ¬ f.ends) ∧ (f.succeeds → u = [.close true, .free true])

theorem Closing.abort {calls c : List FileCall} {p : Proc M} {f : Fate M} {h : Handle} (hv : p.var = .live h) (e : gOnAbort E C Y S calls p = .ok (f, c)) : ∃ u, c = calls ++ u ∧ Closing E f u ∧ (f.succeeds → p.abort = false) := by
  obtain ⟨h1, h2⟩ := gOnAbort_calls hv e
  rcases h1 with h | ⟨h, hk⟩
  · refine ⟨_, h, ⟨.inr (.inl rfl), fun q => ?_⟩, fun q => (h2 q).2.2.1⟩
    obtain ⟨a, b, -⟩ := h2 q
    rw [a, b]
  · refine ⟨_, h, ⟨.inr (.inr ⟨.inr rfl, hk⟩), fun q => ?_⟩, fun q => (h2 q).2.2.1⟩
    have := (h2 q).2.2.2
    rw [h] at this
    simp at this

theorem Closing.error {calls c : List FileCall} {p : Proc M} {f : Fate M} {h : Handle} (e : gOnError E C S calls p = .ok (f, c)) (hv : p.var = .live h) : ∃ u, c = calls ++ u ∧ Closing E f u ∧ ¬ f.succeeds := by
  obtain ⟨h1, -, h3⟩ := gOnError_calls e
  rcases h3 h hv with h | ⟨h, hk⟩
  · exact ⟨_, h, ⟨.inl rfl, fun q => absurd q h1⟩, h1⟩
  · exact ⟨[], by rw [h]; simp, ⟨.inr (.inr ⟨.inl rfl, hk⟩), fun q => absurd q h1⟩, h1⟩

theorem Closing.killed (q : Proc M) : Closing E (.killed q) [] := ⟨.inr (.inr ⟨.inl rfl, id⟩), False.elim⟩

theorem gProcessAndPrint_calls {inp : Input} {calls c : List FileCall} {p : Proc M} {f : Fate M} {h : Handle} (hv : p.var = .live h) (ha : h.abort = false)
    (e : gProcessAndPrint E C Y S inp calls p = .ok (f, c)) :
    ∃ t u, c = calls ++ t ++ u ∧ (∃ a size ok, Processed inp a size ok t) ∧ Closing E f u ∧ (f.succeeds → ∃ n rs, inp.size = some n ∧ t = .size (some n) :: readCalls rs ∧ ReadsWithin n rs ∧ bytesRead rs = n) := by
  unfold gProcessAndPrint at e
  rw [hv] at e
  obtain ⟨⟨r, h1, W, calls1⟩, e1, e⟩ := Res.bind_eq_ok e
  obtain ⟨t, rfl, hp⟩ := fProcessInput_tested ha e1
  dsimp only at e
  rcases gPassReads_cases e with ⟨q, rfl, rfl⟩ | ⟨q, e, m, hrd⟩
  · exact ⟨t, [], by simp, ⟨_, _, _, hp⟩, .killed q, False.elim⟩
  rcases gPass_cases e with ⟨q, rfl, rfl⟩ | ⟨q1, e, m1, -⟩
  · exact ⟨t, [], by simp, ⟨_, _, _, hp⟩, .killed q, False.elim⟩
  obtain ⟨b, hq⟩ := m.live _ rfl
  obtain ⟨b1, hq1⟩ := m1.live _ hq
  split at e
  · rename_i hab
    obtain ⟨u, h1, h2, h3⟩ := Closing.abort hq1 e
    exact ⟨t, u, h1, ⟨_, _, _, hp⟩, h2, fun h => by rw [hab] at h3; exact absurd (h3 h) (by decide)⟩
  rename_i hab
  split at e
  · obtain ⟨u, h1, h2, h3⟩ := Closing.error e hq1
    exact ⟨t, u, h1, ⟨_, _, _, hp⟩, h2, fun h => absurd h h3⟩
  rename_i hr
  have hr : r = 1 := by simpa using hr
  have whole : ∃ n rs, inp.size = some n ∧ t = .size (some n) :: readCalls rs ∧ ReadsWithin n rs ∧ bytesRead rs = n := by
    obtain ⟨n, rs, w1, w2, w3, w4⟩ := hp.whole (by simpa using hr)
    refine ⟨n, rs, w1, w2, w3, w4.resolve_right ?_⟩
    rintro ⟨-, hx⟩
    simp only [Bool.and_eq_true, List.any_eq_true, List.mem_range, decide_eq_true_eq] at hx
    obtain ⟨-, k, hk1, hk2⟩ := hx
    exact hab (m1.abort (m.set (hrd k (by omega) (by omega) hk2)).1)
  rw [hq1] at e
  obtain ⟨ds, -, e⟩ := Res.bind_eq_ok e
  rcases gPassLines_cases e with ⟨q, rfl, rfl⟩ | ⟨q2, e, hl⟩
  · exact ⟨t, [], by simp, ⟨_, _, _, hp⟩, .killed q, False.elim⟩
  obtain ⟨b2, hq2⟩ := hl _ hq1
  obtain ⟨u, h1, h2, -⟩ := Closing.abort hq2 e
  exact ⟨t, u, h1, ⟨_, _, _, hp⟩, h2, fun _ => whole⟩

/-- The calls of a run of hmacsum on `source`, with signals. -/
inductive SignalTrace (E : Environment) (S : Signals) (source : List Nat) (f : Fate M) (c : List FileCall) : Prop
  /-- the handle could not be created, or the process is killed before it opens the source -/
  | start (hf : ¬ f.succeeds) (h : c = [] ∨ c = [.create false] ∨ c = [.create true])
  /-- the options are refused -/
  | options (hf : ¬ f.succeeds) (h : c = [.create true, .free E.freeOk])
  /-- the source cannot be opened -/
  | noFile (hn : E.files source = none) (hf : ¬ f.succeeds)
      (h : c = [.create true, .open source false, .free E.freeOk] ∨ c = [.create true, .open source false] ∧ ¬ f.ends ∨
        0 < S.count .opening ∧ (c = [.create true, .open source false, .close E.closeOk, .free E.freeOk] ∨ c = [.create true, .open source false, .close E.closeOk] ∧ ¬ f.ends))
  /-- the source is opened -/
  | file (inp : Input) (t u : List FileCall) (hf : E.files source = some inp) (hp : ∃ a size ok, Processed inp a size ok t) (h : c = .create true :: .open source true :: t ++ u) (hc : Closing E f u)
      (hw : f.succeeds → ∃ n rs, inp.size = some n ∧ t = .size (some n) :: readCalls rs ∧ ReadsWithin n rs ∧ bytesRead rs = n)

theorem processed_none (inp : Input) : ∃ a size ok, Processed inp a size ok [] := ⟨fun _ => false, 0, false, .inl rfl, by simp⟩

theorem gOpenAndProcess_calls {source : List Nat} {c : List FileCall} {p : Proc M} {f : Fate M} {h : Handle} (hv : p.var = .live h) (ha : h.abort = false) (hz : p.abort = false)
    (e : gOpenAndProcess E C Y S source [.create true] p = .ok (f, c)) : SignalTrace E S source f c := by
  unfold gOpenAndProcess at e
  rw [hv] at e
  dsimp only at e
  cases hs : E.files source with
  | none =>
    simp only [hs] at e
    rcases gPass_cases e with ⟨q, rfl, rfl⟩ | ⟨q, e, m, -, h0⟩
    · exact .noFile hs id (.inr (.inl ⟨rfl, id⟩))
    obtain ⟨b, hq⟩ := m.live _ rfl
    split at e
    · rename_i hab
      have hcount : 0 < S.count .opening := by
        by_contra hn
        rw [h0 (by omega)] at hab
        rw [hz] at hab
        cases hab
      obtain ⟨h1, h2⟩ := gOnAbort_calls hq e
      have hf : ¬ f.succeeds := fun h => by
        have := (h2 h).2.2.1
        rw [hab] at this
        cases this
      exact .noFile hs hf (.inr (.inr ⟨hcount, h1⟩))
    · obtain ⟨h1, -, h3⟩ := gOnError_calls e
      refine .noFile hs h1 ?_
      rcases h3 _ hq with h | h
      · exact .inl h
      · exact .inr (.inl h)
  | some inp =>
    simp only [hs] at e
    rcases gPass_cases e with ⟨q, rfl, rfl⟩ | ⟨q, e, m, -, h0⟩
    · exact .file inp [] [] hs (processed_none inp) rfl (.killed q) False.elim
    obtain ⟨b, hq⟩ := m.live _ rfl
    split at e
    · rename_i hab
      obtain ⟨u, h1, h2, h3⟩ := Closing.abort hq e
      refine .file inp [] u hs (processed_none inp) h1 h2 fun h => ?_
      have := h3 h
      rw [hab] at this
      cases this
    · rename_i hab
      have hqp := m.same (by
        by_contra hn
        exact hab (m.set (by have := m.handled; omega)).1)
      subst hqp
      obtain ⟨t, u, h1, h2, h3, h4⟩ := gProcessAndPrint_calls (h := (openInput (some inp).isSome h).2) rfl ha e
      exact .file inp t u hs h2 h1 h3 h4

theorem gRunSource_calls {o : Options} {source : List Nat} {c : List FileCall} {p : Proc M} {f : Fate M} (hat : p.attached = false) (hz : p.abort = false) (e : gRunSource E C Y S o source p = .ok (f, c)) : SignalTrace E S source f c := by
  rcases gPass_cases e with ⟨q, rfl, rfl⟩ | ⟨q, e0, m, -⟩
  · exact .start id (.inl rfl)
  have hqp := m.detached hat
  subst hqp
  obtain ⟨⟨r, slot, W1, calls⟩, e1, e⟩ := Res.bind_eq_ok e0
  dsimp only at e
  rcases fSumInitialize_calls e1 with ⟨rfl, rfl, hc⟩ | ⟨h, rfl, ha, rfl, rfl⟩
  · rw [if_pos (by decide)] at e
    obtain ⟨h1, h2, -⟩ := gOnError_calls e
    exact .start h1 (by rw [h2 rfl]; exact hc)
  rw [if_neg (by decide)] at e
  have fails : ∀ {q : Proc M} {g : Handle}, q.var = .live g → gOnError E C S [.create true] q = .ok (f, c) → SignalTrace E S source f c := fun hv e => by
    obtain ⟨h1, -, h3⟩ := gOnError_calls e
    rcases h3 _ hv with h | ⟨h, -⟩
    · exact .options h1 h
    · exact .start h1 (.inr (.inr h))
  obtain ⟨⟨ok, h1, err⟩, e2, e⟩ := Res.bind_eq_ok e
  have k1 := mApplyBufferSize_keeps e2
  dsimp only at e
  split at e
  · exact fails rfl e
  obtain ⟨⟨ok, h2, W2, err2⟩, e3, e⟩ := Res.bind_eq_ok e
  have k2 := (mApplyDigests_keeps e3).1
  dsimp only at e
  split at e
  · exact fails rfl e
  rcases gPass_cases e with ⟨q, rfl, rfl⟩ | ⟨q, e0, m, -⟩
  · exact .start id (.inr (.inr rfl))
  have hqp := m.detached hat
  subst hqp
  refine gOpenAndProcess_calls (h := h2) ?_ (by rw [k2, k1, ha]) ?_ e0
  · split <;> rfl
  · split <;> exact hz

theorem gHmacsum_calls {args : List (List Nat)} {W : WorldOf M} {f : Fate M} {c : List FileCall} (e : gHmacsum E C Y S args W = .ok (f, c)) : c = [] ∨ ∃ source, SignalTrace E S source f c := by
  have none : ∀ {p : Proc M}, p.var = .null → gOnError E C S [] p = .ok (f, c) → c = [] := fun hv e => (gOnError_calls e).2.1 hv
  have told : ∀ {p : Proc M}, gPass S .told p [] (gLeave true []) = .ok (f, c) → c = [] := fun e => by
    rcases gPass_cases e with ⟨q, rfl, rfl⟩ | ⟨q, e, -⟩
    · rfl
    · cases e
      rfl
  rcases gPass_cases e with ⟨q, rfl, rfl⟩ | ⟨q, e0, m, -⟩
  · exact .inl rfl
  have hqp := m.detached rfl
  subst hqp
  split at e0
  · exact .inl (none rfl e0)
  split at e0
  · exact .inl (none rfl e0)
  rcases gPass_cases e0 with ⟨q, rfl, rfl⟩ | ⟨q, e1, m, -⟩
  · exact .inl rfl
  have hqp := m.detached rfl
  subst hqp
  obtain ⟨⟨r, arg⟩, -, e⟩ := Res.bind_eq_ok e1
  cases r with
  | run o source => exact .inr ⟨source, gRunSource_calls rfl rfl e⟩
  | help => exact .inl (told e)
  | version => exact .inl (told e)
  | invalid => exact .inl (none rfl e)
  | missing => exact .inl (none rfl e)

/-- Success on a command line that names a source. -/
theorem gHmacsum_source {args : List (List Nat)} {W : WorldOf M} {f : Fate M} {c : List FileCall} {o : Options} {source : List Nat} {arg : List Nat} (e : gHmacsum E C Y S args W = .ok (f, c)) (hf : f.succeeds)
    (hp : mParseOptions E.mc args ((args.map List.length).sum + 1) ⟨none, none, false⟩ optInit = .ok (.run o source, arg)) : SignalTrace E S source f c := by
  rcases gPass_cases e with ⟨q, rfl, rfl⟩ | ⟨q, e0, m, -⟩
  · exact hf.elim
  have hqp := m.detached rfl
  subst hqp
  split at e0
  · exact absurd hf (gOnError_calls e0).1
  split at e0
  · exact absurd hf (gOnError_calls e0).1
  rcases gPass_cases e0 with ⟨q, rfl, rfl⟩ | ⟨q, e1, m, -⟩
  · exact hf.elim
  have hqp := m.detached rfl
  subst hqp
  rw [hp] at e1
  exact gRunSource_calls rfl rfl e1

end Model.Builds
