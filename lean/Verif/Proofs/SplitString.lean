import Verif.Spec.SplitString
import Verif.Proofs.DigestTypes
import Verif.Proofs.Messages
/-! The calls of libcsplit one by one: lemmas for C92. -/

namespace Model

open Spec

theorem splitAt_length (string : List Nat) : (splitAt 44 string).length = nameCount string := by
  unfold nameCount
  induction string with
  | nil => rfl
  | cons x s ih =>
    by_cases hx : x = 44
    · subst hx
      simp [splitAt, ih]
    · have hc : splitAt 44 s ≠ [] := by
        intro h
        rw [h] at ih
        simp at ih
      obtain ⟨a, t, e⟩ := List.exists_cons_of_ne_nil hc
      rw [e] at ih
      simp only [splitAt, if_neg hx, e, List.length_cons] at ih ⊢
      rw [List.count_cons_of_ne (Ne.symm (by simpa using Ne.symm hx)), ← ih]

theorem segmentsWith_found (mc : Bool) (call : Nat → SegmentCall) : ∀ (segs : List (List Nat)) (i : Nat) (f f' : Kind → Bool), (∀ j < segs.length, call (i + j) = .found) → segmentsLoop mc segs f = .ok f' →
    segmentsWith mc call i segs f = .ok (.all f')
  | [], _, f, f', _, e => by
    cases e
    rfl
  | seg :: segs, i, f, f', hc, e => by
    have h0 : call i = .found := hc 0 (by simp)
    simp only [segmentsLoop] at e
    obtain ⟨k, e1, e⟩ := Res.bind_eq_ok e
    simp only [segmentsWith, h0, e1, Res.ok_bind]
    exact segmentsWith_found mc call segs (i + 1) _ f' (fun j hj => by
      have := hc (j + 1) (by simpa using hj)
      rwa [show i + (j + 1) = i + 1 + j by omega] at this) e

theorem segmentsWith_stops (mc : Bool) (call : Nat → SegmentCall) : ∀ (segs : List (List Nat)) (i j : Nat) (f : Kind → Bool), j < segs.length → call (i + j) ≠ .found → (∀ l < j, call (i + l) = .found) →
    segmentsWith mc call i segs f = .ok (if call (i + j) = .null then .returned else .failed)
  | [], _, _, _, hj, _, _ => by simp at hj
  | seg :: segs, i, 0, f, _, hn, _ => by
    rw [Nat.add_zero] at hn ⊢
    cases e : call i with
    | fails => simp [segmentsWith, e]
    | null => simp [segmentsWith, e]
    | found => exact absurd e hn
  | seg :: segs, i, j + 1, f, hj, hn, hl => by
    have h0 : call i = .found := hl 0 (by omega)
    obtain ⟨k, e1, -⟩ := segmentKind_ok mc seg
    simp only [segmentsWith, h0, e1, Res.ok_bind]
    rw [show i + (j + 1) = i + 1 + j by omega] at hn ⊢
    exact segmentsWith_stops mc call segs (i + 1) j _ (by simpa using hj) hn (fun l hl' => by
      have := hl (l + 1) (by omega)
      rwa [show i + (l + 1) = i + 1 + l by omega] at this)

theorem first_break (call : Nat → SegmentCall) (n : Nat) (h : ¬ ∀ i < n, call i = .found) : ∃ j < n, call j ≠ .found ∧ ∀ l < j, call l = .found := by
  classical
  have hex : ∃ j, j < n ∧ call j ≠ .found := by
    by_contra hn
    exact h fun i hi => by
      by_contra hc
      exact hn ⟨i, hi, hc⟩
  obtain ⟨h1, h2⟩ := Nat.find_spec hex
  refine ⟨Nat.find hex, h1, h2, fun l hl => ?_⟩
  by_contra hc
  exact Nat.find_min hex hl ⟨by omega, hc⟩

theorem splitOnError_kept {there : Bool} {f : FreeCall} : splitOnError there f = true ↔ there = true ∧ f = .kept := by
  unfold splitOnError
  cases there <;> cases f <;> simp

variable {M : Type}

/-- The function with all calls is the one with two Booleans, and what it leaves. -/
theorem Builds.setDigestTypesWith_spec (T : Tool) (C : Contexts M) (mc : Bool) (c : SplitCalls) (string : List Nat) (h : Handle) (W : WorldOf M) :
    ∃ r h' W' left, Builds.setDigestTypesWith T C mc c string h W = .ok (r, h', W', left) ∧
      Builds.setDigestTypes T C mc (decide (ListRead c (nameCount string))) (decide (c.free 0 = .done)) string h W = .ok (r, h', W') ∧ (r = 0 → left = false) ∧
      (ReadBroken c (nameCount string) → left = true) ∧ (left = true → ReadBroken c (nameCount string) ∨ c.free 0 = .kept) := by
  unfold Builds.setDigestTypesWith
  cases hs : c.split with
  | false =>
    have hl : ¬ ListRead c (nameCount string) := fun hr => by
      have := hr.1
      rw [hs] at this
      cases this
    refine ⟨-1, h, W, false, by simp [splitOnError], by simp [Builds.setDigestTypes, hl], by simp, fun hb => ?_, by simp⟩
    rw [hb.1] at hs
    cases hs
  | true =>
    cases hn : c.number with
    | false =>
      have hl : ¬ ListRead c (nameCount string) := fun hr => by
        have := hr.2.1
        rw [hn] at this
        cases this
      exact ⟨-1, h, W, true, by simp, by simp [Builds.setDigestTypes, hl], by simp, fun _ => rfl, fun _ => .inl ⟨hs, .inl hn⟩⟩
    | true =>
      simp only [Bool.not_true, Bool.false_eq_true, if_false]
      by_cases hf : ∀ i < nameCount string, c.segment i = .found
      · have hl : ListRead c (nameCount string) := ⟨hs, hn, hf⟩
        obtain ⟨f, e, -⟩ := segmentsLoop_ok mc (splitAt 44 string) (fun _ => false)
        have e' := segmentsWith_found mc c.segment (splitAt 44 string) 0 _ f (fun j hj => by
          rw [splitAt_length] at hj
          simpa using hf j hj) e
        have hb : ¬ ReadBroken c (nameCount string) := fun hb => by
          rcases hb.2 with h1 | ⟨i, hi, h1, -⟩
          · rw [hn] at h1; cases h1
          · rw [hf i hi] at h1; cases h1
        simp only [e', Builds.setDigestTypes, hl, decide_true, Bool.not_true, Bool.false_eq_true, if_false, e, Res.ok_bind, Res.pure_eq]
        obtain ⟨ok, h', W'⟩ := Builds.enableDigests T C f digestOrder h W
        cases ok with
        | false => exact ⟨-1, h', W', _, by simp; rfl, by simp, by simp, fun h => absurd h hb, fun h => .inr (splitOnError_kept.mp h).2⟩
        | true =>
          cases hfr : c.free 0 with
          | done => exact ⟨0, h', W', false, by simp, by simp, by simp, fun h => absurd h hb, by simp⟩
          | kept => exact ⟨-1, h', W', _, by simp; rfl, by simp, by simp, fun h => absurd h hb, fun _ => .inr rfl⟩
          | lost => exact ⟨-1, h', W', _, by simp; rfl, by simp, by simp, fun h => absurd h hb, fun h => absurd (splitOnError_kept.mp h).1 (by simp)⟩
      · have hl : ¬ ListRead c (nameCount string) := fun hr => hf hr.2.2
        obtain ⟨j, hj, hne, hbef⟩ := first_break c.segment _ hf
        have e' := segmentsWith_stops mc c.segment (splitAt 44 string) 0 j (fun _ => false) (by rw [splitAt_length]; exact hj) (by simpa using hne) (by simpa using hbef)
        rw [Nat.zero_add] at e'
        simp only [e', Builds.setDigestTypes, hl, decide_false, Bool.not_false, if_true, Res.ok_bind, Res.pure_eq]
        cases hcj : c.segment j with
        | found => exact absurd hcj hne
        | null => exact ⟨-1, h, W, true, by simp, rfl, by simp, fun _ => rfl, fun _ => .inl ⟨hs, .inr ⟨j, hj, hcj, hbef⟩⟩⟩
        | fails =>
          refine ⟨-1, h, W, splitOnError true (c.free 0), by simp, rfl, by simp, fun hb => ?_, fun h => .inr (splitOnError_kept.mp h).2⟩
          rcases hb.2 with h1 | ⟨i, hi, h1, h2⟩
          · rw [hn] at h1; cases h1
          · rcases Nat.lt_trichotomy i j with hij | rfl | hij
            · rw [hbef i hij] at h1; cases h1
            · rw [hcj] at h1; cases h1
            · rw [h2 j hij] at hcj; cases hcj

/-- One call on a handle variable. -/
theorem Builds.splitStep_spec (T : Tool) (C : Contexts M) (op : HandleOp) (c : SplitCalls) (slot : Option Handle) (W : WorldOf M) :
    (Builds.splitStep T C op c slot W >>= fun x => pure (x.1, x.2.1, x.2.2.1)) = Builds.handleStep T C (plainOp (op, c)) slot W ∧
      ∀ r slot' W' n, Builds.splitStep T C op c slot W = .ok (r, slot', W', n) → n ≤ 1 ∧ (0 < n → slot.isSome = true ∧ (Broken (op, c) ∨ c.free 0 = .kept)) ∧ (slot.isSome = true → Broken (op, c) → n = 1) := by
  have other : (∀ mc a b s, op ≠ .digests mc a b s) ∨ slot = none → (Builds.splitStep T C op c slot W = Builds.handleStep T C op slot W >>= fun x => pure (x.1, x.2.1, x.2.2, 0)) := fun h => by
    unfold Builds.splitStep
    split
    · rename_i mc a b s h'
      rcases h with h | h
      · exact absurd rfl (h _ _ _ _)
      · cases h
    · rfl
  have fin : ∀ {op : HandleOp}, ((Builds.handleStep T C op slot W >>= fun x => pure (x.1, x.2.1, x.2.2, 0)) >>= fun x : Int × Option Handle × WorldOf M × Nat => pure (x.1, x.2.1, x.2.2.1)) = Builds.handleStep T C op slot W := fun {op} => by
    cases Builds.handleStep T C op slot W <;> rfl
  cases op with
  | digests mc a b s =>
    cases slot with
    | none =>
      refine ⟨rfl, fun r slot' W' n e => ?_⟩
      cases e
      simp
    | some h =>
      obtain ⟨r, h', W', left, e1, e2, -, e4, e5⟩ := Builds.setDigestTypesWith_spec T C mc c s h W
      refine ⟨?_, fun r1 slot1 W1 n e => ?_⟩
      · simp only [Builds.splitStep, plainOp, Builds.handleStep, e1, e2, Res.ok_bind, Res.pure_eq]
      · simp only [Builds.splitStep, e1, Res.ok_bind, Res.pure_eq] at e
        cases e
        cases left with
        | false => exact ⟨by simp, by simp, fun _ hb => by cases e4 hb⟩
        | true => exact ⟨by simp, fun _ => ⟨rfl, e5 rfl⟩, fun _ _ => rfl⟩
  | _ =>
    rw [other (.inl (by simp))]
    refine ⟨fin, fun r slot' W' n e => ?_⟩
    obtain ⟨x, -, e⟩ := Res.bind_eq_ok e
    cases e
    exact ⟨by simp, by simp, fun _ hb => absurd hb (by simp [Broken])⟩

end Model
