import Verif.Proofs.SumHandle
import Verif.Spec.DigestTypes
/-! Selection of digests. -/

namespace Model

open Spec

theorem mem_splitAt (name : List Nat) : ∀ string : List Nat, name ∈ splitAt 44 string ↔ InList name string := by
  have key : ∀ string : List Nat, ∃ seg segs, splitAt 44 string = seg :: segs ∧ 44 ∉ seg ∧ (∀ n, n ∈ segs ↔ 44 ∉ n ∧ ∃ a c, string = a ++ [44] ++ n ++ c ∧ (c = [] ∨ ∃ c', c = 44 :: c')) ∧
      ∀ n, 44 ∉ n → (n = seg ↔ ∃ c, string = n ++ c ∧ (c = [] ∨ ∃ c', c = 44 :: c')) := by
    intro string
    induction string with
    | nil =>
      refine ⟨[], [], rfl, by simp, fun n => by simp, fun n _ => ⟨fun h => ⟨[], by simp [h], .inl rfl⟩, ?_⟩⟩
      rintro ⟨c, h, -⟩
      exact (List.append_eq_nil_iff.mp h.symm).1
    | cons x t ih =>
      obtain ⟨seg, segs, e, hseg, hsegs, hfst⟩ := ih
      by_cases hx : x = 44
      · subst hx
        refine ⟨[], seg :: segs, by simp [splitAt, e], by simp, fun n => ?_, fun n hn => ?_⟩
        · rw [List.mem_cons]
          constructor
          · rintro (h | h)
            · have h44 : 44 ∉ n := by rw [h]; exact hseg
              obtain ⟨c, h1, h2⟩ := (hfst n h44).mp h
              exact ⟨h44, [], c, by simp [h1], h2⟩
            · obtain ⟨h1, a, c, h2, h3⟩ := (hsegs n).mp h
              exact ⟨h1, 44 :: a, c, by simp [h2], h3⟩
          · rintro ⟨h1, a, c, h2, h3⟩
            cases a with
            | nil =>
              refine .inl ((hfst n h1).mpr ⟨c, ?_, h3⟩)
              simpa using h2
            | cons y a =>
              refine .inr ((hsegs n).mpr ⟨h1, a, c, ?_, h3⟩)
              simp only [List.cons_append, List.cons.injEq] at h2
              exact h2.2
        · constructor
          · rintro rfl
            exact ⟨44 :: t, rfl, .inr ⟨t, rfl⟩⟩
          · rintro ⟨c, h1, -⟩
            cases n with
            | nil => rfl
            | cons y n =>
              simp only [List.cons_append, List.cons.injEq] at h1
              exact absurd (by rw [← h1.1]; simp) hn
      · refine ⟨x :: seg, segs, by simp [splitAt, hx, e], by simp [hseg, Ne.symm hx], fun n => ?_, fun n hn => ?_⟩
        · rw [hsegs n]
          constructor
          · rintro ⟨h1, a, c, h2, h3⟩
            exact ⟨h1, x :: a, c, by simp [h2], h3⟩
          · rintro ⟨h1, a, c, h2, h3⟩
            cases a with
            | nil =>
              simp only [List.nil_append, List.cons_append, List.cons.injEq] at h2
              exact absurd h2.1 hx
            | cons y a =>
              simp only [List.cons_append, List.cons.injEq] at h2
              exact ⟨h1, a, c, h2.2, h3⟩
        · constructor
          · rintro rfl
            obtain ⟨c, h1, h2⟩ := (hfst seg hseg).mp rfl
            exact ⟨c, by simp [← h1], h2⟩
          · rintro ⟨c, h1, h2⟩
            cases n with
            | nil =>
              rcases h2 with rfl | ⟨c', rfl⟩
              · cases h1
              · simp only [List.nil_append, List.cons.injEq] at h1
                exact absurd h1.1 hx
            | cons y n =>
              simp only [List.cons_append, List.cons.injEq] at h1
              rw [h1.1, (hfst n (fun h => hn (by simp [h]))).mpr ⟨c, h1.2, h2⟩]
  intro string
  obtain ⟨seg, segs, e, hseg, hsegs, hfst⟩ := key string
  rw [e, List.mem_cons, hsegs]
  constructor
  · rintro (h | ⟨h1, a, c, h2, h3⟩)
    · have h44 : 44 ∉ name := by rw [h]; exact hseg
      obtain ⟨c, h1, h2⟩ := (hfst name h44).mp h
      exact ⟨h44, [], c, by simp [h1], .inl rfl, h2⟩
    · exact ⟨h1, a ++ [44], c, h2, .inr ⟨a, rfl⟩, h3⟩
  · rintro ⟨h1, a, c, h2, rfl | ⟨a', rfl⟩, h4⟩
    · exact .inl ((hfst name h1).mpr ⟨c, by simpa using h2, h4⟩)
    · exact .inr ⟨h1, a', c, h2, h4⟩

theorem strncmpEq_ok : ∀ (n : Nat) (a b : List Nat), n ≤ a.length → n ≤ b.length → 0 ∉ b.take (n - 1) → strncmpEq n a b = .ok (a.take n = b.take n)
  | 0, _, _, _, _, _ => by simp [strncmpEq]
  | n + 1, x :: a, y :: b, ha, hb, h0 => by
    have h1 : rd (x :: a) 0 = .ok x := rfl
    have h2 : rd (y :: b) 0 = .ok y := rfl
    simp only [strncmpEq, h1, h2, Res.ok_bind, List.drop_one, List.tail_cons, List.take_succ_cons, List.cons.injEq]
    by_cases hxy : x = y
    · subst hxy
      simp only [ne_eq, not_true_eq_false, if_false, true_and]
      by_cases hx : x = 0
      · subst hx
        cases n with
        | zero => simp
        | succ n => simp at h0
      · rw [if_neg hx]
        refine strncmpEq_ok n a b (by simpa using ha) (by simpa using hb) fun h => h0 ?_
        cases n with
        | zero => simp at h
        | succ n => simp only [Nat.add_sub_cancel, List.take_succ_cons, List.mem_cons] at h ⊢; exact .inr h
    · simp [hxy]

theorem compareEq_ok (mc : Bool) (n : Nat) (a b : List Nat) (ha : n ≤ a.length) (hb : n ≤ b.length) (h0 : 0 ∉ b.take (n - 1)) :
    compareEq mc n a b = .ok (a.take n = b.take n) := by
  cases mc
  · exact strncmpEq_ok n a b ha hb h0
  · simp [compareEq, memcmpEq, ha, hb]

/-- A chain of comparisons finds the first equal name. -/
theorem firstMatch_ok (mc : Bool) (seg : List Nat) (n : Nat) (hn : n = seg.length ∨ n = seg.length + 1) : ∀ (tbl : List (String × Kind)),
    (∀ e ∈ tbl, (codes e.1).length = seg.length ∧ 0 ∉ codes e.1) →
    firstMatch mc (seg ++ [0]) n tbl = .ok ((tbl.find? fun e => seg = codes e.1).map (·.2))
  | [], _ => rfl
  | (s, k) :: t, h => by
    obtain ⟨h1, h2⟩ := h (s, k) (by simp)
    have hl : lit s = codes s ++ [0] := rfl
    simp only at h1 h2
    have hc : compareEq mc n (seg ++ [0]) (lit s) = .ok (seg = codes s) := by
      rw [compareEq_ok mc n _ _ (by simp; omega) (by rw [hl]; simp; omega) (by
        intro hm
        rw [hl, List.take_append_of_le_length (by omega)] at hm
        exact h2 (List.mem_of_mem_take hm)), hl]
      rcases hn with hn | hn
      · rw [List.take_left' hn.symm, List.take_left' (by omega)]
      · rw [List.take_of_length_le (by simp; omega), List.take_of_length_le (by simp; omega)]
        simp
    simp only [firstMatch, hc, Res.ok_bind, List.find?_cons]
    by_cases he : seg = codes s
    · simp [he]
    · simp only [he, decide_false, Bool.false_eq_true, if_false]
      exact firstMatch_ok mc seg n hn t fun e he => h e (by simp [he])

theorem segmentKind_ok (mc : Bool) (seg : List Nat) : ∃ o, segmentKind mc (seg ++ [0]) = .ok o ∧ ∀ k, o = some k ↔ seg ∈ k.names := by
  have hlen : (seg ++ [0]).length = seg.length + 1 := by simp
  have tblc : ∀ (tbl : List (String × Kind)) (L : Nat), (∀ e ∈ tbl, (codes e.1).length = L ∧ 0 ∉ codes e.1) → (tbl.map fun e => codes e.1).Nodup →
      (∀ k, ∀ n ∈ Kind.names k, n.length = L → (n, k) ∈ tbl.map fun e => (codes e.1, e.2)) → (∀ e ∈ tbl, codes e.1 ∈ e.2.names) → seg.length = L →
      ∀ k, (tbl.find? fun e => seg = codes e.1).map (·.2) = some k ↔ seg ∈ k.names := by
    intro tbl L h1 h2 h3 h4 hL k
    constructor
    · intro h
      obtain ⟨e, he, rfl⟩ := Option.map_eq_some_iff.mp h
      have := List.find?_some he
      simp only [decide_eq_true_eq] at this
      rw [this]
      exact h4 e (List.mem_of_find?_eq_some he)
    · intro h
      obtain ⟨e, he, hek⟩ := List.mem_map.mp (h3 k seg h hL)
      simp only [Prod.mk.injEq] at hek
      have hfind : tbl.find? (fun e => seg = codes e.1) = some e := by
        clear h3 h4 h1
        induction tbl with
        | nil => cases he
        | cons x t ih =>
          rw [List.find?_cons]
          simp only [List.map_cons, List.nodup_cons] at h2
          rcases List.mem_cons.mp he with rfl | he
          · simp [hek.1]
          · have : ¬ seg = codes x.1 := by
              intro hs
              exact h2.1 (List.mem_map.mpr ⟨e, he, by rw [hek.1, hs]⟩)
            simp only [this, decide_false]
            exact ih h2.2 he
      rw [hfind, Option.map_some, hek.2]
  unfold segmentKind
  rw [hlen]
  by_cases h3 : seg.length = 3
  · rw [if_pos (by omega), firstMatch_ok mc seg 4 (.inr (by omega)) _ (by rw [h3]; decide)]
    exact ⟨_, rfl, tblc _ 3 (by decide) (by decide) (fun k => by cases k <;> decide) (by decide) h3⟩
  rw [if_neg (by omega)]
  by_cases h4 : seg.length = 4
  · rw [if_pos (by omega), firstMatch_ok mc seg 4 (.inl (by omega)) _ (by rw [h4]; decide)]
    exact ⟨_, rfl, tblc _ 4 (by decide) (by decide) (fun k => by cases k <;> decide) (by decide) h4⟩
  rw [if_neg (by omega)]
  by_cases h5 : seg.length = 5
  · rw [if_pos (by omega), firstMatch_ok mc seg 5 (.inl (by omega)) _ (by rw [h5]; decide)]
    exact ⟨_, rfl, tblc _ 5 (by decide) (by decide) (fun k => by cases k <;> decide) (by decide) h5⟩
  rw [if_neg (by omega)]
  by_cases h6 : seg.length = 6
  · rw [if_pos (by omega), firstMatch_ok mc seg 6 (.inl (by omega)) _ (by rw [h6]; decide)]
    exact ⟨_, rfl, tblc _ 6 (by decide) (by decide) (fun k => by cases k <;> decide) (by decide) h6⟩
  rw [if_neg (by omega)]
  by_cases h7 : seg.length = 7
  · rw [if_pos (by omega), firstMatch_ok mc seg 7 (.inl (by omega)) _ (by rw [h7]; decide)]
    exact ⟨_, rfl, tblc _ 7 (by decide) (by decide) (fun k => by cases k <;> decide) (by decide) h7⟩
  rw [if_neg (by omega)]
  refine ⟨none, rfl, fun k => ⟨fun h => (by cases h), fun h => ?_⟩⟩
  have : ∀ n ∈ k.names, n.length = 3 ∨ n.length = 4 ∨ n.length = 5 ∨ n.length = 6 ∨ n.length = 7 := by cases k <;> decide
  have := this seg h
  omega

theorem segmentsLoop_ok (mc : Bool) : ∀ (segs : List (List Nat)) (f : Kind → Bool),
    ∃ f', segmentsLoop mc segs f = .ok f' ∧ ∀ k, f' k = true ↔ f k = true ∨ ∃ seg ∈ segs, seg ∈ k.names
  | [], f => ⟨f, rfl, by simp⟩
  | seg :: segs, f => by
    obtain ⟨o, e, ho⟩ := segmentKind_ok mc seg
    cases o with
    | none =>
      obtain ⟨f', e', hf'⟩ := segmentsLoop_ok mc segs f
      refine ⟨f', by simp only [segmentsLoop, e, Res.ok_bind, e'], fun k => ?_⟩
      have : seg ∉ k.names := fun h => by simpa using (ho k).mpr h
      rw [hf' k]
      simp [this]
    | some j =>
      obtain ⟨f', e', hf'⟩ := segmentsLoop_ok mc segs (Function.update f j true)
      refine ⟨f', by simp only [segmentsLoop, e, Res.ok_bind, e'], fun k => ?_⟩
      rw [hf' k]
      by_cases hj : k = j
      · subst hj
        have := (ho k).mp rfl
        simp [this]
      · have : seg ∉ k.names := fun h => hj (by simpa using ((ho k).mpr h).symm)
        simp [this, Function.update_of_ne hj]

end Model
