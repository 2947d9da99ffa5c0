import Verif.Model.PyError
/-! Lemmas about the texts of exceptions. -/

namespace Model

open Spec

theorem byteStrlen_eq (b r : List Byte) : byteStrlen (b ++ 0 :: r) = .ok (b.takeWhile (· ≠ 0)).length := by
  induction b with
  | nil => simp [byteStrlen]
  | cons x b ih =>
    rw [List.cons_append, byteStrlen, ih]
    by_cases h : x = 0
    · simp [h]
    · rw [if_neg h, List.takeWhile_cons_of_pos (by simpa using h)]
      rfl

theorem take_takeWhile {α} (p : α → Bool) (b r : List α) : (b ++ r).take (b.takeWhile p).length = b.takeWhile p := by
  induction b with
  | nil => simp
  | cons x b ih => by_cases h : p x <;> simp [h, ih]

theorem byteString_eq (b r : List Byte) : byteString (b ++ 0 :: r) = .ok (b.takeWhile (· ≠ 0)) := by
  rw [byteString, byteStrlen_eq, Res.ok_bind, take_takeWhile]
  rfl

theorem takeWhile_self {b : List Byte} (h : ∀ x ∈ b, x ≠ 0) : b.takeWhile (· ≠ 0) = b := by
  induction b with
  | nil => rfl
  | cons x b ih => simp_all

theorem mem_takeWhile_ne {b : List Byte} : ∀ x ∈ b.takeWhile (· ≠ 0), x ≠ 0 := by
  induction b with
  | nil => simp
  | cons y b ih => by_cases h : y = 0 <;> simp_all

theorem kept_ne (b : List Byte) : ∀ x ∈ kept b, x ≠ 0 := mem_takeWhile_ne

theorem vsnprintf_eq (xs t : List Byte) (h : xs.length = pyErrorSize) : ∃ r, vsnprintf xs pyErrorSize (some t) = .ok (t.length, t.take 2047 ++ 0 :: r) := by
  have hl : (t.take 2047 ++ [(0 : Byte)]).length ≤ 2048 := by simp; omega
  unfold vsnprintf
  simp only [pyErrorSize, Nat.reduceSub] at h ⊢
  rw [memCopy, if_pos ⟨by omega, by omega⟩, Res.ok_bind]
  simp only [List.take_zero, List.nil_append, List.drop_zero, List.take_length, Nat.zero_add]
  rw [wr, if_pos (by simp; omega), Res.ok_bind]
  by_cases ht : t.length < 2047
  · refine ⟨(xs.drop (t.take 2047 ++ [(0 : Byte)]).length).set (2047 - (t.length + 1)) 0, ?_⟩
    have h1 : t.take 2047 = t := List.take_of_length_le (by omega)
    rw [h1, List.set_append_right _ _ (by simp; omega)]
    simp
  · refine ⟨[], ?_⟩
    have h1 : (t.take 2047).length = 2047 := by simp; omega
    rw [List.drop_eq_nil_of_le (by simp; omega), List.append_nil, List.set_append_right _ _ (by omega)]
    simp [h1]

theorem replaceLines_eq : ∀ (r p : List Byte) (fuel i : Nat), p.length = i → i + r.length = pyErrorSize → pyErrorSize ≤ fuel + i →
    replaceLines fuel i (p ++ r) = .ok (i + (r.takeWhile (· ≠ 0)).length, p ++ (oneLine (r.takeWhile (· ≠ 0)) ++ r.dropWhile (· ≠ 0))) := by
  intro r
  induction r with
  | nil =>
    intro p fuel i h1 h2 h3
    have hn : ¬ i < pyErrorSize := by simp at h2; omega
    cases fuel <;> simp [replaceLines, hn, oneLine]
  | cons c r ih =>
    intro p fuel i h1 h2 h3
    simp only [List.length_cons] at h2
    cases fuel with
    | zero => omega
    | succ fuel =>
      rw [replaceLines, if_pos (by omega)]
      have hr : rd (p ++ c :: r) i = .ok c := by simp [rd, ← h1]
      rw [hr, Res.ok_bind]
      by_cases hc : c = 0
      · simp [hc, oneLine]
      · rw [if_neg hc]
        have ht : (c :: r).takeWhile (fun x : Byte => decide (x ≠ 0)) = c :: r.takeWhile (fun x : Byte => decide (x ≠ 0)) := List.takeWhile_cons_of_pos (by simpa using hc)
        have hd : (c :: r).dropWhile (fun x : Byte => decide (x ≠ 0)) = r.dropWhile (fun x : Byte => decide (x ≠ 0)) := List.dropWhile_cons_of_pos (by simpa using hc)
        by_cases hn : c = 10 ∨ c = 13
        · rw [if_pos hn, wr, if_pos (by simp; omega), Res.ok_bind]
          have hs : (p ++ c :: r).set i 32 = (p ++ [32]) ++ r := by
            rw [List.set_append_right _ _ (by omega)]
            simp [h1]
          rw [hs, ih (p ++ [32]) fuel (i + 1) (by simp [h1]) (by omega) (by omega), ht, hd]
          rw [List.length_cons, oneLine, oneLine, List.map_cons, if_pos hn]
          simp only [List.append_assoc, List.cons_append, List.nil_append, Nat.add_assoc, Nat.add_comm 1]
        · rw [if_neg hn]
          have hs : p ++ c :: r = (p ++ [c]) ++ r := by simp
          rw [hs, ih (p ++ [c]) fuel (i + 1) (by simp [h1]) (by omega) (by omega), ht, hd]
          rw [List.length_cons, oneLine, oneLine, List.map_cons, if_neg hn]
          simp only [List.append_assoc, List.cons_append, List.nil_append, Nat.add_assoc, Nat.add_comm 1]

theorem oneLine_ne {b : List Byte} (h : ∀ x ∈ b, x ≠ 0) : ∀ x ∈ oneLine b, x ≠ 0 := by
  intro x hx
  obtain ⟨y, hy, rfl⟩ := List.mem_map.mp hx
  by_cases hn : y = 10 ∨ y = 13
  · rw [if_pos hn]; decide
  · rw [if_neg hn]; exact h y hy

/-- What is printed of the description of the error. -/
theorem sprinted (s : List Byte) (h : s.length = pyErrorSize) :
    ∃ s', joinLines s = .ok s' ∧ byteString s' = .ok (oneLine (kept s)) := by
  unfold joinLines
  have hr := replaceLines_eq s [] pyErrorSize 0 rfl (by omega) (by omega)
  simp only [List.nil_append, Nat.zero_add] at hr
  rw [hr, Res.ok_bind]
  have hs := List.takeWhile_append_dropWhile (p := fun x : Byte => decide (x ≠ 0)) (l := s)
  have hl := congrArg List.length hs
  rw [List.length_append, h] at hl
  simp only
  cases hd : s.dropWhile (fun x : Byte => decide (x ≠ 0)) with
  | nil =>
    rw [hd, List.append_nil] at hs
    rw [hd] at hl
    simp only [List.length_nil, Nat.add_zero] at hl
    rw [if_pos (by omega), hs, List.append_nil, wr, if_pos (by simp [oneLine, h, pyErrorSize])]
    refine ⟨_, rfl, ?_⟩
    have hz : ∀ x ∈ s, x ≠ 0 := by rw [← hs]; exact mem_takeWhile_ne
    have : (oneLine s).set (pyErrorSize - 1) 0 = oneLine (s.take 2047) ++ 0 :: [] := by
      have h1 : oneLine s = oneLine (s.take 2047) ++ oneLine (s.drop 2047) := by
        rw [oneLine, oneLine, oneLine, ← List.map_append, List.take_append_drop]
      have h2 : (oneLine (s.drop 2047)).length = 1 := by simp [oneLine, h, pyErrorSize]
      obtain ⟨y, hy⟩ := List.length_eq_one_iff.mp h2
      have h3 : (oneLine (s.take 2047)).length = 2047 := by simp [oneLine, h, pyErrorSize]
      rw [h1, hy, List.set_append_right _ _ (by simp [h3, pyErrorSize]), h3]
      rfl
    rw [this, byteString_eq]
    have ht : ∀ x ∈ s.take 2047, x ≠ 0 := fun x hx => hz x (List.mem_of_mem_take hx)
    rw [takeWhile_self (oneLine_ne ht), kept, takeWhile_self ht]
  | cons z r =>
    have hz : z = 0 := by
      have := List.head?_dropWhile_not (fun x : Byte => decide (x ≠ 0)) s
      rw [hd] at this
      simpa using this
    subst hz
    rw [hd] at hl
    simp only [List.length_cons, pyErrorSize] at hl
    rw [if_neg (by simp only [pyErrorSize]; omega)]
    refine ⟨_, rfl, ?_⟩
    rw [byteString_eq, takeWhile_self (oneLine_ne mem_takeWhile_ne)]
    congr 2
    rw [kept]
    have hk : s.take 2047 = s.takeWhile (fun x : Byte => decide (x ≠ 0)) ++ (0 :: r).take (2047 - (s.takeWhile (fun x : Byte => decide (x ≠ 0))).length) := by
      have := congrArg (List.take 2047) hs
      rw [hd, List.take_append, List.take_of_length_le (by omega)] at this
      exact this.symm
    rw [hk]
    generalize hb : s.takeWhile (fun x : Byte => decide (x ≠ 0)) = b at hl
    have hz : ∀ x ∈ b, x ≠ 0 := by rw [← hb]; exact mem_takeWhile_ne
    rw [List.takeWhile_append_of_pos (by simpa using hz)]
    cases 2047 - b.length <;> simp

end Model
