import Mathlib.Data.Nat.Digits.Lemmas
import Verif.Model.ByteSize
import Verif.Spec.ByteSize
import Verif.Proofs.Basic
/-! Byte size strings. -/

namespace Model

open Spec

theorem rd_at {α} (pre : List α) (c : α) (t : List α) : rd (pre ++ c :: t) pre.length = .ok c := by simp [rd]

theorem decimal_cons (d : Fin 10) (ds : List (Fin 10)) : decimal (d :: ds) = d.1 * 10 ^ ds.length + decimal ds := by
  simp only [decimal, List.map_cons, List.reverse_cons, Nat.ofDigits_append, Nat.ofDigits_singleton, List.length_reverse, List.length_map]
  ring

theorem isDigit_char (d : Fin 10) : isDigit (48 + d.1) := by unfold isDigit; omega

theorem convDigits_eval (ds : List (Fin 10)) : ∀ (pre : List Nat) (c : Nat) (t : List Nat) (v : Nat) (fuel : Nat), ¬ isDigit c → ds.length ≤ fuel →
    convDigits (pre ++ digitChars ds ++ c :: t) fuel pre.length (BitVec.ofNat 64 v) =
      .ok (pre.length + ds.length, BitVec.ofNat 64 (v * 10 ^ ds.length + decimal ds)) := by
  induction ds with
  | nil =>
    intro pre c t v fuel hc _
    have : decimal [] = 0 := rfl
    simp only [digitChars, List.map_nil, List.append_nil, List.length_nil, Nat.pow_zero, Nat.mul_one, Nat.add_zero, this]
    cases fuel with
    | zero => rfl
    | succ fuel => simp only [convDigits, rd_at, Res.ok_bind, hc, not_false_eq_true, if_true]; rfl
  | cons d ds ih =>
    intro pre c t v fuel hc hf
    cases fuel with
    | zero => simp at hf
    | succ fuel =>
      have e : pre ++ digitChars (d :: ds) ++ c :: t = (pre ++ [48 + d.1]) ++ digitChars ds ++ c :: t := by simp [digitChars]
      have e0 : pre ++ digitChars (d :: ds) ++ c :: t = pre ++ (48 + d.1) :: (digitChars ds ++ c :: t) := by simp [digitChars]
      have hr : rd (pre ++ digitChars (d :: ds) ++ c :: t) pre.length = .ok (48 + d.1) := by rw [e0, rd_at]
      rw [convDigits, hr, Res.ok_bind, if_neg (by simpa using isDigit_char d), e]
      have hv : BitVec.ofNat 64 v * 10 + BitVec.ofNat 64 (48 + d.1 - 48) = BitVec.ofNat 64 (v * 10 + d.1) := by
        rw [Nat.add_sub_cancel_left, BitVec.ofNat_add, BitVec.ofNat_mul]
        rfl
      have hp : pre.length + 1 = (pre ++ [48 + d.1]).length := by simp
      rw [hv, hp, ih (pre ++ [48 + d.1]) c t _ fuel hc (by simpa using hf), decimal_cons]
      simp only [List.length_append, List.length_cons, List.length_nil, Res.ok.injEq, Prod.mk.injEq]
      refine ⟨by omega, congrArg _ ?_⟩
      rw [Nat.pow_succ]
      ring

theorem convSkip_eval (ds : List (Fin 10)) : ∀ (pre : List Nat) (c : Nat) (t : List Nat) (fuel : Nat), ¬ isDigit c → ds.length ≤ fuel →
    convSkip (pre ++ digitChars ds ++ c :: t) fuel pre.length = .ok (pre.length + ds.length) := by
  induction ds with
  | nil =>
    intro pre c t fuel hc _
    simp only [digitChars, List.map_nil, List.append_nil, List.length_nil, Nat.add_zero]
    cases fuel with
    | zero => rfl
    | succ fuel => simp only [convSkip, rd_at, Res.ok_bind, hc, not_false_eq_true, if_true]; rfl
  | cons d ds ih =>
    intro pre c t fuel hc hf
    cases fuel with
    | zero => simp at hf
    | succ fuel =>
      have e : pre ++ digitChars (d :: ds) ++ c :: t = (pre ++ [48 + d.1]) ++ digitChars ds ++ c :: t := by simp [digitChars]
      have e0 : pre ++ digitChars (d :: ds) ++ c :: t = pre ++ (48 + d.1) :: (digitChars ds ++ c :: t) := by simp [digitChars]
      have hr : rd (pre ++ digitChars (d :: ds) ++ c :: t) pre.length = .ok (48 + d.1) := by rw [e0, rd_at]
      rw [convSkip, hr, Res.ok_bind, if_neg (by simpa using isDigit_char d), e]
      have hp : pre.length + 1 = (pre ++ [48 + d.1]).length := by simp
      rw [hp, ih (pre ++ [48 + d.1]) c t fuel hc (by simpa using hf)]
      simp only [List.length_append, List.length_cons, List.length_nil, Res.ok.injEq]
      omega

theorem convFraction_none (pre : List Nat) (c : Nat) (t : List Nat) (len dp : Nat) (h : c ≠ dp) :
    convFraction (pre ++ c :: t) len dp pre.length = .ok (pre.length, -1) := by
  simp only [convFraction, rd_at, Res.ok_bind, h, if_false]
  rfl

/-- `remainder` after the fraction. -/
def fracRemainder : List (Fin 10) → Int
  | [] => -10
  | ds => (hundredths ds : Int)

theorem convFraction_some (pre : List Nat) (ds : List (Fin 10)) (c : Nat) (t : List Nat) (len dp : Nat) (hc : ¬ isDigit c)
    (hl : pre.length + 1 + ds.length ≤ len) :
    convFraction (pre ++ dp :: (digitChars ds ++ c :: t)) len dp pre.length = .ok (pre.length + 1 + ds.length, fracRemainder ds) := by
  have hat : ∀ (x : Nat) (a b : List Nat), pre ++ dp :: (digitChars ds ++ c :: t) = a ++ x :: b → rd (pre ++ dp :: (digitChars ds ++ c :: t)) a.length = .ok x :=
    fun x a b e => by rw [e, rd_at]
  rw [convFraction, rd_at, Res.ok_bind, if_pos rfl]
  match ds with
  | [] =>
    have h1 := hat c (pre ++ [dp]) t (by simp [digitChars])
    rw [show (pre ++ [dp]).length = pre.length + 1 by simp] at h1
    have h2 := convSkip_eval [] (pre ++ [dp]) c t (len - (pre.length + 1)) hc (Nat.zero_le _)
    rw [show (pre ++ [dp]).length = pre.length + 1 by simp, show pre ++ [dp] ++ digitChars [] ++ c :: t = pre ++ dp :: (digitChars [] ++ c :: t) by simp [digitChars]] at h2
    simp only [h1, Res.ok_bind, hc, if_false, h2]
    rfl
  | [a] =>
    have h1 := hat (48 + a.1) (pre ++ [dp]) (c :: t) (by simp [digitChars])
    rw [show (pre ++ [dp]).length = pre.length + 1 by simp] at h1
    have h2 := hat c (pre ++ [dp, 48 + a.1]) t (by simp [digitChars])
    rw [show (pre ++ [dp, 48 + a.1]).length = pre.length + 2 by simp] at h2
    have h3 := convSkip_eval [] (pre ++ [dp, 48 + a.1]) c t (len - (pre.length + 2)) hc (Nat.zero_le _)
    rw [show (pre ++ [dp, 48 + a.1]).length = pre.length + 2 by simp,
      show pre ++ [dp, 48 + a.1] ++ digitChars [] ++ c :: t = pre ++ dp :: (digitChars [a] ++ c :: t) by simp [digitChars]] at h3
    simp only [h1, Res.ok_bind, isDigit_char a, if_true, h2, hc, if_false, h3, Nat.add_sub_cancel_left]
    simp only [fracRemainder, hundredths, Res.pure_eq, List.length_cons, List.length_nil, Nat.add_zero, Nat.cast_mul, Nat.cast_ofNat, Res.ok.injEq, Prod.mk.injEq]
    exact ⟨trivial, by ring⟩
  | a :: b :: ds =>
    have h1 := hat (48 + a.1) (pre ++ [dp]) ((48 + b.1) :: (digitChars ds ++ c :: t)) (by simp [digitChars])
    rw [show (pre ++ [dp]).length = pre.length + 1 by simp] at h1
    have h2 := hat (48 + b.1) (pre ++ [dp, 48 + a.1]) (digitChars ds ++ c :: t) (by simp [digitChars])
    rw [show (pre ++ [dp, 48 + a.1]).length = pre.length + 2 by simp] at h2
    have h3 := convSkip_eval ds (pre ++ [dp, 48 + a.1, 48 + b.1]) c t (len - (pre.length + 2 + 1)) hc (by simp at hl; omega)
    rw [show (pre ++ [dp, 48 + a.1, 48 + b.1]).length = pre.length + 2 + 1 by simp,
      show pre ++ [dp, 48 + a.1, 48 + b.1] ++ digitChars ds ++ c :: t = pre ++ dp :: (digitChars (a :: b :: ds) ++ c :: t) by simp [digitChars]] at h3
    simp only [h1, Res.ok_bind, isDigit_char, if_true, h2, h3, Nat.add_sub_cancel_left]
    simp only [fracRemainder, hundredths, Res.pure_eq, List.length_cons, Nat.cast_add, Nat.cast_mul, Nat.cast_ofNat, Res.ok.injEq, Prod.mk.injEq]
    exact ⟨by omega, by ring⟩

theorem mulLoop_eq (units n : Nat) : ∀ v : Nat, mulLoop units n (BitVec.ofNat 64 v) = BitVec.ofNat 64 (v * units ^ n) := by
  induction n with
  | zero => intro v; simp [mulLoop]
  | succ n ih =>
    intro v
    rw [mulLoop, ← BitVec.ofNat_mul, ih, Nat.pow_succ]
    congr 1
    ring

theorem convScale_eq (v f u : Nat) (r : Int) (h : Nat) (hr : r = h ∨ r ≤ 0 ∧ h = 0) :
    convScale (BitVec.ofNat 64 v) f r u = BitVec.ofNat 64 (scaled v h f u) := by
  unfold convScale scaled
  by_cases hf : 0 < f
  · by_cases hh : 0 < h
    · have hr' : r = h := by omega
      subst hr'
      rw [if_pos hf, if_pos (by omega), if_pos ⟨hf, hh⟩, ← mulLoop_eq]
      congr 1
      rw [BitVec.ofNat_add, BitVec.ofNat_mul]
      congr 1
      rw [show ((h : Int) * 10) = ((10 * h : Nat) : Int) by push_cast; ring]
      exact BitVec.ofInt_natCast ..
    · rw [if_pos hf, if_neg (by omega), if_neg (by omega), mulLoop_eq]
  · obtain rfl : f = 0 := by omega
    simp

theorem rdz (body : List Nat) (i : Nat) (h : i ≤ body.length) :
    ∃ c, rd (body ++ [0]) i = .ok c ∧ (c ≠ 0 → i + 1 ≤ body.length) := by
  by_cases hi : i < body.length
  · exact ⟨body[i], by simp [rd, List.getElem?_append_left hi, hi], fun _ => hi⟩
  · obtain rfl : i = body.length := by omega
    exact ⟨0, rd_at body 0 [], fun h => absurd rfl h⟩

theorem isDigit_ne_zero {c : Nat} (h : isDigit c) : c ≠ 0 := by unfold isDigit at h; omega

theorem convDigits_safe (body : List Nat) : ∀ (fuel it : Nat) (v : BitVec 64), it ≤ body.length →
    ∃ it' v', convDigits (body ++ [0]) fuel it v = .ok (it', v') ∧ it' ≤ body.length
  | 0, it, v, h => ⟨it, v, rfl, h⟩
  | fuel + 1, it, v, h => by
    obtain ⟨c, e, hc⟩ := rdz body it h
    simp only [convDigits, e, Res.ok_bind]
    by_cases hd : isDigit c
    · simp only [hd, not_true, if_false]
      exact convDigits_safe body fuel (it + 1) _ (hc (isDigit_ne_zero hd))
    · exact ⟨it, v, by simp [hd], h⟩

theorem convSkip_safe (body : List Nat) : ∀ (fuel it : Nat), it ≤ body.length →
    ∃ it', convSkip (body ++ [0]) fuel it = .ok it' ∧ it' ≤ body.length
  | 0, it, h => ⟨it, rfl, h⟩
  | fuel + 1, it, h => by
    obtain ⟨c, e, hc⟩ := rdz body it h
    simp only [convSkip, e, Res.ok_bind]
    by_cases hd : isDigit c
    · simp only [hd, not_true, if_false]
      exact convSkip_safe body fuel (it + 1) (hc (isDigit_ne_zero hd))
    · exact ⟨it, by simp [hd], h⟩

theorem convFraction_safe (body : List Nat) (len dp it : Nat) (hdp : dp ≠ 0) (h : it ≤ body.length) :
    ∃ it' r, convFraction (body ++ [0]) len dp it = .ok (it', r) ∧ it' ≤ body.length := by
  obtain ⟨c, e, hc⟩ := rdz body it h
  simp only [convFraction, e, Res.ok_bind]
  by_cases hd : c = dp
  · subst hd
    obtain ⟨c1, e1, hc1⟩ := rdz body (it + 1) (hc hdp)
    simp only [if_true, e1, Res.ok_bind]
    by_cases hd1 : isDigit c1
    · obtain ⟨c2, e2, hc2⟩ := rdz body (it + 2) (hc1 (isDigit_ne_zero hd1))
      simp only [hd1, if_true, e2, Res.ok_bind]
      by_cases hd2 : isDigit c2
      · obtain ⟨it', e3, h3⟩ := convSkip_safe body (len - (it + 2 + 1)) (it + 2 + 1) (hc2 (isDigit_ne_zero hd2))
        simp only [hd2, if_true, e3]
        exact ⟨it', _, rfl, h3⟩
      · obtain ⟨it', e3, h3⟩ := convSkip_safe body (len - (it + 2)) (it + 2) (hc1 (isDigit_ne_zero hd1))
        simp only [hd2, if_false, e3]
        exact ⟨it', _, rfl, h3⟩
    · simp only [hd1, if_false, e1, Res.ok_bind]
      obtain ⟨it', e3, h3⟩ := convSkip_safe body (len - (it + 1)) (it + 1) (hc hdp)
      simp only [e3]
      exact ⟨it', _, rfl, h3⟩
  · simp only [hd, if_false]
    exact ⟨it, -1, rfl, h⟩

theorem convFactor_zero : convFactor 0 = 0 := by decide

theorem convUnits_safe (body : List Nat) (len it : Nat) (h : it ≤ body.length) :
    ∃ o, convUnits (body ++ [0]) len it = .ok o ∧ ∀ u it', o = some (u, it') → it' ≤ body.length := by
  unfold convUnits
  by_cases hl : len ≤ it
  · refine ⟨_, if_pos hl, fun u it' e => ?_⟩
    simp only [Option.some.injEq, Prod.mk.injEq] at e
    omega
  · rw [if_neg hl]
    obtain ⟨c, e, hc⟩ := rdz body it h
    simp only [e, Res.ok_bind]
    by_cases h1 : c = 105
    · obtain ⟨c', e', hc'⟩ := rdz body (it + 1) (hc (by omega))
      simp only [h1, if_true, e', Res.ok_bind, Res.pure_eq]
      by_cases h2 : c' = 66
      · refine ⟨some (1024, it + 2), by simp [h2], fun u it' e => ?_⟩
        simp only [Option.some.injEq, Prod.mk.injEq] at e
        have := hc' (by omega)
        omega
      · exact ⟨none, by simp [h2], fun u it' e => by cases e⟩
    · simp only [h1, if_false, Res.pure_eq, Res.ok_bind]
      by_cases h2 : c = 66
      · refine ⟨some (1000, it + 1), by simp [h2], fun u it' e => ?_⟩
        simp only [Option.some.injEq, Prod.mk.injEq] at e
        have := hc (by omega)
        omega
      · exact ⟨none, by simp [h2], fun u it' e => by cases e⟩

theorem byteSizeConvert_safe (verbose : Bool) (dp : Option Nat) (hdp : dp ≠ some 0) (body : List Nat) (len : Nat) (size : Option (BitVec 64)) :
    ∃ r size', byteSizeConvert verbose dp (some (body ++ [0])) len size = .ok (r, size') ∧ (r = 1 ∧ size'.isSome ∨ r = -1 ∧ size' = size) := by
  unfold byteSizeConvert
  rcases size with _ | old
  · exact ⟨-1, none, rfl, .inr ⟨rfl, rfl⟩⟩
  rcases dp with _ | dp
  · exact ⟨-1, some old, rfl, .inr ⟨rfl, rfl⟩⟩
  have hdp : dp ≠ 0 := fun h => hdp (by rw [h])
  obtain ⟨it, v, e, h⟩ := convDigits_safe body len 0 0 (Nat.zero_le _)
  obtain ⟨it1, r, e1, h1⟩ := convFraction_safe body len dp it hdp h
  obtain ⟨c, e2, h2⟩ := rdz body it1 h1
  simp only [e, e1, e2, Res.ok_bind]
  have h3 : (if c = 32 then it1 + 1 else it1) ≤ body.length := by
    split
    · exact h2 (by omega)
    · exact h1
  generalize (if c = 32 then it1 + 1 else it1) = it2 at *
  obtain ⟨c', e3, h4⟩ := rdz body it2 h3
  simp only [e3, Res.ok_bind]
  have h5 : (if 1 < convFactor c' then it2 + 1 else it2) ≤ body.length := by
    split
    · rename_i h
      refine h4 fun h0 => ?_
      rw [h0, convFactor_zero] at h
      omega
    · exact h3
  generalize (if 1 < convFactor c' then it2 + 1 else it2) = it3 at *
  obtain ⟨o, e4, h6⟩ := convUnits_safe body len it3 h5
  simp only [e4, Res.ok_bind]
  rcases o with _ | ⟨u, it4⟩
  · exact ⟨-1, some old, rfl, .inr ⟨rfl, rfl⟩⟩
  · obtain ⟨c4, e5, -⟩ := rdz body it4 (h6 u it4 rfl)
    cases verbose <;> simp only [e5, if_true, Res.ok_bind, Bool.false_eq_true, if_false, Res.pure_eq] <;> exact ⟨1, _, rfl, .inl ⟨rfl, rfl⟩⟩

instance : Fintype SizeUnit := ⟨{.none, .iB, .B}, fun x => by cases x <;> decide⟩

/-- What follows the number: factor letter, unit and terminator. -/
def sizeEnd (f : Fin 9) (up : Bool) (u : SizeUnit) : List Nat := factorLetter f up ++ u.text ++ [0]

theorem sizeEnd_cons (f : Fin 9) (up : Bool) (u : SizeUnit) :
    sizeEnd f up u = (sizeEnd f up u).headD 0 :: (sizeEnd f up u).tail := by revert f up u; decide

theorem sizeEnd_factor (f : Fin 9) (up : Bool) (u : SizeUnit) : convFactor ((sizeEnd f up u).headD 0) = f.1 := by revert f up u; decide

theorem sizeEnd_head (f : Fin 9) (up : Bool) (u : SizeUnit) : (sizeEnd f up u).headD 0 ∈ sizeChars ∧ ¬ isDigit ((sizeEnd f up u).headD 0) ∧
    (sizeEnd f up u).headD 0 ≠ 32 := by revert f up u; decide

theorem factorLetter_length (f : Fin 9) (up : Bool) : (factorLetter f up).length = if f = 0 then 0 else 1 := by revert f up; decide

theorem convUnits_eval (P : List Nat) (u : SizeUnit) :
    convUnits (P ++ (u.text ++ [0])) (P.length + u.text.length) P.length = .ok (some (u.base, P.length + u.text.length)) := by
  cases u with
  | none => exact if_pos (Nat.le_refl _)
  | iB =>
    have e : P ++ (SizeUnit.iB.text ++ [0]) = P ++ 105 :: [66, 0] := rfl
    have h1 := rd_at P 105 [66, 0]
    have h2 := rd_at (P ++ [105]) 66 [0]
    have h3 : List.length (P ++ [105]) = P.length + 1 := List.length_append
    rw [show P ++ [105] ++ 66 :: [0] = P ++ 105 :: [66, 0] by simp, h3] at h2
    rw [e, convUnits, if_neg (by simp [SizeUnit.text]), h1, Res.ok_bind, if_pos rfl, h2]
    rfl
  | B =>
    have e : P ++ (SizeUnit.B.text ++ [0]) = P ++ 66 :: [0] := rfl
    rw [e, convUnits, if_neg (by simp [SizeUnit.text]), rd_at]
    rfl

theorem convUnits_kilo (P : List Nat) (up : Bool) (u : SizeUnit) :
    convUnits (P ++ sizeEnd 1 up u) (P.length + 1 + u.text.length) P.length = .ok none := by
  obtain ⟨t, h⟩ : ∃ t, sizeEnd 1 up u = (if up then 75 else 107) :: t := by cases up <;> cases u <;> exact ⟨_, rfl⟩
  rw [h, convUnits, if_neg (by omega), rd_at]
  cases up <;> rfl

theorem sizeText_eval (verbose : Bool) (dp : Nat) (hdp : dp ∉ sizeChars) (ds : List (Fin 10)) (frac : Option (List (Fin 10))) (sp : Bool) (f : Fin 9) (up : Bool)
    (u : SizeUnit) (old : BitVec 64) :
    byteSizeConvert verbose (some dp) (some (sizeText dp ds frac sp f up u ++ [0])) (sizeText dp ds frac sp f up u).length (some old) =
      if f = 1 then .ok (-1, some old) else .ok (1, some (BitVec.ofNat 64 (scaled (decimal ds) (fracValue frac) f.1 u.base))) := by
  have hnd : ¬ isDigit dp := by
    intro h
    apply hdp
    unfold isDigit at h
    have : ∀ d : Fin 10, 48 + d.1 ∈ sizeChars := by decide
    have := this ⟨dp - 48, by omega⟩
    rwa [show 48 + (dp - 48) = dp by omega] at this
  -- the text after the number
  have hE := sizeEnd_cons f up u
  obtain ⟨hh1, hh2, hh3⟩ := sizeEnd_head f up u
  have hs : sizeText dp ds frac sp f up u ++ [0] = digitChars ds ++ (fracText dp frac ++ (spaceText sp ++ sizeEnd f up u)) := by
    simp [sizeText, sizeEnd]
  have hdl : (digitChars ds).length = ds.length := by simp [digitChars]
  have hlen : (sizeText dp ds frac sp f up u).length = ds.length + (fracText dp frac).length + (spaceText sp).length + (factorLetter f up).length + u.text.length := by
    simp [sizeText, hdl]; omega
  -- first character after the fraction
  obtain ⟨c, t, hct, hc1, hc2⟩ : ∃ c t, spaceText sp ++ sizeEnd f up u = c :: t ∧ c ∈ sizeChars ∧ ¬ isDigit c := by
    cases sp with
    | false => exact ⟨_, _, hE, hh1, hh2⟩
    | true => exact ⟨32, _, rfl, by decide, by decide⟩
  -- number
  have h1 : convDigits (sizeText dp ds frac sp f up u ++ [0]) (sizeText dp ds frac sp f up u).length 0 0 = .ok (ds.length, BitVec.ofNat 64 (decimal ds)) := by
    obtain ⟨c', t', e', h'⟩ : ∃ c' t', fracText dp frac ++ (spaceText sp ++ sizeEnd f up u) = c' :: t' ∧ ¬ isDigit c' := by
      cases frac with
      | none => exact ⟨c, t, hct, hc2⟩
      | some fr => exact ⟨dp, _, rfl, hnd⟩
    have := convDigits_eval ds [] c' t' 0 (sizeText dp ds frac sp f up u).length h' (by omega)
    rw [hs, e']
    simpa using this
  -- fraction
  have h2 : ∃ r : Int, convFraction (sizeText dp ds frac sp f up u ++ [0]) (sizeText dp ds frac sp f up u).length dp ds.length =
      .ok (ds.length + (fracText dp frac).length, r) ∧ (r = (fracValue frac : Nat) ∨ r ≤ 0 ∧ fracValue frac = 0) := by
    rw [hs, hct]
    cases frac with
    | none =>
      refine ⟨-1, ?_, .inr ⟨by decide, rfl⟩⟩
      have := convFraction_none (digitChars ds) c t (sizeText dp ds none sp f up u).length dp (fun h => hdp (h ▸ hc1))
      rw [hdl] at this
      exact this
    | some fr =>
      have := convFraction_some (digitChars ds) fr c t (sizeText dp ds (some fr) sp f up u).length dp hc2 (by
        rw [hlen, hdl]
        simp [fracText, digitChars]
        omega)
      rw [hdl] at this
      refine ⟨fracRemainder fr, ?_, ?_⟩
      · rw [show ds.length + (fracText dp (some fr)).length = ds.length + 1 + fr.length by simp [fracText, digitChars]; omega]
        simpa [fracText] using this
      · cases fr with
        | nil => exact .inr ⟨by decide, rfl⟩
        | cons a fr => exact .inl rfl
  obtain ⟨r, h2, hr⟩ := h2
  -- space
  have h3 : rd (sizeText dp ds frac sp f up u ++ [0]) (ds.length + (fracText dp frac).length) = .ok c := by
    have := rd_at (digitChars ds ++ fracText dp frac) c t
    rw [hs, hct, ← List.append_assoc]
    rwa [List.length_append, hdl] at this
  have h4 : (if c = 32 then ds.length + (fracText dp frac).length + 1 else ds.length + (fracText dp frac).length) =
      ds.length + (fracText dp frac).length + (spaceText sp).length := by
    cases sp with
    | false =>
      have : c = (sizeEnd f up u).headD 0 := by rw [show spaceText false ++ sizeEnd f up u = sizeEnd f up u from rfl] at hct; rw [hct]; rfl
      rw [if_neg (this ▸ hh3)]
      rfl
    | true =>
      have : c = 32 := by injection hct with h _; exact h.symm
      rw [if_pos this]
      rfl
  -- factor
  have hP : (digitChars ds ++ fracText dp frac ++ spaceText sp).length = ds.length + (fracText dp frac).length + (spaceText sp).length := by
    simp [hdl]; omega
  have hs2 : sizeText dp ds frac sp f up u ++ [0] = (digitChars ds ++ fracText dp frac ++ spaceText sp) ++ sizeEnd f up u := by
    simp [sizeText, sizeEnd]
  have h5 : rd (sizeText dp ds frac sp f up u ++ [0]) (ds.length + (fracText dp frac).length + (spaceText sp).length) = .ok ((sizeEnd f up u).headD 0) := by
    rw [hs2, ← hP, hE]
    exact rd_at _ _ _
  simp only [byteSizeConvert, h1, h2, h3, h4, h5, Res.ok_bind, sizeEnd_factor]
  by_cases hf : f = 1
  · subst hf
    have := convUnits_kilo (digitChars ds ++ fracText dp frac ++ spaceText sp) up u
    rw [← hs2, hP] at this
    have hl1 : (factorLetter 1 up).length = 1 := factorLetter_length 1 up
    rw [if_pos rfl, if_neg (by decide), show (sizeText dp ds frac sp 1 up u).length = ds.length + (fracText dp frac).length + (spaceText sp).length + 1 + u.text.length by
      rw [hlen, hl1], this]
    rfl
  · have hl1 := factorLetter_length f up
    have h6 : (if 1 < f.1 then ds.length + (fracText dp frac).length + (spaceText sp).length + 1 else ds.length + (fracText dp frac).length + (spaceText sp).length) =
        (digitChars ds ++ fracText dp frac ++ spaceText sp ++ factorLetter f up).length := by
      rw [List.length_append, hP, hl1]
      by_cases h0 : f = 0
      · subst h0; rfl
      · have : 1 < f.1 := by
          have h1 : f.1 ≠ 0 := fun h => h0 (Fin.ext h)
          have h2 : f.1 ≠ 1 := fun h => hf (Fin.ext h)
          omega
        rw [if_pos this, if_neg h0]
    have hs3 : sizeText dp ds frac sp f up u ++ [0] = (digitChars ds ++ fracText dp frac ++ spaceText sp ++ factorLetter f up) ++ (u.text ++ [0]) := by
      simp [sizeText]
    have hlen2 : (sizeText dp ds frac sp f up u).length = (digitChars ds ++ fracText dp frac ++ spaceText sp ++ factorLetter f up).length + u.text.length := by
      rw [hlen, List.length_append, hP]
    have h7 := convUnits_eval (digitChars ds ++ fracText dp frac ++ spaceText sp ++ factorLetter f up) u
    rw [← hs3, ← hlen2] at h7
    have h8 := rd_at (sizeText dp ds frac sp f up u) 0 []
    rw [if_neg hf, h6, h7]
    simp only [Res.ok_bind, convScale_eq _ _ _ _ _ hr]
    cases verbose
    · rfl
    · simp only [if_true, h8, Res.ok_bind]
      rfl

theorem divLoop_eval (U : Nat) (hU : 2 ≤ U) : ∀ (fuel x last factor : Nat), x < U ^ (fuel + 1) → ∃ k, k ≤ fuel ∧ x < U ^ (k + 1) ∧ (k = 0 ∨ U ^ k ≤ x) ∧
    divLoop U fuel x last factor = .ok (x / U ^ k, if k = 0 then last else x / U ^ (k - 1), factor + k) := by
  intro fuel
  induction fuel with
  | zero =>
    intro x last factor hx
    refine ⟨0, Nat.le_refl _, hx, .inl rfl, ?_⟩
    rw [divLoop, if_neg (by simp at hx; omega)]
    simp
  | succ fuel ih =>
    intro x last factor hx
    by_cases h : U ≤ x
    · obtain ⟨k, h1, h2, h3, h4⟩ := ih (x / U) x (factor + 1) (by
        rw [Nat.div_lt_iff_lt_mul (by omega)]
        rwa [← Nat.pow_succ])
      refine ⟨k + 1, by omega, ?_, .inr ?_, ?_⟩
      · rw [Nat.div_lt_iff_lt_mul (by omega), ← Nat.pow_succ] at h2
        exact h2
      · rcases h3 with rfl | h3
        · simpa using h
        · rw [Nat.le_div_iff_mul_le (by omega), ← Nat.pow_succ] at h3
          exact h3
      · rw [divLoop, if_pos h, if_neg (by omega)]
        show divLoop U fuel (x / U) x (factor + 1) = _
        rw [h4, Nat.div_div_eq_div_mul, ← Nat.pow_succ']
        simp only [Nat.add_eq_zero_iff, Nat.one_ne_zero, and_false, if_false, Nat.add_sub_cancel, Res.ok.injEq, Prod.mk.injEq, true_and]
        refine ⟨?_, by omega⟩
        by_cases hk : k = 0
        · subst hk; simp
        · rw [if_neg hk, Nat.div_div_eq_div_mul, ← Nat.pow_succ', Nat.succ_eq_add_one, Nat.sub_add_cancel (by omega)]
    · refine ⟨0, Nat.zero_le _, by simp; omega, .inl rfl, ?_⟩
      rw [divLoop, if_neg h]
      simp

theorem decChars_eval (n : Nat) : ∃ ds : List (Fin 10), decChars n = digitChars ds ∧ decimal ds = n ∧ canonical ds ∧ ∀ k, 0 < k → n < 10 ^ k → ds.length ≤ k := by
  by_cases h : n = 0
  · subst h
    exact ⟨[0], rfl, rfl, .inl rfl, fun k hk _ => hk⟩
  · have hlt : ∀ x ∈ Nat.digits 10 n, x < 10 := fun x hx => Nat.digits_lt_base (by decide) hx
    obtain ⟨ds, hds⟩ : ∃ ds : List (Fin 10), Nat.digits 10 n = ds.map (·.1) := by
      generalize Nat.digits 10 n = l at hlt
      induction l with
      | nil => exact ⟨[], rfl⟩
      | cons a l ih =>
        obtain ⟨ds, e⟩ := ih fun x hx => hlt x (List.mem_cons_of_mem _ hx)
        exact ⟨⟨a, hlt a List.mem_cons_self⟩ :: ds, by rw [List.map_cons, ← e]⟩
    have hne : ds ≠ [] := by
      rintro rfl
      exact h (Nat.digits_eq_nil_iff_eq_zero.mp hds)
    refine ⟨ds.reverse, ?_, ?_, ?_, ?_⟩
    · rw [decChars, if_neg h, hds]
      simp [digitChars, Function.comp_def]
    · rw [decimal, ← List.map_reverse, List.reverse_reverse, ← hds, Nat.ofDigits_digits]
    · refine .inr ⟨ds.getLast hne, ds.dropLast.reverse, ?_, ?_⟩
      · conv_lhs => rw [← List.dropLast_append_getLast hne]
        simp
      · intro h0
        have := Nat.getLast_digit_ne_zero 10 h
        apply this
        simp only [hds, List.getLast_map, h0]
        rfl
    · intro k _ hk
      have := (Nat.digits_length_le_iff (b := 10) (by decide) (k := k) n).mpr hk
      rw [hds] at this
      simpa using this

theorem factorString_eq (f : Nat) (h : f < 9) : factorString f = factorLetter ⟨f, h⟩ true := by
  have : ∀ f : Fin 9, factorString f.1 = factorLetter f true := by decide
  exact this ⟨f, h⟩

theorem sprintf_eval (buf : List Nat) (n : Nat) (text : List Nat) (hn : text.length < n) (hb : n ≤ buf.length) :
    sprintf buf n text = .ok (text.length, text ++ [0] ++ buf.drop (text.length + 1)) := by
  have ht : text.take (n - 1) = text := List.take_of_length_le (by omega)
  rw [sprintf, if_neg (by omega), ht]
  have h1 : 0 + (text ++ [0]).length ≤ buf.length := by simp; omega
  have h2 : 0 + (text ++ [0]).length ≤ (text ++ [0]).length := by simp
  have h3 : (text ++ [0]).take (text ++ [0]).length = text ++ [0] := List.take_of_length_le (Nat.le_refl _)
  simp only [memCopy_ok h1 h2, Res.ok_bind, Res.pure_eq, List.drop_zero, h3]
  simp

theorem byteSizeCreate_eval (dp : Nat) (buf : List Nat) (len size U : Nat) (hU : U = 1000 ∨ U = 1024) (hs : size < 2 ^ 64) (hl : 9 ≤ len) (hb : len ≤ buf.length) :
    ∃ (f : Fin 9) (ds : List (Fin 10)), decimal ds = size / U ^ f.1 ∧ canonical ds ∧ f.1 ≤ 6 ∧ (f.1 = 0 ∨ U ^ f.1 ≤ size) ∧ size < U ^ (f.1 + 1) ∧
      (sizeText dp ds (shownFraction size U f) true f true (shownUnit size U)).length ≤ 8 ∧
      byteSizeCreate (some dp) (some buf) len size U =
        .ok (1, some (sizeText dp ds (shownFraction size U f) true f true (shownUnit size U) ++ [0] ++
          buf.drop ((sizeText dp ds (shownFraction size U f) true f true (shownUnit size U)).length + 1))) := by
  obtain ⟨k, -, h2, h3, h4⟩ := divLoop_eval U (by omega) 64 size 0 0 (by
    have : 2 ^ 64 ≤ U ^ (64 + 1) := by rcases hU with rfl | rfl <;> decide
    omega)
  have hk : k ≤ 6 := by
    rcases h3 with rfl | h3
    · omega
    · by_contra hk
      have : U ^ 7 ≤ U ^ k := Nat.pow_le_pow_right (by omega) (by omega)
      have : 2 ^ 64 ≤ U ^ 7 := by rcases hU with rfl | rfl <;> decide
      omega
  have hx : size / U ^ k < U := by
    rw [Nat.div_lt_iff_lt_mul (Nat.pow_pos (by omega)), ← Nat.pow_succ']
    exact h2
  obtain ⟨ds, e1, e2, e3, e4⟩ := decChars_eval (size / U ^ k)
  refine ⟨⟨k, by omega⟩, ds, e2, e3, hk, h3, h2, ?_⟩
  have hgk : U ≤ size ↔ k ≠ 0 := by
    constructor
    · rintro h rfl
      simp at h2
      omega
    · intro h
      rcases h3 with h3 | h3
      · exact absurd h3 h
      · have : U ^ 1 ≤ U ^ k := Nat.pow_le_pow_right (by omega) (by omega)
        rw [Nat.pow_one] at this
        omega
  have hfl := factorLetter_length ⟨k, by omega⟩ true
  have hus : (shownUnit size U).text.length ≤ if size < 1024 ∨ U = 1000 then 1 else 2 := by
    unfold shownUnit
    split <;> decide
  have hus' : (if size < 1024 ∨ U = 1000 then some [66] else if U = 1024 then some [105, 66] else none) = some (shownUnit size U).text := by
    unfold shownUnit
    split
    · rfl
    · rw [if_pos (by omega)]
      rfl
  have hdl : (digitChars ds).length = ds.length := by simp [digitChars]
  simp only [byteSizeCreate, if_neg (show ¬ len < 9 by omega), hus', h4, Res.ok_bind, Nat.zero_add, if_neg (show ¬ 8 < k by omega)]
  by_cases hfr : k = 0 ∨ 10 ≤ size / U ^ k
  · have hf : shownFraction size U (⟨k, by omega⟩ : Fin 9).1 = none := if_pos hfr
    have hlen : (sizeText dp ds none true ⟨k, by omega⟩ true (shownUnit size U)).length ≤ 8 := by
      simp only [sizeText, fracText, spaceText, List.length_append, hdl, hfl, if_true, List.length_cons, List.length_nil]
      have hd4 := e4 4 (by decide) (by omega)
      have : (if (⟨k, by omega⟩ : Fin 9) = 0 then 0 else 1) ≤ 1 := by split <;> omega
      split at hus <;> omega
    rw [hf]
    refine ⟨hlen, ?_⟩
    have hc : ¬ (U ≤ size ∧ size / U ^ k < 10) := by
      rw [hgk]
      omega
    simp only [if_neg hc, show ¬ (9 : Int) < -1 by decide, show ¬ (0 : Int) ≤ -1 by decide, if_false]
    have ht : decChars (size / U ^ k) ++ 32 :: factorString k ++ (shownUnit size U).text = sizeText dp ds none true ⟨k, by omega⟩ true (shownUnit size U) := by
      rw [e1, factorString_eq k (by omega)]
      simp [sizeText, fracText, spaceText]
    rw [ht, sprintf_eval _ _ _ (by omega) hb, Res.ok_bind]
    simp only
    rw [if_neg (by omega)]
    rfl
  · have hk0 : k ≠ 0 := fun h => hfr (.inl h)
    have hf : shownFraction size U (⟨k, by omega⟩ : Fin 9).1 = some [⟨min 9 (size / U ^ (k - 1) % U / 100), by omega⟩] := if_neg hfr
    generalize hd : (⟨min 9 (size / U ^ (k - 1) % U / 100), by omega⟩ : Fin 10) = d at hf
    have hdv : min 9 (size / U ^ (k - 1) % U / 100) = d.1 := by rw [← hd]
    have hlen : (sizeText dp ds (some [d]) true ⟨k, by omega⟩ true (shownUnit size U)).length ≤ 8 := by
      simp only [sizeText, fracText, spaceText, List.length_append, hfl, if_true, List.length_cons, List.length_nil, digitChars, List.map_cons, List.map_nil]
      have hd4 := e4 1 (by decide) (by omega)
      have : (if (⟨k, by omega⟩ : Fin 9) = 0 then 0 else 1) ≤ 1 := by split <;> omega
      split at hus <;> simp only [List.length_map] <;> omega
    rw [hf]
    refine ⟨hlen, ?_⟩
    have hc : U ≤ size ∧ size / U ^ k < 10 := ⟨hgk.mpr hk0, by omega⟩
    rw [if_pos hc, if_neg hk0]
    have hr : (if (9 : Int) < ((size / U ^ (k - 1) % U / 100 : Nat) : Int) then (9 : Int) else ((size / U ^ (k - 1) % U / 100 : Nat) : Int)) = (d.1 : Int) := by
      rw [← hdv]
      split <;> omega
    rw [hr, if_pos (by omega)]
    have ht : decChars (size / U ^ k) ++ dp :: decChars ((d.1 : Int)).toNat ++ 32 :: factorString k ++ (shownUnit size U).text =
        sizeText dp ds (some [d]) true ⟨k, by omega⟩ true (shownUnit size U) := by
      have : decChars d.1 = [48 + d.1] := by
        have : ∀ d : Fin 10, decChars d.1 = [48 + d.1] := by decide +kernel
        exact this d
      rw [e1, factorString_eq k (by omega), Int.toNat_natCast, this]
      simp [sizeText, fracText, spaceText, digitChars]
    rw [ht, sprintf_eval _ _ _ (by omega) hb, Res.ok_bind]
    simp only
    rw [if_neg (by omega)]
    rfl

end Model
