import Verif.Proofs.ByteSize
/-! Byte size strings as used by the `-p` option of hmacsum. `Spec.sizeText` writes a number with optional fraction, space, factor letter and unit. -/

namespace Props

open Spec Model

/-- Full statement of C41, without fraction: a number with factor and unit is parsed to its value, if the value fits 64 bits. -/
def C41Statement : Prop := ∀ (verbose : Bool) (dp : Nat), dp ∉ sizeChars → ∀ (ds : List (Fin 10)) (sp : Bool) (f : Fin 9) (up : Bool) (u : SizeUnit) (old : BitVec 64),
  decimal ds * u.base ^ f.1 < 2 ^ 64 →
  byteSizeConvert verbose (some dp) (some (sizeText dp ds none sp f up u ++ [0])) (sizeText dp ds none sp f up u).length (some old) =
    .ok (1, some (BitVec.ofNat 64 (decimal ds * u.base ^ f.1)))

/-- The code does not satisfy it: every text with factor letter K or k is rejected. -/
theorem C41_kilo_rejected (verbose : Bool) (dp : Nat) (hdp : dp ∉ sizeChars) (ds : List (Fin 10)) (frac : Option (List (Fin 10))) (sp up : Bool) (u : SizeUnit)
    (old : BitVec 64) :
    byteSizeConvert verbose (some dp) (some (sizeText dp ds frac sp 1 up u ++ [0])) (sizeText dp ds frac sp 1 up u).length (some old) = .ok (-1, some old) := by
  rw [sizeText_eval verbose dp hdp, if_pos rfl]

/-- "64 KiB" in a locale with decimal point '.'. -/
example := C41_kilo_rejected true 46 (by decide) [6, 4] none true true .iB 5

theorem C41_statement_false : ¬ C41Statement := by
  intro h
  have h1 := h true 46 (by decide) [6, 4] true 1 true .iB 5 (by decide)
  have h2 := C41_kilo_rejected true 46 (by decide) [6, 4] none true true .iB 5
  rw [h2] at h1
  simp at h1

/-- What holds: with every other factor the value is computed modulo 2^64. Missing: the factor letter K. -/
theorem C41_value_partial (verbose : Bool) (dp : Nat) (hdp : dp ∉ sizeChars) (ds : List (Fin 10)) (sp : Bool) (f : Fin 9) (hf : f ≠ 1) (up : Bool) (u : SizeUnit)
    (old : BitVec 64) :
    ∃ v : BitVec 64, byteSizeConvert verbose (some dp) (some (sizeText dp ds none sp f up u ++ [0])) (sizeText dp ds none sp f up u).length (some old) = .ok (1, some v) ∧
      v.toNat = decimal ds * u.base ^ f.1 % 2 ^ 64 ∧
      (decimal ds * u.base ^ f.1 < 2 ^ 64 → v.toNat = decimal ds * u.base ^ f.1) := by
  rw [sizeText_eval verbose dp hdp, if_neg hf]
  have e : scaled (decimal ds) (fracValue none) f.1 u.base = decimal ds * u.base ^ f.1 := if_neg (by simp [fracValue, hundredths])
  refine ⟨_, rfl, ?_, fun h => ?_⟩
  · rw [e, BitVec.toNat_ofNat]
  · rw [e, BitVec.toNat_ofNat, Nat.mod_eq_of_lt h]

/-- "32 mb". -/
example : ∃ v : BitVec 64, byteSizeConvert false (some 46) (some ("32 mB".toList.map Char.toNat ++ [0])) 5 (some 0) = .ok (1, some v) ∧ v.toNat = 32000000 :=
  let ⟨v, h1, _, h3⟩ := C41_value_partial false 46 (by decide) [3, 2] true 2 (by decide) false .B 0
  ⟨v, h1, h3 (by decide)⟩

/-- With a fraction and unit B the value is `(n + h / 100) * 1000 ^ f`, with base 1024 a hundredth counts as ten times the next smaller factor; digits after the
second do not count and without a factor the fraction does not count. Missing: the factor letter K. -/
theorem C41_fraction_partial (verbose : Bool) (dp : Nat) (hdp : dp ∉ sizeChars) (ds fr : List (Fin 10)) (sp : Bool) (f : Fin 9) (hf : f ≠ 1) (up : Bool) (u : SizeUnit)
    (old : BitVec 64) :
    ∃ v : BitVec 64, byteSizeConvert verbose (some dp) (some (sizeText dp ds (some fr) sp f up u ++ [0])) (sizeText dp ds (some fr) sp f up u).length (some old) =
        .ok (1, some v) ∧
      (f.1 = 0 → v.toNat = decimal ds % 2 ^ 64) ∧
      (0 < f.1 → v.toNat = (decimal ds * u.base ^ f.1 + 10 * hundredths fr * u.base ^ (f.1 - 1)) % 2 ^ 64) ∧
      (0 < f.1 → u = .B → (100 * decimal ds + hundredths fr) * 1000 ^ f.1 < 100 * 2 ^ 64 → 100 * v.toNat = (100 * decimal ds + hundredths fr) * 1000 ^ f.1) := by
  rw [sizeText_eval verbose dp hdp, if_neg hf]
  have e : 0 < f.1 → scaled (decimal ds) (fracValue (some fr)) f.1 u.base = decimal ds * u.base ^ f.1 + 10 * hundredths fr * u.base ^ (f.1 - 1) := by
    intro h0
    obtain ⟨g, hg⟩ : ∃ g, f.1 = g + 1 := ⟨f.1 - 1, by omega⟩
    unfold scaled
    simp only [fracValue, Option.getD_some, hg, Nat.add_sub_cancel]
    by_cases hh : 0 < hundredths fr
    · rw [if_pos ⟨by omega, hh⟩]
      ring
    · rw [if_neg (by omega)]
      obtain hh : hundredths fr = 0 := by omega
      simp [hh]
  refine ⟨_, rfl, fun h0 => ?_, fun h0 => ?_, fun h0 hu hb => ?_⟩
  · rw [BitVec.toNat_ofNat, scaled, if_neg (by omega), h0, Nat.pow_zero, Nat.mul_one]
  · rw [e h0, BitVec.toNat_ofNat]
  · subst hu
    rw [e h0, BitVec.toNat_ofNat]
    obtain ⟨g, hg⟩ : ∃ g, f.1 = g + 1 := ⟨f.1 - 1, by omega⟩
    simp only [hg, Nat.add_sub_cancel, SizeUnit.base] at hb ⊢
    have : (100 * decimal ds + hundredths fr) * 1000 ^ (g + 1) = 100 * (decimal ds * 1000 ^ (g + 1) + 10 * hundredths fr * 1000 ^ g) := by ring
    rw [this] at hb ⊢
    rw [Nat.mod_eq_of_lt (by omega)]

/-- "2.25 GB" is 2250000000. -/
example : ∃ v : BitVec 64, byteSizeConvert false (some 46) (some ("2.25 GB".toList.map Char.toNat ++ [0])) 7 (some 0) = .ok (1, some v) ∧ v.toNat = 2250000000 :=
  let ⟨v, h1, _, _, h4⟩ := C41_fraction_partial false 46 (by decide) [2] [2, 5] true 3 (by decide) true .B 0
  ⟨v, h1, by have := h4 (by decide) rfl (by decide); simp [decimal, hundredths] at this; omega⟩

/-- Values that do not fit are not rejected: "1Z" gives 0. -/
theorem C41_too_large_accepted : byteSizeConvert false (some 46) (some ("1Z".toList.map Char.toNat ++ [0])) 2 (some 7) = .ok (1, some 0) := by decide +kernel

/-- C42: conversion of a terminated string never reads beyond the terminator, whatever its characters and the length argument are, ends with 1 or -1 and leaves
the variable alone on -1. -/
theorem C42_in_bounds (verbose : Bool) (dp : Option Nat) (hdp : dp ≠ some 0) (body : List Nat) (len : Nat) (size : Option (BitVec 64)) :
    ∃ r size', byteSizeConvert verbose dp (some (body ++ [0])) len size = .ok (r, size') ∧ (r = 1 ∧ size'.isSome ∨ r = -1 ∧ size' = size) :=
  byteSizeConvert_safe verbose dp hdp body len size

example := C42_in_bounds true (some 44) (by decide) ("12,".toList.map Char.toNat) 100 (some 3)

/-- NULL arguments or an unknown decimal point give -1. -/
theorem C42_rejects (verbose : Bool) (dp : Option Nat) (string : Option (List Nat)) (len : Nat) (size : Option (BitVec 64)) (h : string = none ∨ size = none ∨ dp = none) :
    byteSizeConvert verbose dp string len size = .ok (-1, size) := by
  rcases string with _ | s
  · rfl
  · rcases size with _ | v
    · rfl
    · rcases dp with _ | d
      · rfl
      · simp at h

example := C42_rejects true none (some [49, 0]) 1 (some 3) (.inr (.inr rfl))

/-- C43: for base 1000 or 1024 and every 64-bit size the text is the size divided by the largest power of the base not above it, rounded down, without leading
zeros, followed by a digit of fraction below 10, a space, the factor letter and the unit. It has at most 8 characters, is terminated, and the rest of the buffer
is unchanged. -/
theorem C43_format (dp : Nat) (buf : List Nat) (len size U : Nat) (hU : U = 1000 ∨ U = 1024) (hs : size < 2 ^ 64) (hl : 9 ≤ len) (hb : len ≤ buf.length) :
    ∃ (f : Fin 9) (ds : List (Fin 10)), decimal ds = size / U ^ f.1 ∧ canonical ds ∧ f.1 ≤ 6 ∧ (f.1 = 0 ∨ U ^ f.1 ≤ size) ∧ size < U ^ (f.1 + 1) ∧
      (sizeText dp ds (shownFraction size U f) true f true (shownUnit size U)).length ≤ 8 ∧
      byteSizeCreate (some dp) (some buf) len size U =
        .ok (1, some (sizeText dp ds (shownFraction size U f) true f true (shownUnit size U) ++ [0] ++
          buf.drop ((sizeText dp ds (shownFraction size U f) true f true (shownUnit size U)).length + 1))) :=
  byteSizeCreate_eval dp buf len size U hU hs hl hb

example := C43_format 46 (List.replicate 16 0) 16 (2 ^ 64 - 1) 1024 (.inr rfl) (by decide) (by decide) (by decide)

/-- "15 EiB" is shown for the largest size, "1.9 KiB" for 2047. -/
example : byteSizeCreate (some 46) (some (List.replicate 10 7)) 9 (2 ^ 64 - 1) 1024 = .ok (1, some ("15 EiB".toList.map Char.toNat ++ [0, 7, 7, 7])) := by decide +kernel
example : byteSizeCreate (some 46) (some (List.replicate 10 7)) 9 2047 1024 = .ok (1, some ("1.9 KiB".toList.map Char.toNat ++ [0, 7, 7])) := by decide +kernel

/-- A string too short for every text is rejected and not written. -/
theorem C43_rejects (dp : Option Nat) (string : Option (List Nat)) (len size U : Nat) (h : string = none ∨ len < 9) :
    byteSizeCreate dp string len size U = .ok (-1, string) := by
  rcases string with _ | s
  · rfl
  · rcases h with h | h
    · cases h
    · exact if_pos h

example := C43_rejects (some 46) (some [1, 2]) 8 5 1000 (.inr (by decide))

/-- The text shown for a size, up to the terminator, given back to the conversion. -/
def reparse (verbose : Bool) (dp : Nat) (size U : Nat) (old : BitVec 64) : Res (Int × Option (BitVec 64)) := do
  let r ← byteSizeCreate (some dp) (some (List.replicate 16 0)) 16 size U
  let text := (r.2.getD []).takeWhile (· ≠ 0)
  byteSizeConvert verbose (some dp) (some (text ++ [0])) text.length (some old)

theorem reparse_eval (verbose : Bool) (dp : Nat) (hdp : dp ∉ sizeChars) (size U : Nat) (hU : U = 1000 ∨ U = 1024) (hs : size < 2 ^ 64) (old : BitVec 64) :
    ∃ (f : Fin 9) (ds : List (Fin 10)), decimal ds = size / U ^ f.1 ∧ f.1 ≤ 6 ∧ (f.1 = 0 ∨ U ^ f.1 ≤ size) ∧ size < U ^ (f.1 + 1) ∧
      reparse verbose dp size U old = if f = 1 then .ok (-1, some old) else
        .ok (1, some (BitVec.ofNat 64 (scaled (decimal ds) (fracValue (shownFraction size U f)) f.1 (shownUnit size U).base))) := by
  obtain ⟨f, ds, h1, h2, h3, h4, h5, h6, h7⟩ := byteSizeCreate_eval dp (List.replicate 16 0) 16 size U hU hs (by decide) (by decide)
  refine ⟨f, ds, h1, h3, h4, h5, ?_⟩
  rw [reparse, h7, Res.ok_bind]
  have hnz : ∀ c ∈ sizeText dp ds (shownFraction size U f) true f true (shownUnit size U), c ≠ 0 := by
    have hd : ∀ (l : List (Fin 10)) (c : Nat), c ∈ digitChars l → c ≠ 0 := by
      intro l c hc
      simp only [digitChars, List.mem_map] at hc
      obtain ⟨d, -, rfl⟩ := hc
      omega
    have hfl : ∀ (f : Fin 9) (up : Bool), ∀ c ∈ factorLetter f up, c ≠ 0 := by decide
    have hu : ∀ (u : SizeUnit), ∀ c ∈ u.text, c ≠ 0 := by decide
    intro c hc
    simp only [sizeText, List.mem_append] at hc
    rcases hc with (((hc | hc) | hc) | hc) | hc
    · exact hd _ _ hc
    · cases hfr : shownFraction size U f with
      | none => rw [hfr] at hc; cases hc
      | some fr =>
        rw [hfr] at hc
        rcases List.mem_cons.mp hc with rfl | hc
        · rintro rfl
          exact hdp (by decide)
        · exact hd _ _ hc
    · simp only [spaceText, if_true, List.mem_singleton] at hc
      omega
    · exact hfl _ _ c hc
    · exact hu _ c hc
  have ht : ∀ (t rest : List Nat), (∀ c ∈ t, c ≠ 0) → (t ++ [0] ++ rest).takeWhile (· ≠ 0) = t := by
    intro t rest h
    rw [List.append_assoc, List.takeWhile_append_of_pos (fun c hc => by simpa using h c hc)]
    simp
  simp only [Option.getD_some, ht _ _ hnz]
  exact sizeText_eval verbose dp hdp ds _ true f true _ old

/-- What holds of C44: a formatted size below the base, or from its square on, parses back to a value not above the size. The value is less than one factor below
the size, and less than an eighth of the factor if a fraction is shown. Missing: sizes shown with the letter K. -/
theorem C44_parses_back_partial (verbose : Bool) (dp : Nat) (hdp : dp ∉ sizeChars) (size U : Nat) (hU : U = 1000 ∨ U = 1024) (hs : size < 2 ^ 64) (old : BitVec 64)
    (hk : size < U ∨ U ^ 2 ≤ size) :
    ∃ (f : Nat) (v : BitVec 64), reparse verbose dp size U old = .ok (1, some v) ∧ (f = 0 ∨ U ^ f ≤ size) ∧ size < U ^ (f + 1) ∧
      v.toNat ≤ size ∧ size < v.toNat + U ^ f ∧ (0 < f → size / U ^ f < 10 → 8 * (size - v.toNat) < U ^ f) := by
  obtain ⟨f, ds, h1, h3, h4, h5, h6⟩ := reparse_eval verbose dp hdp size U hU hs old
  have hf : f ≠ 1 := by
    rintro rfl
    rcases hk with hk | hk
    · rcases h4 with h4 | h4
      · cases h4
      · have h4 : U ^ 1 ≤ size := h4
        rw [Nat.pow_one] at h4
        omega
    · exact absurd (show size < U ^ 2 from h5) (by omega)
  rw [h6, if_neg hf]
  have hpos : 0 < U ^ f.1 := Nat.pow_pos (by omega)
  have hdm := Nat.div_add_mod size (U ^ f.1)
  have hml := Nat.mod_lt size hpos
  by_cases h0 : f.1 = 0
  · have e : scaled (decimal ds) (fracValue (shownFraction size U f)) f.1 (shownUnit size U).base = size := by
      rw [scaled, if_neg (by omega), h1, h0]
      simp
    refine ⟨0, _, rfl, .inl rfl, by rw [h0] at h5; exact h5, ?_⟩
    rw [e, BitVec.toNat_ofNat, Nat.mod_eq_of_lt hs]
    simp
  · have hle : U ^ f.1 ≤ size := by omega
    have hU2 : U ^ 2 ≤ U ^ f.1 := Nat.pow_le_pow_right (by omega) (by
      have : f.1 ≠ 1 := fun h => hf (Fin.ext h)
      omega)
    have hbase : (shownUnit size U).base = U := by
      unfold shownUnit
      rcases hU with rfl | rfl
      · simp [SizeUnit.base]
      · rw [if_neg (by omega)]
        rfl
    rw [hbase, h1]
    obtain ⟨g, hg⟩ : ∃ g, f.1 = g + 1 := ⟨f.1 - 1, by omega⟩
    by_cases hfr : f.1 = 0 ∨ 10 ≤ size / U ^ f.1
    · have e : scaled (size / U ^ f.1) (fracValue (shownFraction size U f)) f.1 U = size / U ^ f.1 * U ^ f.1 := by
        rw [scaled, shownFraction, if_pos hfr, if_neg (by simp [fracValue, hundredths])]
      have hle2 : size / U ^ f.1 * U ^ f.1 ≤ size := Nat.div_mul_le_self _ _
      refine ⟨f.1, _, rfl, h4, h5, ?_⟩
      rw [e, BitVec.toNat_ofNat, Nat.mod_eq_of_lt (by omega)]
      refine ⟨hle2, ?_, fun _ h => by omega⟩
      rw [Nat.mul_comm] at hle2 ⊢
      omega
    · -- tenths
      have hq : size / U ^ f.1 = size / U ^ g / U := by rw [hg, Nat.pow_succ, Nat.div_div_eq_div_mul]
      have hpg : 0 < U ^ g := Nat.pow_pos (by omega)
      generalize hlast : size / U ^ g = last at hq
      have hl1 := Nat.div_add_mod size (U ^ g)
      have hl2 := Nat.mod_lt size hpg
      have hl3 := Nat.div_add_mod last U
      have hl4 := Nat.mod_lt last (show 0 < U by omega)
      rw [hlast] at hl1
      generalize hr : last % U = r at *
      generalize size % U ^ g = m at *
      have e : scaled (size / U ^ f.1) (fracValue (shownFraction size U f)) f.1 U = (last / U * U + 100 * min 9 (r / 100)) * U ^ g := by
        rw [shownFraction, if_neg hfr, scaled, hq]
        simp only [fracValue, hundredths, Option.getD_some, hg, Nat.add_sub_cancel, hlast, hr]
        by_cases hm : 0 < min 9 (r / 100)
        · rw [if_pos ⟨by omega, by omega⟩]
          congr 2
          omega
        · rw [if_neg (by omega), show min 9 (r / 100) = 0 by omega]
          ring
      generalize hw : last / U * U + 100 * min 9 (r / 100) = w at e
      have hwl : w ≤ last ∧ last < w + 124 := by
        rw [Nat.mul_comm] at hw
        omega
      have hle2 : w * U ^ g ≤ size := by
        have := Nat.mul_le_mul_left (U ^ g) hwl.1
        rw [Nat.mul_comm w]
        omega
      have hlt2 : size < w * U ^ g + 124 * U ^ g := by
        have h := Nat.mul_le_mul_left (U ^ g) (show last + 1 ≤ w + 124 by omega)
        have e1 : U ^ g * (last + 1) = U ^ g * last + U ^ g := by ring
        have e2 : U ^ g * (w + 124) = w * U ^ g + 124 * U ^ g := by ring
        omega
      have hpow : U ^ f.1 = U * U ^ g := by rw [hg, Nat.pow_succ, Nat.mul_comm]
      have hbig : 1000 * U ^ g ≤ U ^ f.1 := by
        rw [hpow]
        exact Nat.mul_le_mul_right _ (by omega)
      refine ⟨f.1, _, rfl, h4, h5, ?_⟩
      rw [e, BitVec.toNat_ofNat, Nat.mod_eq_of_lt (by omega)]
      exact ⟨hle2, by omega, fun _ _ => by omega⟩

/-- 1.9 GiB. -/
example := C44_parses_back_partial true 46 (by decide) 2147483000 1024 (.inr rfl) (by decide) 0 (.inr (by decide))

/-- C44 fails for the remaining sizes: the text shown for a size from the base up to its square is rejected. -/
theorem C44_kilo_not_parsed (verbose : Bool) (dp : Nat) (hdp : dp ∉ sizeChars) (size U : Nat) (hU : U = 1000 ∨ U = 1024) (h1 : U ≤ size) (h2 : size < U ^ 2) (old : BitVec 64) :
    reparse verbose dp size U old = .ok (-1, some old) := by
  have hs : size < 2 ^ 64 := by
    have : U ^ 2 ≤ 2 ^ 64 := by rcases hU with rfl | rfl <;> decide
    omega
  obtain ⟨f, ds, -, -, h4, h5, h6⟩ := reparse_eval verbose dp hdp size U hU hs old
  rw [h6, if_pos]
  apply Fin.ext
  show f.1 = 1
  by_contra hne
  rcases h4 with h4 | h4
  · rw [h4] at h5
    simp at h5
    omega
  · have h0 : f.1 ≠ 0 := by
      intro h0
      rw [h0] at h5
      simp at h5
      omega
    have : U ^ 2 ≤ U ^ f.1 := Nat.pow_le_pow_right (by omega) (by omega)
    omega

/-- The default buffer size, 32 KiB. -/
example := C44_kilo_not_parsed false 46 (by decide) 32768 1024 (.inr rfl) (by decide) (by decide) 1

end Props
