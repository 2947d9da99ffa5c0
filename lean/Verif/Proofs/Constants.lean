import Verif.Spec.Constants
import Mathlib.Tactic.Linarith
import Mathlib.Tactic.Ring
import Mathlib.Tactic.FieldSimp
import Mathlib.Tactic.Positivity
import Mathlib.Analysis.Complex.Exponential
/-! Evaluation of the mathematical constants. -/

namespace Model

open Spec

/-! ### Primes -/

/-- No divisor between 2 and n - 1. -/
def primeTest (n : Nat) : Bool := decide (2 ≤ n) && (List.range n).all fun m => m < 2 || n % m != 0

theorem primeTest_iff (n : Nat) : primeTest n = true ↔ n.Prime := by
  rw [Nat.prime_def_lt]
  simp only [primeTest, Bool.and_eq_true, decide_eq_true_eq, List.all_eq_true, List.mem_range, Bool.or_eq_true, bne_iff_ne, ne_eq]
  refine and_congr_right fun h2 => forall_congr' fun m => forall_congr' fun hm => ?_
  constructor
  · rintro (h | h) hd
    · have : m ≠ 0 := by
        rintro rfl
        have := Nat.eq_zero_of_zero_dvd hd
        omega
      omega
    · exact absurd (Nat.mod_eq_zero_of_dvd hd) h
  · intro h
    by_cases hm2 : m < 2
    · exact .inl hm2
    · exact .inr fun h0 => by
        have := h (Nat.dvd_of_mod_eq_zero h0)
        omega

/-- The first eighty primes. -/
def primes : List Nat := (List.range 410).filter primeTest

/-- Number of primes below n. -/
def primeCount (n : Nat) : Nat := ((List.range n).filter primeTest).length

theorem count_eq (n : Nat) : Nat.count Nat.Prime n = primeCount n := by
  rw [Nat.count_eq_card_filter_range, primeCount]
  induction n with
  | zero => rfl
  | succ n ih =>
    rw [List.range_succ, List.filter_append, List.length_append, ← ih, Finset.range_add_one, Finset.filter_insert]
    by_cases h : n.Prime
    · rw [if_pos h, Finset.card_insert_of_notMem (by simp)]
      simp [(primeTest_iff n).mpr h]
    · have : primeTest n = false := by
        rw [← Bool.not_eq_true]
        exact fun h' => h ((primeTest_iff n).mp h')
      rw [if_neg h]
      simp [this]

theorem prime_eq {i p : Nat} (h : primeTest p = true) (hc : primeCount p = i) : prime i = p := by
  have := Nat.nth_count (p := Nat.Prime) ((primeTest_iff p).mp h)
  rw [count_eq, hc] at this
  exact this

theorem primes_table : primes.length = 80 ∧ ∀ i < 80, primeTest (primes.getD i 0) = true ∧ primeCount (primes.getD i 0) = i := by decide +kernel

theorem prime_table (i : Nat) (hi : i < 80) : prime i = primes.getD i 0 := prime_eq (primes_table.2 i hi).1 (primes_table.2 i hi).2

/-! ### Roots -/

theorem floor_of_bounds {x : ℝ} {n : ℤ} (h1 : (n : ℝ) ≤ x) (h2 : x < n + 1) : ⌊x⌋ = n := Int.floor_eq_iff.mpr ⟨h1, h2⟩

theorem fractionBits_eq (w : Nat) (x : ℝ) : fractionBits w x = ⌊2 ^ w * x⌋ % 2 ^ w := by
  have h : (2 : ℝ) ^ w * Int.fract x = 2 ^ w * x - ((2 ^ w * ⌊x⌋ : ℤ) : ℝ) := by
    rw [Int.fract]
    push_cast
    ring
  have hb : 0 ≤ fractionBits w x ∧ fractionBits w x < 2 ^ w := by
    have h0 := Int.fract_nonneg x
    have h1 := Int.fract_lt_one x
    have hp : (0 : ℝ) < 2 ^ w := by positivity
    refine ⟨Int.floor_nonneg.mpr (by positivity), Int.floor_lt.mpr ?_⟩
    push_cast
    nlinarith
  have e : fractionBits w x = ⌊2 ^ w * x⌋ - 2 ^ w * ⌊x⌋ := by rw [fractionBits, h, Int.floor_sub_intCast]
  have : ⌊2 ^ w * x⌋ = fractionBits w x + 2 ^ w * ⌊x⌋ := by omega
  rw [this, Int.add_mul_emod_self_left, Int.emod_eq_of_lt hb.1 hb.2]

/-- The floor of a scaled cube root from integer bounds. -/
theorem floor_cbrt {w p n : Nat} (h1 : n ^ 3 ≤ p * (2 ^ w) ^ 3) (h2 : p * (2 ^ w) ^ 3 < (n + 1) ^ 3) : ⌊2 ^ w * ((p : ℝ) ^ (1 / 3 : ℝ))⌋ = (n : ℤ) := by
  have hx : (2 ^ w * ((p : ℝ) ^ (1 / 3 : ℝ))) ^ 3 = p * (2 ^ w) ^ 3 := by
    rw [mul_pow, ← Real.rpow_natCast ((p : ℝ) ^ (1 / 3 : ℝ)) 3, ← Real.rpow_mul (by positivity)]
    norm_num
    ring
  have h0 : (0 : ℝ) ≤ 2 ^ w * ((p : ℝ) ^ (1 / 3 : ℝ)) := by positivity
  apply floor_of_bounds
  · apply le_of_pow_le_pow_left₀ (by norm_num : (3 : ℕ) ≠ 0) h0
    rw [hx]
    exact_mod_cast h1
  · apply lt_of_pow_lt_pow_left₀ 3 (by positivity)
    rw [hx]
    exact_mod_cast h2

/-- The floor of a scaled square root from integer bounds. -/
theorem floor_sqrt {w p n : Nat} (h1 : n ^ 2 ≤ p * (2 ^ w) ^ 2) (h2 : p * (2 ^ w) ^ 2 < (n + 1) ^ 2) : ⌊2 ^ w * Real.sqrt p⌋ = (n : ℤ) := by
  have hx : (2 ^ w * Real.sqrt p) ^ 2 = p * (2 ^ w) ^ 2 := by
    rw [mul_pow, Real.sq_sqrt (by positivity)]
    ring
  have h0 : (0 : ℝ) ≤ 2 ^ w * Real.sqrt p := by positivity
  apply floor_of_bounds
  · apply le_of_pow_le_pow_left₀ (by norm_num : (2 : ℕ) ≠ 0) h0
    rw [hx]
    exact_mod_cast h1
  · apply lt_of_pow_lt_pow_left₀ 2 (by positivity)
    rw [hx]
    exact_mod_cast h2

/-- Test of a table entry: for some integer part below 32 the number is the scaled root. -/
def rootTest (d w p k : Nat) : Bool := (List.range 32).any fun a => (a * 2 ^ w + k) ^ d ≤ p * (2 ^ w) ^ d && p * (2 ^ w) ^ d < (a * 2 ^ w + k + 1) ^ d

theorem rootTest_cbrt {w p k : Nat} (hk : k < 2 ^ w) (h : rootTest 3 w p k = true) : fractionBits w ((p : ℝ) ^ (1 / 3 : ℝ)) = k := by
  simp only [rootTest, List.any_eq_true, List.mem_range, Bool.and_eq_true, decide_eq_true_eq] at h
  obtain ⟨a, -, h1, h2⟩ := h
  rw [fractionBits_eq, floor_cbrt h1 h2]
  push_cast
  rw [add_comm, Int.add_mul_emod_self_right]
  exact Int.emod_eq_of_lt (by positivity) (by exact_mod_cast hk)

theorem rootTest_sqrt {w p k : Nat} (hk : k < 2 ^ w) (h : rootTest 2 w p k = true) : fractionBits w (Real.sqrt p) = k := by
  simp only [rootTest, List.any_eq_true, List.mem_range, Bool.and_eq_true, decide_eq_true_eq] at h
  obtain ⟨a, -, h1, h2⟩ := h
  rw [fractionBits_eq, floor_sqrt h1 h2]
  push_cast
  rw [add_comm, Int.add_mul_emod_self_right]
  exact Int.emod_eq_of_lt (by positivity) (by exact_mod_cast hk)

/-! ### Sines -/

/-- I^n as a pair. -/
def iPow : Nat → ℤ × ℤ
  | 0 => (1, 0)
  | n + 1 => (-(iPow n).2, (iPow n).1)

theorem iPow_eq (n : Nat) : Complex.I ^ n = ⟨(iPow n).1, (iPow n).2⟩ := by
  induction n with
  | zero => apply Complex.ext <;> simp [iPow]
  | succ n ih =>
    rw [pow_succ, ih]
    apply Complex.ext <;> simp [iPow]

/-- n! times the sum of the I^m / m! for m ≤ n. -/
def expSum : Nat → ℤ × ℤ
  | 0 => (1, 0)
  | n + 1 => ((expSum n).1 * (n + 1) + (iPow (n + 1)).1, (expSum n).2 * (n + 1) + (iPow (n + 1)).2)

theorem expSum_eq (n : Nat) : ∑ m ∈ Finset.range (n + 1), Complex.I ^ m / (m.factorial : ℂ) = ⟨(expSum n).1 / n.factorial, (expSum n).2 / n.factorial⟩ := by
  induction n with
  | zero => apply Complex.ext <;> simp [expSum]
  | succ n ih =>
    have hf : (n.factorial : ℝ) ≠ 0 := by exact_mod_cast n.factorial_ne_zero
    have hn : (n + 1 : ℝ) ≠ 0 := by positivity
    rw [Finset.sum_range_succ, ih, iPow_eq (n + 1)]
    have hd : ∀ z : ℂ, z / ((n + 1).factorial : ℂ) = ⟨z.re / (n + 1).factorial, z.im / (n + 1).factorial⟩ := fun z => by
      apply Complex.ext
      · rw [show ((n + 1).factorial : ℂ) = (((n + 1).factorial : ℝ) : ℂ) by push_cast; rfl, Complex.div_ofReal_re]
      · rw [show ((n + 1).factorial : ℂ) = (((n + 1).factorial : ℝ) : ℂ) by push_cast; rfl, Complex.div_ofReal_im]
    rw [hd]
    apply Complex.ext <;> simp only [Complex.add_re, Complex.add_im, expSum, Nat.factorial_succ] <;> push_cast <;> field_simp

/-- The scale of the fixed point numbers. -/
def scale : Nat := 2 ^ 200

/-- A fixed point number `a` approximates `x` up to `e` units. -/
def Approx (e : Nat) (x : ℝ) (a : ℤ) : Prop := |scale * x - a| ≤ e

/-- Cosine and sine of 1. -/
def cos1 : ℤ := (expSum 60).1 * scale / (Nat.factorial 60 : ℕ)
def sin1 : ℤ := (expSum 60).2 * scale / (Nat.factorial 60 : ℕ)

theorem scale_pos : (0 : ℝ) < scale := by
  have : 0 < scale := by decide +kernel
  exact_mod_cast this

theorem exp_I_bound : |Real.cos 1 - (expSum 60).1 / (Nat.factorial 60 : ℕ)| * scale ≤ 1 ∧ |Real.sin 1 - (expSum 60).2 / (Nat.factorial 60 : ℕ)| * scale ≤ 1 := by
  have h := Complex.exp_bound (x := Complex.I) (by simp) (n := 61) (by norm_num)
  rw [expSum_eq 60, Complex.norm_I, one_pow, one_mul] at h
  have hb : ((Nat.succ 61 : ℕ) : ℝ) * (((Nat.factorial 61 : ℕ) : ℝ) * ((61 : ℕ) : ℝ))⁻¹ * scale ≤ 1 := by
    have : Nat.succ 61 * scale ≤ Nat.factorial 61 * 61 := by decide +kernel
    have h2 : ((Nat.succ 61 : ℕ) : ℝ) * (scale : ℕ) ≤ ((Nat.factorial 61 : ℕ) : ℝ) * ((61 : ℕ) : ℝ) := by exact_mod_cast this
    have h3 : (0 : ℝ) < ((Nat.factorial 61 : ℕ) : ℝ) * ((61 : ℕ) : ℝ) := by positivity
    rw [mul_assoc, mul_comm _ (scale : ℝ), ← mul_assoc, ← div_eq_mul_inv, div_le_one h3]
    exact h2
  have he : Complex.exp Complex.I = ⟨Real.cos 1, Real.sin 1⟩ := by
    have h1 := Complex.exp_ofReal_mul_I_re 1
    have h2 := Complex.exp_ofReal_mul_I_im 1
    simp only [Complex.ofReal_one, one_mul] at h1 h2
    exact Complex.ext h1 h2
  rw [he] at h
  constructor
  · have := (Complex.abs_re_le_norm _).trans h
    simp only [Complex.sub_re] at this
    exact (mul_le_mul_of_nonneg_right this scale_pos.le).trans hb
  · have := (Complex.abs_im_le_norm _).trans h
    simp only [Complex.sub_im] at this
    exact (mul_le_mul_of_nonneg_right this scale_pos.le).trans hb

/-- Truncated division of the numerator. -/
theorem approx_div (x : ℝ) (a : ℤ) (f : Nat) (hf : 0 < f) (h : |x - a / f| * scale ≤ 1) : Approx 2 x (a * scale / f) := by
  have hf' : (0 : ℝ) < f := by exact_mod_cast hf
  have h1 : ((a * scale / f : ℤ) : ℝ) ≤ (a : ℝ) * scale / f := by
    rw [le_div_iff₀ hf']
    have : (a * scale / f : ℤ) * (f : ℤ) ≤ a * scale := Int.ediv_mul_le _ (by omega)
    exact_mod_cast this
  have h2 : (a : ℝ) * scale / f < ((a * scale / f : ℤ) : ℝ) + 1 := by
    rw [div_lt_iff₀ hf']
    have : a * scale < (a * scale / f + 1 : ℤ) * (f : ℤ) := Int.lt_ediv_add_one_mul_self _ (by omega)
    exact_mod_cast this
  have h3 : |scale * x - (a : ℝ) * scale / f| ≤ 1 := by
    have : scale * x - (a : ℝ) * scale / f = (x - a / f) * scale := by ring
    rw [this, abs_mul, abs_of_pos scale_pos]
    exact h
  rw [abs_le] at h3
  rw [Approx, abs_le]
  push_cast
  constructor <;> linarith

theorem cos1_approx : Approx 2 (Real.cos 1) cos1 := approx_div _ _ _ (Nat.factorial_pos 60) exp_I_bound.1
theorem sin1_approx : Approx 2 (Real.sin 1) sin1 := approx_div _ _ _ (Nat.factorial_pos 60) exp_I_bound.2

/-- Product of approximations: `a b / scale` for `x y`. -/
theorem approx_mul {e : Nat} {x y : ℝ} {a b : ℤ} (hx : Approx e x a) (hy : Approx 2 y b) (h1 : |x| ≤ 1) (hb : |b| ≤ 2 * scale) : |scale * (x * y) - a * b / scale| ≤ 2 + 2 * e := by
  have hs := scale_pos
  have e1 : scale * (x * y) - a * b / scale = x * (scale * y - b) + (b / scale) * (scale * x - a) := by
    field_simp
    ring
  rw [e1]
  have hbs : |(b : ℝ) / scale| ≤ 2 := by
    rw [abs_div, abs_of_pos hs, div_le_iff₀ hs]
    exact_mod_cast hb
  calc _ ≤ |x * (scale * y - b)| + |(b / scale) * (scale * x - a)| := abs_add_le _ _
    _ = |x| * |scale * y - b| + |(b : ℝ) / scale| * |scale * x - a| := by rw [abs_mul, abs_mul]
    _ ≤ 1 * 2 + 2 * e := add_le_add (mul_le_mul h1 hy (abs_nonneg _) (by norm_num)) (mul_le_mul hbs hx (abs_nonneg _) (by norm_num))
    _ = _ := by ring

/-- Fixed point cosine and sine of n, and a bound of the error. -/
def trig : Nat → ℤ × ℤ × Nat
  | 0 => (scale, 0, 0)
  | n + 1 => (((trig n).1 * cos1 - (trig n).2.1 * sin1) / scale, ((trig n).2.1 * cos1 + (trig n).1 * sin1) / scale, 4 * (trig n).2.2 + 5)

theorem floor_div_bound (z : ℤ) : ((z / (scale : ℤ) : ℤ) : ℝ) ≤ z / scale ∧ (z : ℝ) / scale < ((z / (scale : ℤ) : ℤ) : ℝ) + 1 := by
  have hp : 0 < (scale : ℤ) := by decide +kernel
  constructor
  · rw [le_div_iff₀ scale_pos]
    exact_mod_cast Int.ediv_mul_le z hp.ne'
  · rw [div_lt_iff₀ scale_pos]
    exact_mod_cast Int.lt_ediv_add_one_mul_self z hp

theorem trig_approx (n : Nat) : Approx (trig n).2.2 (Real.cos n) (trig n).1 ∧ Approx (trig n).2.2 (Real.sin n) (trig n).2.1 := by
  induction n with
  | zero => simp [Approx, trig]
  | succ n ih =>
    have hc1 : |cos1| ≤ 2 * scale := by decide +kernel
    have hs1 : |sin1| ≤ 2 * scale := by decide +kernel
    have m1 := abs_le.mp (approx_mul ih.1 cos1_approx (Real.abs_cos_le_one n) hc1)
    have m2 := abs_le.mp (approx_mul ih.2 sin1_approx (Real.abs_sin_le_one n) hs1)
    have m3 := abs_le.mp (approx_mul ih.2 cos1_approx (Real.abs_sin_le_one n) hc1)
    have m4 := abs_le.mp (approx_mul ih.1 sin1_approx (Real.abs_cos_le_one n) hs1)
    have d1 := floor_div_bound ((trig n).1 * cos1 - (trig n).2.1 * sin1)
    have d2 := floor_div_bound ((trig n).2.1 * cos1 + (trig n).1 * sin1)
    push_cast [sub_div, add_div] at d1 d2
    simp only [Approx, trig, abs_le]
    push_cast
    rw [Real.cos_add, Real.sin_add]
    simp only [mul_sub, mul_add]
    refine ⟨⟨?_, ?_⟩, ?_, ?_⟩ <;> linarith [m1.1, m1.2, m2.1, m2.2, m3.1, m3.2, m4.1, m4.2, d1.1, d1.2, d2.1, d2.2]

/-- Test of a table entry. -/
def sineTest (n t : Nat) : Bool :=
  decide ((t * scale : ℤ) ≤ 4294967296 * (|(trig n).2.1| - (trig n).2.2)) && decide (4294967296 * (|(trig n).2.1| + (trig n).2.2) < ((t + 1) * scale : ℤ))

theorem sineTest_ok {n t : Nat} (h : sineTest n t = true) : md5Constant n = t := by
  simp only [sineTest, Bool.and_eq_true, decide_eq_true_eq] at h
  obtain ⟨h1, h2⟩ := h
  have ha := (trig_approx n).2
  have hd : abs (scale * abs (Real.sin n) - abs ((trig n).2.1 : ℝ)) ≤ (trig n).2.2 := by
    have := abs_abs_sub_abs_le (scale * Real.sin n) ((trig n).2.1 : ℝ)
    rw [abs_mul, abs_of_pos scale_pos] at this
    exact this.trans ha
  rw [abs_le] at hd
  have h1' : (t * scale : ℝ) ≤ 4294967296 * (|((trig n).2.1 : ℝ)| - (trig n).2.2) := by exact_mod_cast h1
  have h2' : 4294967296 * (|((trig n).2.1 : ℝ)| + (trig n).2.2) < ((t + 1) * scale : ℝ) := by exact_mod_cast h2
  have hs := scale_pos
  apply floor_of_bounds
  · have : (t : ℝ) * scale ≤ 4294967296 * |Real.sin n| * scale := by linarith [hd.1, hd.2]
    exact_mod_cast le_of_mul_le_mul_right this hs
  · have : 4294967296 * |Real.sin n| * scale < ((t : ℝ) + 1) * scale := by linarith [hd.1, hd.2]
    exact_mod_cast lt_of_mul_lt_mul_right this hs.le

end Model
