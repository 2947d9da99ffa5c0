import Verif.Model.DigestString
import Verif.Spec.Hex
import Verif.Proofs.Basic
/-! Hex strings. -/

namespace Model

open Spec

theorem hex_length (bs : List Byte) : (hex bs).length = 2 * bs.length := by
  induction bs with
  | nil => rfl
  | cons b bs ih =>
    have : hex (b :: bs) = [hexDigits.getD (b.toNat / 16) 0, hexDigits.getD (b.toNat % 16) 0] ++ hex bs := rfl
    rw [this, List.length_append, ih]
    simp only [List.length_cons, List.length_nil]
    omega

theorem digitChar_eq : ∀ d : Fin 16, digitChar d.1 = hexDigits.getD d.1 0 := by decide

theorem digitChar_spec (d : Nat) (h : d < 16) : digitChar d = hexDigits.getD d 0 := digitChar_eq ⟨d, h⟩

theorem wr_ok {α} (a : List α) (i : Nat) (v : α) (h : i < a.length) : wr a i v = .ok (a.set i v) := if_pos h

theorem digestLoop (d : List Byte) (n : Nat) : ∀ (k i : Nat) (s : List Nat), i + k = n → n ≤ d.length → 2 * n < s.length →
    forCount (fun i (st : List Nat × Nat) => do
            let b ← rd d i
            let s ← wr st.1 st.2 (digitChar (b.toNat / 16))
            let s ← wr s (st.2 + 1) (digitChar (b.toNat % 16))
            pure (s, st.2 + 2)) i k (s, 2 * i) = .ok (s.take (2 * i) ++ (hex ((d.drop i).take k) ++ s.drop (2 * n)), 2 * n)
  | 0, i, s, h1, h2, h3 => by
    obtain rfl : i = n := by omega
    simp [forCount, hex]
  | k + 1, i, s, h1, h2, h3 => by
    have hi : i < d.length := by omega
    have hrd : rd d i = .ok d[i] := by simp [rd, hi]
    simp only [forCount, hrd, Res.ok_bind]
    rw [wr_ok _ _ _ (by omega), Res.ok_bind, wr_ok _ _ _ (by rw [List.length_set]; omega), Res.ok_bind]
    show forCount _ (i + 1) k (_, 2 * i + 2) = _
    rw [show 2 * i + 2 = 2 * (i + 1) by ring, digestLoop d n k (i + 1) _ (by omega) h2 (by simpa using h3)]
    rw [List.drop_eq_getElem_cons hi, List.take_succ_cons]
    have hx : hex (d[i] :: (d.drop (i + 1)).take k) = [hexDigits.getD (d[i].toNat / 16) 0, hexDigits.getD (d[i].toNat % 16) 0] ++ hex ((d.drop (i + 1)).take k) := rfl
    have hlt := d[i].isLt
    rw [hx, ← digitChar_spec _ (by omega), ← digitChar_spec _ (Nat.mod_lt _ (by decide))]
    generalize digitChar (d[i].toNat / 16) = x
    generalize digitChar (d[i].toNat % 16) = y
    have e1 : ((s.set (2 * i) x).set (2 * i + 1) y).take (2 * (i + 1)) = s.take (2 * i) ++ [x, y] := by
      apply List.ext_getElem
      · simp; omega
      · intro j h1 h2
        rw [List.getElem_take, List.getElem_set, List.getElem_set, List.getElem_append]
        simp only [List.length_take]
        by_cases h3 : j < 2 * i
        · rw [if_neg (by omega), if_neg (by omega), dif_pos (by omega), List.getElem_take]
        · by_cases h4 : j = 2 * i
          · subst h4
            simp [Nat.min_eq_left (show 2 * i ≤ s.length by omega)]
          · have h5 : j = 2 * i + 1 := by simp at h1; omega
            subst h5
            simp [Nat.min_eq_left (show 2 * i ≤ s.length by omega)]
    have e2 : ((s.set (2 * i) x).set (2 * i + 1) y).drop (2 * n) = s.drop (2 * n) := by
      rw [List.drop_set_of_lt (by omega), List.drop_set_of_lt (by omega)]
    rw [e1, e2]
    simp

theorem digestToString_ok (d : List Byte) (n : Nat) (s : List Nat) (m : Nat) (h1 : n ≤ d.length) (h2 : 2 * n + 1 ≤ m) (h3 : m ≤ ssizeMax)
    (h4 : m ≤ s.length) : digestToString (some d) n (some s) m = .ok (1, some (hex (d.take n) ++ 0 :: s.drop (2 * n + 1))) := by
  have hs : ssizeMax = 2 ^ 63 - 1 := rfl
  simp only [digestToString]
  rw [if_neg (by omega), if_neg (by omega), Nat.mod_eq_of_lt (by omega), if_neg (by omega), forLoop, Nat.sub_zero, show (0 : Nat) = 2 * 0 from rfl,
    digestLoop d n n 0 s (by omega) h1 (by omega)]
  have hl : (hex (d.take n)).length = 2 * n := by rw [hex_length, List.length_take, Nat.min_eq_left h1]
  simp only [Res.ok_bind, Nat.mul_zero, List.take_zero, List.nil_append, List.drop_zero]
  rw [wr_ok _ _ _ (by simp [hl]; omega)]
  simp only [Res.pure_eq, Res.ok_bind]
  rw [List.set_append_right _ _ (by omega), hl, Nat.sub_self, List.drop_eq_getElem_cons (by omega), List.set_cons_zero]

theorem hexValue_digit (d : Fin 16) : hexValue (hexDigits.getD d.1 0) = some d.1 := by revert d; decide

theorem unhex_hex (bs : List Byte) : unhex (hex bs) = some bs := by
  induction bs with
  | nil => rfl
  | cons b bs ih =>
    have hlt := b.isLt
    have : hex (b :: bs) = hexDigits.getD (b.toNat / 16) 0 :: hexDigits.getD (b.toNat % 16) 0 :: hex bs := rfl
    rw [this, unhex, hexValue_digit ⟨b.toNat / 16, by omega⟩, hexValue_digit ⟨b.toNat % 16, by omega⟩, ih]
    simp only [Option.bind_eq_bind, Option.bind_some, Option.pure_def, Option.some.injEq, List.cons.injEq, and_true]
    apply BitVec.eq_of_toNat_eq
    rw [BitVec.toNat_ofNat]
    omega

theorem mem_hex (bs : List Byte) : ∀ c ∈ hex bs, c ∈ hexDigits := by
  intro c hc
  obtain ⟨b, -, hb⟩ := List.mem_flatMap.mp hc
  have hlt := b.isLt
  have hd : ∀ d : Fin 16, hexDigits.getD d.1 0 ∈ hexDigits := by decide
  simp only [List.mem_cons, List.not_mem_nil, or_false] at hb
  rcases hb with rfl | rfl
  · exact hd ⟨b.toNat / 16, by omega⟩
  · exact hd ⟨b.toNat % 16, by omega⟩

theorem takeWhile_hex (bs : List Byte) : (hex bs ++ [0]).takeWhile (· ≠ 0) = hex bs := by
  rw [List.takeWhile_append_of_pos]
  · simp
  · intro c hc
    have h : ∀ c ∈ hexDigits, c ≠ 0 := by decide
    simpa using h c (mem_hex bs c hc)

end Model
