import Verif.Proofs.Basic
/-! Splitting byte strings into blocks; the padding rule. -/

namespace Spec

theorem blocks_of_lt {B : Nat} {m : List Byte} (h : m.length < B) : blocks B m = [] := by
  simp [blocks, Nat.div_eq_of_lt h]

theorem blocks_step {B : Nat} (hB : 0 < B) {m : List Byte} (h : B ≤ m.length) :
    blocks B m = m.take B :: blocks B (m.drop B) := by
  unfold blocks
  have : m.length / B = (m.drop B).length / B + 1 := by
    rw [List.length_drop, Nat.div_eq_sub_div hB h]
  rw [this, List.range_succ_eq_map, List.map_cons, List.map_map]
  congr 1
  · simp [block]
  · apply List.map_congr_left
    intro i _
    simp [block, List.drop_drop, Nat.succ_mul, Nat.add_comm]

theorem blocks_append {B : Nat} (hB : 0 < B) (a b : List Byte) (ha : a.length % B = 0) :
    blocks B (a ++ b) = blocks B a ++ blocks B b := by
  generalize hn : a.length / B = n
  induction n generalizing a with
  | zero =>
    have : a.length = 0 := by
      have := Nat.div_add_mod a.length B
      rw [hn, ha] at this; simpa using this.symm
    rw [List.length_eq_zero_iff] at this
    subst this
    simp [blocks_of_lt (show ([] : List Byte).length < B by simpa using hB)]
  | succ n ih =>
    have hle : B ≤ a.length := by
      by_contra hlt
      rw [Nat.div_eq_of_lt (by omega)] at hn; omega
    rw [blocks_step hB (by simp; omega), blocks_step hB hle, List.take_append_of_le_length hle, List.drop_append_of_le_length hle,
      List.cons_append, ih]
    · rw [List.length_drop, ← Nat.mod_eq_sub_mod hle]; exact ha
    · have := Nat.div_eq_sub_div hB hle
      rw [List.length_drop]; omega

theorem blocks_single {B : Nat} (hB : 0 < B) {m : List Byte} (h : m.length = B) : blocks B m = [m] := by
  rw [blocks_step hB (by omega), List.take_of_length_le (by omega), blocks_of_lt (by simp; omega)]

theorem blocks_take {B : Nat} (hB : 0 < B) (m : List Byte) : blocks B (m.take (m.length / B * B)) = blocks B m := by
  have h1 : m.length / B * B ≤ m.length := Nat.div_mul_le_self _ _
  conv_rhs => rw [← List.take_append_drop (m.length / B * B) m]
  rw [blocks_append hB _ _ (by simp [Nat.min_eq_left h1]), blocks_of_lt (m := m.drop _), List.append_nil]
  rw [List.length_drop, ← Nat.mod_eq_sub_div_mul]
  exact Nat.mod_lt _ hB

theorem blocks_length (B : Nat) (m : List Byte) : (blocks B m).length = m.length / B := by simp [blocks]

end Spec
