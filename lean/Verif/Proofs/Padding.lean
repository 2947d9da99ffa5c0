import Verif.Proofs.Kinds
import Verif.Proofs.ByteOrder
/-! Padding and iterated hashing: injectivity, and extraction of a collision of the compression function. -/

namespace Spec

/-- `padZeros` is the smallest number of zero bytes that completes the last block. -/
theorem padZeros_spec {B : Nat} (hB : 0 < B) (lb len : Nat) :
    (len + 1 + padZeros B lb len + lb) % B = 0 ∧ ∀ j, j < padZeros B lb len → (len + 1 + j + lb) % B ≠ 0 := by
  unfold padZeros
  generalize hx : len + 1 + lb = x
  have hlt := Nat.mod_lt x hB
  have hx' := Nat.div_add_mod x B
  by_cases h0 : x % B = 0
  · rw [h0, Nat.sub_zero, Nat.mod_self]
    refine ⟨by rw [Nat.add_zero, hx]; exact h0, fun j hj => by omega⟩
  · rw [Nat.mod_eq_of_lt (show B - x % B < B by omega)]
    refine ⟨?_, fun j hj => ?_⟩
    · rw [show len + 1 + (B - x % B) + lb = B * (x / B + 1) by rw [Nat.mul_add]; omega, Nat.mul_mod_right]
    · rw [show len + 1 + j + lb = B * (x / B) + (x % B + j) by omega, Nat.mul_add_mod, Nat.mod_eq_of_lt (by omega)]
      omega

theorem pad_length {B lb : Nat} (hB : 0 < B) (f : Nat → List Byte) (hf : ∀ n, (f n).length = lb) (m : List Byte) :
    (pad B lb f m).length = m.length + 1 + padZeros B lb m.length + lb ∧ (pad B lb f m).length % B = 0 := by
  have h : (pad B lb f m).length = m.length + 1 + padZeros B lb m.length + lb := by simp [pad, hf]; omega
  exact ⟨h, by rw [h]; exact (padZeros_spec hB lb _).1⟩

/-- The number of blocks of a padded message. -/
theorem pad_blocks {B lb : Nat} (hB : 0 < B) (f : Nat → List Byte) (hf : ∀ n, (f n).length = lb) (m : List Byte) :
    (blocks B (pad B lb f m)).length = (m.length + lb) / B + 1 := by
  obtain ⟨h1, h2⟩ := pad_length hB f hf m
  rw [blocks_length, h1]
  rw [h1] at h2
  have h3 := (padZeros_spec hB lb m.length).2
  obtain ⟨c, hc⟩ := Nat.dvd_of_mod_eq_zero h2
  have hz : padZeros B lb m.length < B := Nat.mod_lt _ hB
  rw [hc, Nat.mul_div_cancel_left _ hB]
  have hc0 : c ≠ 0 := by rintro rfl; omega
  obtain ⟨d, rfl⟩ : ∃ d, c = d + 1 := ⟨c - 1, by omega⟩
  rw [Nat.mul_add, Nat.mul_one] at hc
  congr 1
  symm
  rw [Nat.div_eq_iff hB]
  rw [Nat.mul_comm d B]
  omega

theorem pad_inj {B lb : Nat} (f : Nat → List Byte) (hf : ∀ n, (f n).length = lb) {m₁ m₂ : List Byte}
    (hinj : f (8 * m₁.length) = f (8 * m₂.length) → m₁.length = m₂.length) (h : pad B lb f m₁ = pad B lb f m₂) : m₁ = m₂ := by
  unfold pad at h
  obtain ⟨h1, h2⟩ := List.append_inj' h (by rw [hf, hf])
  have hl := hinj h2
  rw [List.append_assoc, List.append_assoc] at h1
  exact (List.append_inj h1 hl).1

/-- A byte string of whole blocks is determined by its blocks. -/
theorem blocks_inj {B : Nat} (hB : 0 < B) : ∀ (n : Nat) (a b : List Byte), a.length = n * B → b.length = n * B → blocks B a = blocks B b → a = b
  | 0, a, b, ha, hb, _ => by
    rw [Nat.zero_mul] at ha hb
    rw [List.length_eq_zero_iff.mp ha, List.length_eq_zero_iff.mp hb]
  | n + 1, a, b, ha, hb, h => by
    have hs : (n + 1) * B = n * B + B := Nat.succ_mul n B
    rw [blocks_step hB (by omega), blocks_step hB (m := b) (by omega)] at h
    obtain ⟨h1, h2⟩ := List.cons.inj h
    rw [← List.take_append_drop B a, ← List.take_append_drop B b, h1, blocks_inj hB n _ _ (by simp; omega) (by simp; omega) h2]

/-- A byte string of whole blocks ends with its last block. -/
theorem blocks_last {B : Nat} (hB : 0 < B) {m : List Byte} (h : m.length % B = 0) (h0 : m ≠ []) :
    blocks B m = blocks B (m.take (m.length - B)) ++ [m.drop (m.length - B)] := by
  obtain ⟨c, hc⟩ := Nat.dvd_of_mod_eq_zero h
  have hc0 : c ≠ 0 := by rintro rfl; exact h0 (List.length_eq_zero_iff.mp (by omega))
  obtain ⟨d, rfl⟩ : ∃ d, c = d + 1 := ⟨c - 1, by omega⟩
  rw [Nat.mul_add, Nat.mul_one] at hc
  conv_lhs => rw [← List.take_append_drop (m.length - B) m]
  rw [blocks_append hB, blocks_single hB (m := m.drop (m.length - B))]
  · simp; omega
  · rw [List.length_take, Nat.min_eq_left (by omega), hc, Nat.add_sub_cancel, Nat.mul_mod_right]

/-- Merkle–Damgård: different block sequences of the same length with equal results contain a collision of the compression function. -/
theorem chain_collision {α β} (f : α → β → α) (Pa : α → Prop) (hP : ∀ h b, Pa h → Pa (f h b)) :
    ∀ (n : Nat) (h₁ h₂ : α) (l₁ l₂ : List β), Pa h₁ → Pa h₂ → l₁.length = n → l₂.length = n → (h₁, l₁) ≠ (h₂, l₂) →
      l₁.foldl f h₁ = l₂.foldl f h₂ → h₁ = h₂ → ∃ g₁ b₁ g₂ b₂, Pa g₁ ∧ Pa g₂ ∧ b₁ ∈ l₁ ∧ b₂ ∈ l₂ ∧ (g₁, b₁) ≠ (g₂, b₂) ∧ f g₁ b₁ = f g₂ b₂ := by
  intro n
  induction n with
  | zero =>
    intro h₁ h₂ l₁ l₂ _ _ e₁ e₂ hne _ hh
    rw [List.length_eq_zero_iff.mp e₁, List.length_eq_zero_iff.mp e₂, hh] at hne
    exact absurd rfl hne
  | succ n ih =>
    intro h₁ h₂ l₁ l₂ p₁ p₂ e₁ e₂ hne hf hh
    have n₁ : l₁ ≠ [] := by intro h; rw [h] at e₁; cases e₁
    have n₂ : l₂ ≠ [] := by intro h; rw [h] at e₂; cases e₂
    have d₁ := List.dropLast_concat_getLast n₁
    have d₂ := List.dropLast_concat_getLast n₂
    generalize l₁.dropLast = a₁ at d₁
    generalize l₁.getLast n₁ = x₁ at d₁
    generalize l₂.dropLast = a₂ at d₂
    generalize l₂.getLast n₂ = x₂ at d₂
    subst d₁ d₂
    rw [List.foldl_append, List.foldl_append, List.foldl_cons, List.foldl_cons, List.foldl_nil, List.foldl_nil] at hf
    have hPa : ∀ (l : List β) h, Pa h → Pa (l.foldl f h) := by
      intro l
      induction l with
      | nil => exact fun h hh => hh
      | cons b l ih => exact fun h hh => ih _ (hP _ _ hh)
    by_cases hx : (a₁.foldl f h₁, x₁) = (a₂.foldl f h₂, x₂)
    · simp only [Prod.mk.injEq] at hx
      obtain ⟨g₁, b₁, g₂, b₂, q₁, q₂, m₁, m₂, hg, hc⟩ := ih h₁ h₂ a₁ a₂ p₁ p₂ (by simpa using e₁) (by simpa using e₂)
        (by rintro h; simp only [Prod.mk.injEq] at h; exact hne (by rw [h.1, h.2, hx.2])) hx.1 hh
      exact ⟨g₁, b₁, g₂, b₂, q₁, q₂, by simp [m₁], by simp [m₂], hg, hc⟩
    · exact ⟨_, x₁, _, x₂, hPa _ _ p₁, hPa _ _ p₂, by simp, by simp, hx, hf⟩

theorem flatMap_inj {α β} (f : α → List β) (s : Nat) (hs : ∀ x, (f x).length = s) (hinj : ∀ x y, f x = f y → x = y) :
    ∀ (a b : List α), a.length = b.length → a.flatMap f = b.flatMap f → a = b
  | [], [], _, _ => rfl
  | x :: a, y :: b, hl, h => by
    rw [List.flatMap_cons, List.flatMap_cons] at h
    obtain ⟨h1, h2⟩ := List.append_inj h (by rw [hs, hs])
    rw [hinj _ _ h1, flatMap_inj f s hs hinj a b (by simpa using hl) h2]

theorem mem_blocks {B : Nat} {m b : List Byte} (h : b ∈ blocks B m) : b.length = B := by
  simp only [blocks, List.mem_map, List.mem_range] at h
  obtain ⟨i, hi, rfl⟩ := h
  have : (i + 1) * B ≤ m.length / B * B := Nat.mul_le_mul_right _ hi
  have := Nat.div_mul_le_self m.length B
  rw [Nat.succ_mul] at *
  simp [block]; omega

end Spec

namespace Model

open Spec (Kind IterHash beBytes leBytes pad blocks)

theorem lenBytes_le (k : Kind) : k.len64.lenBytes ≤ k.blockSize := by cases k <;> decide

theorem lenField_length (k : Kind) (n : Nat) : (k.len64.lenField n).length = k.len64.lenBytes := by
  cases k
  · exact leBytes_length _ _
  all_goals exact beBytes_length _ _

theorem lenField_inj (k : Kind) (a b : Nat) (ha : a < 2 ^ 61) (hb : b < 2 ^ 61) (h : k.len64.lenField (8 * a) = k.len64.lenField (8 * b)) : a = b := by
  cases k
  · have := leBytes_inj (n := 8) (by omega) (by omega) h; omega
  · have := beBytes_inj (n := 8) (by omega) (by omega) h; omega
  · have := beBytes_inj (n := 8) (by omega) (by omega) h; omega
  · have := beBytes_inj (n := 8) (by omega) (by omega) h; omega
  · have h' : beBytes 16 (8 * a % 2 ^ 64) = beBytes 16 (8 * b % 2 ^ 64) := h
    rw [Nat.mod_eq_of_lt (by omega), Nat.mod_eq_of_lt (by omega)] at h'
    have := beBytes_inj (n := 16) (by omega) (by omega) h'; omega

theorem beBytes_word_inj {w n : Nat} (hw : w ≤ 8 * n) (x y : BitVec w) (h : beBytes n x.toNat = beBytes n y.toNat) : x = y :=
  BitVec.eq_of_toNat_eq (beBytes_inj (lt_of_lt_of_le x.isLt (Nat.pow_le_pow_right (by decide) hw))
    (lt_of_lt_of_le y.isLt (Nat.pow_le_pow_right (by decide) hw)) h)

theorem leBytes_word_inj {w n : Nat} (hw : w ≤ 8 * n) (x y : BitVec w) (h : leBytes n x.toNat = leBytes n y.toNat) : x = y :=
  BitVec.eq_of_toNat_eq (leBytes_inj (lt_of_lt_of_le x.isLt (Nat.pow_le_pow_right (by decide) hw))
    (lt_of_lt_of_le y.isLt (Nat.pow_le_pow_right (by decide) hw)) h)

/-- All hash functions but SHA-224 output the whole chaining value. -/
theorem output_inj (k : Kind) (hk : k ≠ .sha224) (a b : List (BitVec k.width)) (ha : a.length = k.words) (hb : b.length = k.words)
    (h : k.len64.output a = k.len64.output b) : a = b := by
  cases k
  · exact Spec.flatMap_inj _ 4 (fun _ => leBytes_length _ _) (leBytes_word_inj (by decide)) a b (ha.trans hb.symm) h
  · exact Spec.flatMap_inj _ 4 (fun _ => beBytes_length _ _) (beBytes_word_inj (by decide)) a b (ha.trans hb.symm) h
  · exact absurd rfl hk
  · exact Spec.flatMap_inj _ 4 (fun _ => beBytes_length _ _) (beBytes_word_inj (by decide)) a b (ha.trans hb.symm) h
  · exact Spec.flatMap_inj _ 8 (fun _ => beBytes_length _ _) (beBytes_word_inj (by decide)) a b (ha.trans hb.symm) h

/-- Any collision of the hash is one of the compression function followed by the output function. -/
theorem digest_collision (k : Kind) (m₁ m₂ : List Byte) (h₁ : m₁.length < 2 ^ 61) (h₂ : m₂.length < 2 ^ 61) (hne : m₁ ≠ m₂)
    (h : k.len64.digest m₁ = k.len64.digest m₂) :
    ∃ g₁ b₁ g₂ b₂, g₁.length = k.words ∧ g₂.length = k.words ∧ b₁.length = k.blockSize ∧ b₂.length = k.blockSize ∧ (g₁, b₁) ≠ (g₂, b₂) ∧
      k.len64.output (k.len64.compress g₁ b₁) = k.len64.output (k.len64.compress g₂ b₂) ∧
      (k ≠ .sha224 → k.len64.compress g₁ b₁ = k.len64.compress g₂ b₂) := by
  obtain ⟨enc, L⟩ := lawful k
  have hcomp : ∀ g b, g.length = k.words → (k.len64.compress g b).length = k.words := by
    intro g b hg; rw [← algOf_nHash] at hg ⊢; exact L.comp g b hg
  have hB : 0 < k.blockSize := by cases k <;> decide
  simp only [IterHash.digest, IterHash.digestFrom, len64_bs] at h
  obtain ⟨l1, z1⟩ := Spec.pad_length hB k.len64.lenField (lenField_length k) m₁
  obtain ⟨l2, z2⟩ := Spec.pad_length hB k.len64.lenField (lenField_length k) m₂
  have hpne : pad k.blockSize k.len64.lenBytes k.len64.lenField m₁ ≠ pad k.blockSize k.len64.lenBytes k.len64.lenField m₂ :=
    fun e => hne (Spec.pad_inj _ (lenField_length k) (lenField_inj k _ _ h₁ h₂) e)
  have hend : ∀ m, ∃ q, pad k.blockSize k.len64.lenBytes k.len64.lenField m = q ++ k.len64.lenField (8 * m.length) := fun m => ⟨_, rfl⟩
  obtain ⟨q1, e1⟩ := hend m₁
  obtain ⟨q2, e2⟩ := hend m₂
  generalize pad k.blockSize k.len64.lenBytes k.len64.lenField m₁ = p1 at *
  generalize pad k.blockSize k.len64.lenBytes k.len64.lenField m₂ = p2 at *
  have n1 : p1 ≠ [] := by rintro rfl; simp at l1; omega
  have n2 : p2 ≠ [] := by rintro rfl; simp at l2; omega
  rw [Spec.blocks_last hB z1 n1, Spec.blocks_last hB z2 n2, chain_append, chain_append] at h
  simp only [IterHash.chain, List.foldl_cons, List.foldl_nil] at h
  have hge : ∀ {p : List Byte}, p.length % k.blockSize = 0 → p ≠ [] → k.blockSize ≤ p.length := by
    intro p hz hn
    by_contra hlt
    rw [Nat.mod_eq_of_lt (by omega)] at hz
    exact hn (List.length_eq_zero_iff.mp hz)
  have g1 := hge z1 n1
  have g2 := hge z2 n2
  have c1 : (k.len64.chain k.len64.iv (blocks k.blockSize (p1.take (p1.length - k.blockSize)))).length = k.words := chain_length_words k _ _ (iv_length k)
  have c2 : (k.len64.chain k.len64.iv (blocks k.blockSize (p2.take (p2.length - k.blockSize)))).length = k.words := chain_length_words k _ _ (iv_length k)
  by_cases hx : ((k.len64.chain k.len64.iv (blocks k.blockSize (p1.take (p1.length - k.blockSize)))), p1.drop (p1.length - k.blockSize)) =
      ((k.len64.chain k.len64.iv (blocks k.blockSize (p2.take (p2.length - k.blockSize)))), p2.drop (p2.length - k.blockSize))
  · simp only [Prod.mk.injEq] at hx
    obtain ⟨hx1, hx2⟩ := hx
    have hlen : m₁.length = m₂.length := by
      have hsuf : ∀ (p q f : List Byte), p = q ++ f → f.length = k.len64.lenBytes → k.blockSize ≤ p.length →
          (p.drop (p.length - k.blockSize)).drop (k.blockSize - k.len64.lenBytes) = f := by
        intro p q f hp hf hpl
        have := lenBytes_le k
        rw [List.drop_drop, hp]
        apply List.drop_left'
        rw [hp, List.length_append, hf] at hpl
        simp [hf]; omega
      have s1 := hsuf p1 q1 _ e1 (lenField_length k _) g1
      have s2 := hsuf p2 q2 _ e2 (lenField_length k _) g2
      rw [hx2] at s1
      exact lenField_inj k _ _ h₁ h₂ (s1.symm.trans s2)
    have hpl : p1.length = p2.length := by rw [l1, l2, hlen]
    obtain ⟨c, hc⟩ := Nat.dvd_of_mod_eq_zero z1
    have t1 : (p1.take (p1.length - k.blockSize)).length = (c - 1) * k.blockSize := by
      rw [List.length_take, Nat.min_eq_left (by omega), hc, Nat.sub_mul, Nat.one_mul, Nat.mul_comm]
    have t2 : (p2.take (p2.length - k.blockSize)).length = (c - 1) * k.blockSize := by
      rw [← t1, List.length_take, List.length_take, hpl]
    have hbne : blocks k.blockSize (p1.take (p1.length - k.blockSize)) ≠ blocks k.blockSize (p2.take (p2.length - k.blockSize)) := by
      intro hb
      have := Spec.blocks_inj hB (c - 1) _ _ t1 t2 hb
      apply hpne
      rw [← List.take_append_drop (p1.length - k.blockSize) p1, ← List.take_append_drop (p2.length - k.blockSize) p2, this, hx2]
    obtain ⟨a1, b1, a2, b2, r1, r2, m1, m2, hne', hc'⟩ := Spec.chain_collision k.len64.compress (fun g => g.length = k.words) hcomp (c - 1)
      k.len64.iv k.len64.iv _ _ (iv_length k) (iv_length k) (by rw [Spec.blocks_length, t1, Nat.mul_div_cancel _ hB])
      (by rw [Spec.blocks_length, t2, Nat.mul_div_cancel _ hB]) (by simpa using hbne) hx1 rfl
    exact ⟨a1, b1, a2, b2, r1, r2, Spec.mem_blocks m1, Spec.mem_blocks m2, hne', by rw [hc'], fun _ => hc'⟩
  · exact ⟨_, _, _, _, c1, c2, by simp; omega, by simp; omega, hx, h, fun hk => output_inj k hk _ _ (hcomp _ _ c1) (hcomp _ _ c2) h⟩

end Model
