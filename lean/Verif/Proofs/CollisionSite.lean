import Verif.Props.Padding
import Verif.Spec.CollisionSite
/-! Where two runs of an iterated hash function meet. -/

namespace Spec

theorem getD_left {β : Type _} (a l : List β) (i : Nat) (d : β) (h : i < a.length) : (a ++ l).getD i d = a.getD i d := by
  rw [List.getD_eq_getElem?_getD, List.getD_eq_getElem?_getD, List.getElem?_append_left h]

theorem getD_last {β : Type _} (a : List β) (x d : β) (n : Nat) (h : a.length = n) : (a ++ [x]).getD n d = x := by
  subst h
  simp

/-- Two different lists of equally many blocks with the same result: at some place the chaining values or the blocks differ and the next chaining values are equal. -/
theorem foldl_meet {α β : Type _} (f : α → β → α) (d : β) (h : α) : ∀ (n : Nat) (P Q : List β), P.length = n → Q.length = n → P ≠ Q → P.foldl f h = Q.foldl f h →
    ∃ i, i < n ∧ ((P.take i).foldl f h, P.getD i d) ≠ ((Q.take i).foldl f h, Q.getD i d) ∧ f ((P.take i).foldl f h) (P.getD i d) = f ((Q.take i).foldl f h) (Q.getD i d)
  | 0, P, Q, hp, hq, hne, _ => absurd (by rw [List.length_eq_zero_iff.mp hp, List.length_eq_zero_iff.mp hq]) hne
  | n + 1, P, Q, hp, hq, hne, he => by
    have np : P ≠ [] := by rintro rfl; simp at hp
    have nq : Q ≠ [] := by rintro rfl; simp at hq
    obtain ⟨a, x, rfl⟩ : ∃ a x, P = a ++ [x] := ⟨_, _, (List.dropLast_concat_getLast np).symm⟩
    obtain ⟨b, y, rfl⟩ : ∃ b y, Q = b ++ [y] := ⟨_, _, (List.dropLast_concat_getLast nq).symm⟩
    simp only [List.length_append, List.length_cons, List.length_nil, Nat.zero_add, Nat.add_right_cancel_iff] at hp hq
    rw [List.foldl_append, List.foldl_append, List.foldl_cons, List.foldl_cons, List.foldl_nil, List.foldl_nil] at he
    by_cases hx : (a.foldl f h, x) = (b.foldl f h, y)
    · simp only [Prod.mk.injEq] at hx
      obtain ⟨i, hi, h1, h2⟩ := foldl_meet f d h n a b hp hq (fun e => hne (by rw [e, hx.2])) hx.1
      refine ⟨i, by omega, ?_⟩
      rw [List.take_append_of_le_length (by omega), List.take_append_of_le_length (by omega), getD_left _ _ _ _ (by omega), getD_left _ _ _ _ (by omega)]
      exact ⟨h1, h2⟩
    · refine ⟨n, by omega, ?_⟩
      rw [List.take_left' hp, List.take_left' hq, getD_last a x d n hp, getD_last b y d n hq]
      exact ⟨hx, he⟩

end Spec

namespace Model

open Spec (Kind IterHash pad blocks)

theorem std_pad (k : Kind) (m : List Byte) (h : m.length < 2 ^ 61) :
    k.compressed m = blocks k.blockSize (pad k.blockSize k.len64.lenBytes k.len64.lenField m) := by
  have hl : k.std.lenBytes = k.len64.lenBytes := by cases k <;> rfl
  have hf : k.std.lenField (8 * m.length) = k.len64.lenField (8 * m.length) := by
    cases k with
    | sha512 =>
      show Spec.beBytes 16 (8 * m.length) = Spec.beBytes 16 (8 * m.length % 2 ^ 64)
      rw [Nat.mod_eq_of_lt (by omega)]
    | _ => rfl
  unfold Kind.compressed pad
  rw [hl, hf]

theorem std_compress (k : Kind) : k.std.compress = k.len64.compress := by cases k <;> rfl
theorem std_output (k : Kind) : k.std.output = k.len64.output := by cases k <;> rfl

theorem std_compress_length (k : Kind) (g : List (BitVec k.width)) (b : List Byte) (hg : g.length = k.words) : (k.std.compress g b).length = k.words := by
  obtain ⟨enc, L⟩ := lawful k
  rw [std_compress, ← algOf_nHash] at *
  exact L.comp g b hg

theorem valueAt_length (k : Kind) (m : List Byte) (i : Nat) : (k.valueAt m i).length = k.words := by
  unfold Kind.valueAt
  rw [std_iv, IterHash.chain, std_compress]
  exact chain_length_words k _ _ (iv_length k)

/-- The last block ends with the length field, so that it determines the length. -/
theorem last_block {k : Kind} {a b : List Byte} (ha : a.length < 2 ^ 61) (hb : b.length < 2 ^ 61) (p q : List (List Byte)) (x : List Byte)
    (e₁ : k.compressed a = p ++ [x]) (e₂ : k.compressed b = q ++ [x]) : a.length = b.length := by
  have hB : 0 < k.blockSize := by cases k <;> decide
  have key : ∀ (m : List Byte) (r : List (List Byte)), m.length < 2 ^ 61 → k.compressed m = r ++ [x] → x.drop (k.blockSize - k.len64.lenBytes) = k.len64.lenField (8 * m.length) := by
    intro m r hm e
    rw [std_pad k m hm] at e
    obtain ⟨l, z⟩ := Spec.pad_length hB k.len64.lenField (lenField_length k) m
    obtain ⟨f, hf⟩ : ∃ f, pad k.blockSize k.len64.lenBytes k.len64.lenField m = f ++ k.len64.lenField (8 * m.length) := ⟨_, rfl⟩
    generalize pad k.blockSize k.len64.lenBytes k.len64.lenField m = s at *
    have hn : s ≠ [] := by rintro rfl; simp at l; omega
    have hge : k.blockSize ≤ s.length := by
      by_contra hlt
      rw [Nat.mod_eq_of_lt (by omega)] at z
      exact hn (List.length_eq_zero_iff.mp z)
    rw [Spec.blocks_last hB z hn] at e
    have hx := (List.append_inj' e rfl).2
    simp only [List.cons.injEq, and_true] at hx
    have := lenBytes_le k
    have hl := lenField_length k (8 * m.length)
    rw [← hx, List.drop_drop, hf]
    apply List.drop_left'
    rw [hf, List.length_append, hl] at hge
    simp [hl]; omega
  exact lenField_inj k _ _ ha hb ((key a p ha e₁).symm.trans (key b q hb e₂))

theorem compressed_length (k : Kind) (m : List Byte) (h : m.length < 2 ^ 61) : (k.compressed m).length = (m.length + k.len64.lenBytes) / k.blockSize + 1 := by
  have hB : 0 < k.blockSize := by cases k <;> decide
  rw [std_pad k m h, Spec.pad_blocks hB _ (lenField_length k)]

/-- Two different messages with the same digest: the computations meet. -/
theorem digest_meets (k : Kind) (a b : List Byte) (ha : a.length < 2 ^ 61) (hb : b.length < 2 ^ 61) (hne : a ≠ b) (h : k.std.digest a = k.std.digest b) :
    ∃ i j, k.Meets a b i j := by
  have hP : k.compressed a ≠ k.compressed b := by
    rw [std_pad k a ha, std_pad k b hb]
    exact Props.C32_different_messages_different_blocks k a b ha hb hne
  have hbs : k.std.blockBytes = k.blockSize := by cases k <;> rfl
  have h' : k.std.output (k.std.chain k.std.iv (k.compressed a)) = k.std.output (k.std.chain k.std.iv (k.compressed b)) := by
    simpa only [IterHash.digest, IterHash.digestFrom, hbs, Kind.compressed] using h
  have la := compressed_length k a ha
  have lb := compressed_length k b hb
  have na : k.compressed a ≠ [] := by intro e; rw [e] at la; simp at la
  have nb : k.compressed b ≠ [] := by intro e; rw [e] at lb; simp at lb
  obtain ⟨p, x, ea⟩ : ∃ p x, k.compressed a = p ++ [x] := ⟨_, _, (List.dropLast_concat_getLast na).symm⟩
  obtain ⟨q, y, eb⟩ : ∃ q y, k.compressed b = q ++ [y] := ⟨_, _, (List.dropLast_concat_getLast nb).symm⟩
  have va : k.valueAt a p.length = k.std.chain k.std.iv p := by rw [Kind.valueAt, ea, List.take_left]
  have vb : k.valueAt b q.length = k.std.chain k.std.iv q := by rw [Kind.valueAt, eb, List.take_left]
  have ba : k.blockAt a p.length = x := by rw [Kind.blockAt, ea, Spec.getD_last _ _ _ _ rfl]
  have bb : k.blockAt b q.length = y := by rw [Kind.blockAt, eb, Spec.getD_last _ _ _ _ rfl]
  have ca : k.std.chain k.std.iv (k.compressed a) = k.std.compress (k.valueAt a p.length) x := by rw [va, ea]; simp [IterHash.chain]
  have cb : k.std.chain k.std.iv (k.compressed b) = k.std.compress (k.valueAt b q.length) y := by rw [vb, eb]; simp [IterHash.chain]
  have whole : k ≠ .sha224 → k.std.chain k.std.iv (k.compressed a) = k.std.chain k.std.iv (k.compressed b) := fun hk => by
    rw [ca, cb] at h' ⊢
    rw [std_output] at h'
    exact output_inj k hk _ _ (std_compress_length k _ _ (valueAt_length k a _)) (std_compress_length k _ _ (valueAt_length k b _)) h'
  by_cases hx : (k.valueAt a p.length, x) = (k.valueAt b q.length, y)
  · simp only [Prod.mk.injEq] at hx
    have hl : a.length = b.length := last_block ha hb p q x ea (by rw [eb, hx.2])
    have hlen : (k.compressed b).length = (k.compressed a).length := by rw [la, lb, hl]
    have hf : (k.compressed a).foldl k.std.compress k.std.iv = (k.compressed b).foldl k.std.compress k.std.iv := by
      have : k.std.chain k.std.iv (k.compressed a) = k.std.chain k.std.iv (k.compressed b) := by rw [ca, cb, hx.1, hx.2]
      exact this
    obtain ⟨i, hi, h1, h2⟩ := Spec.foldl_meet k.std.compress [] k.std.iv _ _ _ rfl hlen hP hf
    exact ⟨i, i, hi, by omega, h1, .inl h2, by omega⟩
  · have l1 : (k.compressed a).length = p.length + 1 := by rw [ea]; simp
    have l2 : (k.compressed b).length = q.length + 1 := by rw [eb]; simp
    refine ⟨p.length, q.length, by omega, by omega, by rw [ba, bb]; exact hx, ?_, by omega⟩
    rw [ba, bb]
    by_cases hk : k = .sha224
    · refine .inr ⟨hk, l1.symm, l2.symm, ?_⟩
      rw [ca, cb] at h'
      have q1 := std_compress_length k _ x (valueAt_length k a p.length)
      have q2 := std_compress_length k _ y (valueAt_length k b q.length)
      generalize k.std.compress (k.valueAt a p.length) x = g₁ at *
      generalize k.std.compress (k.valueAt b q.length) y = g₂ at *
      clear ca cb whole ba bb va vb hx h
      subst hk
      exact Spec.flatMap_inj _ 4 (fun _ => beBytes_length _ _) (beBytes_word_inj (by decide)) _ _ (by rw [List.length_take, List.length_take, q1, q2]) h'
    · left
      rw [← ca, ← cb]
      exact whole hk

end Model
