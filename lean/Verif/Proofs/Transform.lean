import Verif.Proofs.Kinds
/-! The block transform on its own: which bytes it reads, what it leaves in its local arrays. -/

namespace Model

open Spec (IterHash blocks)

variable {w : Nat} {A : Alg w} {H : IterHash w} {enc : Nat → List Byte}

/-- The transform loop needs the whole blocks only. `Q` is a fact about the local arrays after one block. -/
theorem transformLoop_blocks (L : Lawful A H enc) (u : Bool) (buf : List Byte) (Q : List Byte → Scr w → Prop)
    (hQ : ∀ hv off (scr : Scr w) r, hv.length = A.nHash → off + A.blockSize ≤ buf.length → scr.hv.length = A.nHash → scr.vals.length = A.nVals →
      A.blockFn u hv buf off scr = .ok r → Q ((buf.drop off).take A.blockSize) r.2.2) :
    ∀ (n fuel size off : Nat) (hv : List (BitVec w)) (scr : Scr w), size / A.blockSize = n → n < fuel → off + n * A.blockSize ≤ buf.length →
      size < 2 ^ 64 → hv.length = A.nHash → ScrOk A scr →
      ∃ scr', transformLoop A u buf fuel size off hv scr =
          .ok (H.chain hv (blocks A.blockSize ((buf.drop off).take (n * A.blockSize))), off + n * A.blockSize, scr') ∧ ScrOk A scr' ∧
        (0 < n → Q ((buf.drop (off + (n - 1) * A.blockSize)).take A.blockSize) scr') := by
  have hB : 0 < A.blockSize := by rcases L.size with h | h <;> omega
  intro n
  induction n with
  | zero =>
    intro fuel size off hv scr hn hf hb h64 hhv hscr
    have hlt : size < A.blockSize := (Nat.div_eq_zero_iff_lt hB).mp hn
    unfold transformLoop
    rw [if_neg (by omega), Spec.blocks_of_lt (by simp; omega)]
    exact ⟨scr, by simp [IterHash.chain], hscr, by omega⟩
  | succ n ih =>
    intro fuel size off hv scr hn hf hb h64 hhv hscr
    have hge : A.blockSize ≤ size := by
      by_contra h
      rw [Nat.div_eq_of_lt (by omega)] at hn; omega
    have hdiv := Nat.div_eq_sub_div hB hge
    have hsm : (n + 1) * A.blockSize = n * A.blockSize + A.blockSize := Nat.succ_mul _ _
    unfold transformLoop
    rw [if_pos hge]
    match fuel, hf with
    | fuel + 1, hf =>
      obtain ⟨scr1, e1, h1⟩ := L.block u hv buf off scr hhv (by omega) hscr.1 hscr.2
      have hq := hQ hv off scr _ hhv (by omega) hscr.1 hscr.2 e1
      simp only [e1, Res.ok_bind]
      rw [szSub_eq hge h64]
      obtain ⟨scr', e2, h2, h3⟩ := ih fuel (size - A.blockSize) (off + A.blockSize) _ scr1 (by omega) (by omega) (by omega) (by omega)
        (L.comp _ _ hhv) h1
      refine ⟨scr', ?_, h2, ?_⟩
      · rw [e2]
        have hl : ((buf.drop off).take ((n + 1) * A.blockSize)).length = (n + 1) * A.blockSize := by simp; omega
        rw [Spec.blocks_step (m := (buf.drop off).take ((n + 1) * A.blockSize)) hB (by rw [hl]; omega), List.take_take,
          Nat.min_eq_left (by omega), List.drop_take, List.drop_drop, show (n + 1) * A.blockSize - A.blockSize = n * A.blockSize by omega]
        simp only [IterHash.chain, List.foldl_cons]
        congr 3; omega
      · intro _
        by_cases hn0 : n = 0
        · subst hn0
          have : scr' = scr1 := by
            have e3 : transformLoop A u buf fuel (size - A.blockSize) (off + A.blockSize) (H.compress hv ((buf.drop off).take A.blockSize)) scr1 =
                .ok (H.compress hv ((buf.drop off).take A.blockSize), off + A.blockSize, scr1) := by
              have hlt : size - A.blockSize < A.blockSize := by
                have := (Nat.div_eq_zero_iff_lt (x := size - A.blockSize) hB).mp (by omega); omega
              unfold transformLoop
              rw [if_neg (by omega)]
            rw [e3] at e2
            simp only [Res.ok.injEq, Prod.mk.injEq] at e2
            exact e2.2.2.symm
          rw [this]
          simpa using hq
        · have := h3 (by omega)
          rwa [show off + A.blockSize + (n - 1) * A.blockSize = off + (n + 1 - 1) * A.blockSize by
            obtain ⟨j, rfl⟩ : ∃ j, n = j + 1 := ⟨n - 1, by omega⟩
            simp only [Nat.add_sub_cancel, Nat.succ_mul]; omega] at this

/-- The transform for valid arguments, with what is left in the local arrays. -/
theorem transform_blocks (L : Lawful A H enc) (u : Bool) (scr : Scr w) (c : Ctx w) (buf : List Byte) (size : Nat) (Q : List Byte → Scr w → Prop)
    (hQ : ∀ hv off (scr : Scr w) r, hv.length = A.nHash → off + A.blockSize ≤ buf.length → scr.hv.length = A.nHash → scr.vals.length = A.nVals →
      A.blockFn u hv buf off scr = .ok r → Q ((buf.drop off).take A.blockSize) r.2.2)
    (hs : size ≤ ssizeMax) (hb : size / A.blockSize * A.blockSize ≤ buf.length) (hhv : c.hashValues.length = A.nHash) (hscr : ScrOk A scr) :
    ∃ scr₁ scr', transform A u scr (some c) (some buf) size =
        .ok (((size / A.blockSize * A.blockSize : Nat) : Int),
          some { c with hashValues := H.chain c.hashValues (blocks A.blockSize (buf.take (size / A.blockSize * A.blockSize))) }, scr') ∧
      ScrOk A scr₁ ∧ scr'.hv = List.replicate A.wipeHv 0 ++ scr₁.hv.drop A.wipeHv ∧ scr'.vals = List.replicate A.wipeVals 0 ++ scr₁.vals.drop A.wipeVals ∧
      (A.blockSize ≤ size → Q ((buf.drop ((size / A.blockSize - 1) * A.blockSize)).take A.blockSize) scr₁) := by
  have hB : 0 < A.blockSize := by rcases L.size with h | h <;> omega
  have hss : ssizeMax < 2 ^ 64 := by decide
  obtain ⟨scr', e, ⟨h1, h2⟩, h3⟩ := transformLoop_blocks L u buf Q hQ (size / A.blockSize) (size + 1) size 0 c.hashValues scr rfl
    (by have := Nat.div_le_self size A.blockSize; omega) (by omega) (by omega) hhv hscr
  have hwh := L.wipeH
  have hwv := L.wipeV
  unfold transform
  simp only
  rw [if_neg (by omega), e, Res.ok_bind]
  simp only
  rw [memSet_ok _ (by omega), Res.ok_bind, memSet_ok _ (by omega), Res.ok_bind]
  refine ⟨scr', ⟨List.replicate A.wipeHv 0 ++ scr'.hv.drop A.wipeHv, List.replicate A.wipeVals 0 ++ scr'.vals.drop A.wipeVals⟩,
    by simp, ⟨h1, h2⟩, rfl, rfl, ?_⟩
  intro hge
  have := h3 (Nat.div_pos hge hB)
  simpa using this

end Model
