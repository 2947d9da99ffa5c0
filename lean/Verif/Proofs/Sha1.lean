import Verif.Proofs.Load
import Verif.Proofs.Sha2
import Verif.Spec.Sha1
/-! The SHA-1 block function computes the compression function of FIPS 180-4, in both variants. -/

namespace Model

open Spec (Vars5)

theorem ch_or (x y z : BitVec 32) : (x &&& y) ||| (~~~x &&& z) = (x &&& y) ^^^ (~~~x &&& z) := by
  apply BitVec.eq_of_getLsbD_eq
  intro i hi
  simp only [BitVec.getLsbD_or, BitVec.getLsbD_xor, BitVec.getLsbD_and, BitVec.getLsbD_not, hi, decide_true, Bool.true_and]
  cases x.getLsbD i <;> cases y.getLsbD i <;> cases z.getLsbD i <;> rfl

theorem maj_or (x y z : BitVec 32) : (x &&& y) ||| (x &&& z) ||| (y &&& z) = (x &&& y) ^^^ (x &&& z) ^^^ (y &&& z) := by
  apply BitVec.eq_of_getLsbD_eq
  intro i hi
  simp only [BitVec.getLsbD_or, BitVec.getLsbD_xor, BitVec.getLsbD_and]
  cases x.getLsbD i <;> cases y.getLsbD i <;> cases z.getLsbD i <;> rfl

/-- Schedule invariant. -/
def Sched1Inv (blk : List Byte) (t : Nat) (vals : List (BitVec 32)) : Prop :=
  vals.length = 80 ∧ ∀ i, i < t → vals[i]? = some (Spec.sha1W blk i)

theorem sha1Extend_ok (blk : List Byte) {t : Nat} {vals : List (BitVec 32)} (h16 : 16 ≤ t) (ht : t < 80)
    (h : Sched1Inv blk t vals) : ∃ vals', sha1Extend t vals = .ok vals' ∧ Sched1Inv blk (t + 1) vals' := by
  obtain ⟨hl, hv⟩ := h
  refine ⟨vals.set t (Spec.sha1W blk t), ?_, by simp [hl], ?_⟩
  · unfold sha1Extend
    rw [rdSub_ok (by omega) (hv _ (by omega)), Res.ok_bind, rdSub_ok (by omega) (hv _ (by omega)), Res.ok_bind,
      rdSub_ok (by omega) (hv _ (by omega)), Res.ok_bind, rdSub_ok (by omega) (hv _ (by omega)), Res.ok_bind,
      wr_ok _ (by omega), Res.ok_bind, rd_ok (by simp; omega), Res.ok_bind, List.getElem_set_self,
      cRotl_ok _ (by omega) (by omega), Res.ok_bind, wr_ok _ (by simp; omega), List.set_set]
    conv_rhs => rw [Spec.sha1W, if_neg (by omega)]
  · intro i hi
    by_cases hij : i = t
    · subst hij; rw [List.getElem?_set_self (by omega)]
    · rw [List.getElem?_set_ne (by omega), hv i (by omega)]

/-- The register array holding the working variables. -/
def toList5 (v : Vars5) : List (BitVec 32) := [v.a, v.b, v.c, v.d, v.e]

theorem sha1LoopRound_ok (blk : List Byte) {t : Nat} {vals : List (BitVec 32)} (ht : t < 80)
    (h : Sched1Inv blk 80 vals) (v : Vars5) :
    sha1LoopRound vals t (toList5 v) = .ok (toList5 (Spec.sha1Round t (Spec.sha1W blk t) v)) := by
  have hw : rd vals t = .ok (Spec.sha1W blk t) := rd_eq_ok (h.2 t ht)
  have r5 : ∀ x : BitVec 32, cRotl x 5 = .ok (x.rotateLeft 5) := fun x => cRotl_ok x (by omega) (by omega)
  have r30 : ∀ x : BitVec 32, cRotl x 30 = .ok (x.rotateLeft 30) := fun x => cRotl_ok x (by omega) (by omega)
  unfold sha1LoopRound
  by_cases h20 : t < 20
  · simp [toList5, rd, wr, r5, r30, h20, Spec.sha1Round, Spec.sha1F, Spec.sha1K, ch_or] at hw ⊢
    simp [hw]; ac_rfl
  · by_cases h40 : t < 40
    · simp [toList5, rd, wr, r5, r30, h20, h40, Spec.sha1Round, Spec.sha1F, Spec.sha1K] at hw ⊢
      simp [hw]; ac_rfl
    · by_cases h60 : t < 60
      · simp [toList5, rd, wr, r5, r30, h20, h40, h60, Spec.sha1Round, Spec.sha1F, Spec.sha1K, maj_or] at hw ⊢
        simp [hw]; ac_rfl
      · simp [toList5, rd, wr, r5, r30, h20, h40, h60, Spec.sha1Round, Spec.sha1F, Spec.sha1K] at hw ⊢
        simp [hw]; ac_rfl

/-- The round macro used for round `t`. -/
def sha1Sel (t : Nat) : Nat := if t < 20 then 1 else if t < 40 then 2 else if t < 60 then 3 else 4

theorem sha1MacroF_ok (t : Nat) (b c d : BitVec 32) : sha1MacroF (sha1Sel t) b c d = (Spec.sha1F t b c d, Spec.sha1K t) := by
  unfold sha1Sel Spec.sha1F Spec.sha1K
  split
  · simp [sha1MacroF, ch_or]
  · split
    · simp [sha1MacroF]
    · split
      · simp [sha1MacroF, maj_or]
      · simp [sha1MacroF]

theorem sha1MacroRound_ok (blk : List Byte) {t : Nat} {vals : List (BitVec 32)} (ht : t < 80)
    (h : Sched1Inv blk 80 vals) (v : Vars5) :
    sha1MacroRound vals (sha1Sel t, t, (0 + 5 - t % 5) % 5, (1 + 5 - t % 5) % 5, (2 + 5 - t % 5) % 5, (3 + 5 - t % 5) % 5,
        (4 + 5 - t % 5) % 5) ((toList5 v).rotateLeft (t % 5)) =
      .ok ((toList5 (Spec.sha1Round t (Spec.sha1W blk t) v)).rotateLeft ((t + 1) % 5)) := by
  have hw : rd vals t = .ok (Spec.sha1W blk t) := rd_eq_ok (h.2 t ht)
  have r5 : ∀ x : BitVec 32, cRotl x 5 = .ok (x.rotateLeft 5) := fun x => cRotl_ok x (by omega) (by omega)
  have r30 : ∀ x : BitVec 32, cRotl x 30 = .ok (x.rotateLeft 30) := fun x => cRotl_ok x (by omega) (by omega)
  have h8 : t % 5 < 5 := Nat.mod_lt _ (by omega)
  rw [Nat.add_mod]
  generalize hr : t % 5 = r at *
  have : r = 0 ∨ r = 1 ∨ r = 2 ∨ r = 3 ∨ r = 4 := by omega
  unfold sha1MacroRound
  simp only [sha1MacroF_ok]
  rcases this with rfl | rfl | rfl | rfl | rfl <;>
    simp [toList5, List.rotateLeft, rd, wr, r5, r30, Spec.sha1Round] at hw ⊢ <;>
    simp [hw] <;> ac_rfl

theorem eq_toList5 (l : List (BitVec 32)) (h : l.length = 5) : ∃ v, l = toList5 v := by
  match l, h with
  | [a, b, c, d, e], _ => exact ⟨⟨a, b, c, d, e⟩, rfl⟩

theorem sha1Compress_eq (blk : List Byte) (v : Vars5) :
    Spec.sha1Compress (toList5 v) blk = List.zipWith (· + ·) (toList5 v) (toList5 (Spec.sha1Rounds blk v 80)) := by
  simp [Spec.sha1Compress, toList5, BitVec.add_comm]

theorem sha1Block_ok (unrolled : Bool) (ctxHv : List (BitVec 32)) (buf : List Byte) (off : Nat) (scr : Scr 32)
    (hc : ctxHv.length = 5) (hb : off + 64 ≤ buf.length) (hs1 : scr.hv.length = 5) (hs2 : scr.vals.length = 80) :
    ∃ scr', sha1Block unrolled ctxHv buf off scr =
        .ok (Spec.sha1Compress ctxHv ((buf.drop off).take 64), off + 64, scr') ∧
      scr'.hv.length = 5 ∧ Sched1Inv ((buf.drop off).take 64) 80 scr'.vals := by
  obtain ⟨v0, rfl⟩ := eq_toList5 ctxHv hc
  generalize hblk : (buf.drop off).take 64 = blk
  have hcopy : memCopy scr.hv 0 (toList5 v0) 0 5 = .ok (toList5 v0) := by
    rw [memCopy_ok (by omega) (by omega)]
    simp [List.drop_eq_nil_of_le (show scr.hv.length ≤ 5 by omega), List.take_of_length_le (show (toList5 v0).length ≤ 5 by omega)]
  unfold sha1Block
  rw [hcopy, Res.ok_bind]
  cases unrolled with
  | false =>
    simp only [Bool.false_eq_true, if_false]
    obtain ⟨vals1, e1, l1, hv1⟩ := loadLoop_ok (vals := scr.vals) (ws := 4) (prog := ld32be) (buf := buf) (off := off)
      (fun i => Spec.beWord 32 blk i) hs2 (by omega)
      (fun i v0 hi => by rw [load_word_be (ws := 4) (by decide) (by omega) rfl buf off (by omega) i v0 hi, hblk])
    rw [e1, Res.ok_bind]
    obtain ⟨vals2, e2, hI⟩ := forLoop_inv (f := sha1Extend) (Sched1Inv blk) (lo := 16) (hi := 80) (s := vals1) (by omega)
      ⟨l1, fun i hi => by rw [hv1 i hi, Spec.sha1W, if_pos hi]⟩
      (fun j s h1 h2 h3 => sha1Extend_ok blk h1 h2 h3)
    simp only
    rw [e2, Res.ok_bind]
    obtain ⟨hv3, e3, h3⟩ := forLoop_inv (f := sha1LoopRound vals2) (fun t hv => hv = toList5 (Spec.sha1Rounds blk v0 t))
      (lo := 0) (hi := 80) (s := toList5 v0) (by omega) rfl
      (fun j s _ hj hP => ⟨_, by rw [hP, sha1LoopRound_ok blk hj hI]; rfl, rfl⟩)
    rw [e3, Res.ok_bind, addLoop_ok _ _ 5 rfl (by rw [h3]; rfl), Res.ok_bind]
    refine ⟨⟨hv3, vals2⟩, ?_, by rw [h3]; rfl, hI⟩
    rw [sha1Compress_eq, ← h3]; rfl
  | true =>
    simp only [if_true]
    obtain ⟨vals1, e1, l1, hv1⟩ := loadUnrolled_ok (vals := scr.vals) (ws := 4) (sh := 2) (rows := load16x32beRows)
      (prog := ld1x32be) (buf := buf) (off := off)
      (fun i => Spec.beWord 32 blk i) hs2 (by omega) (by decide) rfl
      (fun i v0 hi => by rw [load_word_be (ws := 4) (by decide) (by omega) rfl buf off (by omega) i v0 hi, hblk])
    rw [e1, Res.ok_bind]
    obtain ⟨vals2, e2, hI⟩ := runTable_rows (f := sha1Extend) (rows := sha1ExtendRows) id (Sched1Inv blk) (lo := 16) (hi := 80) (s := vals1)
      (by omega) (by decide +kernel) ⟨l1, fun i hi => by rw [hv1 i hi, Spec.sha1W, if_pos hi]⟩
      (fun j s h1 h2 h3 => sha1Extend_ok blk h1 h2 h3)
    rw [e2, Res.ok_bind]
    obtain ⟨hv3, e3, h3⟩ := runTable_rows (f := sha1MacroRound vals2) (rows := sha1RoundRows)
      (fun t => (sha1Sel t, t, (0 + 5 - t % 5) % 5, (1 + 5 - t % 5) % 5, (2 + 5 - t % 5) % 5, (3 + 5 - t % 5) % 5, (4 + 5 - t % 5) % 5))
      (fun t hv => hv = (toList5 (Spec.sha1Rounds blk v0 t)).rotateLeft (t % 5))
      (lo := 0) (hi := 80) (s := toList5 v0) (by omega) (by rfl) (by simp [Spec.sha1Rounds, toList5, List.rotateLeft])
      (fun j s _ hj hP => ⟨_, by rw [hP, sha1MacroRound_ok blk hj hI]; rfl, rfl⟩)
    have h3' : hv3 = toList5 (Spec.sha1Rounds blk v0 80) := by
      rw [h3]; simp [toList5, List.rotateLeft]
    rw [e3, Res.ok_bind, addUnrolled_ok _ _ 5 _ (by decide) rfl (by rw [h3']; rfl), Res.ok_bind]
    refine ⟨⟨hv3, vals2⟩, ?_, by rw [h3']; rfl, hI⟩
    rw [sha1Compress_eq, ← h3']; rfl

end Model
