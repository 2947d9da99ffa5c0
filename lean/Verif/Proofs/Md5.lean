import Verif.Proofs.Load
import Verif.Spec.Md5
/-! The MD5 block function computes the compression function of RFC 1321, in both variants. -/

namespace Model

open Spec (Vars4)

/-- The message words are loaded. -/
def WordsInv (blk : List Byte) (vals : List (BitVec 32)) : Prop :=
  vals.length = 16 ∧ ∀ i, i < 16 → vals[i]? = some (Spec.leWord blk i)

/-- The register array holding the variables. -/
def toList4 (v : Vars4) : List (BitVec 32) := [v.a, v.b, v.c, v.d]

theorem md5_tables : ∀ t, t < 64 →
    md5Index[t]? = some (Spec.md5Idx t) ∧ md5Sines[t]? = some (Spec.md5T.getD t 0) ∧ md5Shifts[t]? = some (Spec.md5S t) ∧
    Spec.md5Idx t < 16 ∧ 0 < Spec.md5S t ∧ Spec.md5S t < 32 := by
  have h : ∀ t : Fin 64, md5Index[t.val]? = some (Spec.md5Idx t.val) ∧ md5Sines[t.val]? = some (Spec.md5T.getD t.val 0) ∧
      md5Shifts[t.val]? = some (Spec.md5S t.val) ∧
      Spec.md5Idx t.val < 16 ∧ 0 < Spec.md5S t.val ∧ Spec.md5S t.val < 32 := by decide +kernel
  exact fun t ht => h ⟨t, ht⟩

theorem md5LoopRound_ok (blk : List Byte) {t : Nat} {vals : List (BitVec 32)} (ht : t < 64) (h : WordsInv blk vals) (v : Vars4) :
    md5LoopRound vals t (toList4 v) = .ok (toList4 (Spec.md5Step blk t v)) := by
  obtain ⟨h1, h2, h3, h4, h5, h6⟩ := md5_tables t ht
  have hk := rd_eq_ok h1
  have hs := rd_eq_ok h2
  have hn := rd_eq_ok h3
  have hw : rd vals (Spec.md5Idx t) = .ok (Spec.leWord blk (Spec.md5Idx t)) := rd_eq_ok (h.2 _ h4)
  have hrot : ∀ x : BitVec 32, cRotl x (Spec.md5S t) = .ok (x.rotateLeft (Spec.md5S t)) := fun x => cRotl_ok x h5 h6
  unfold md5LoopRound
  simp only [hk, hs, hn, Res.ok_bind, hw]
  by_cases h16 : t < 16
  · simp [toList4, rd, wr, hrot, h16, Spec.md5Step, Spec.md5F]
  · by_cases h32 : t < 32
    · simp [toList4, rd, wr, hrot, h16, h32, Spec.md5Step, Spec.md5F]
    · by_cases h48 : t < 48
      · simp [toList4, rd, wr, hrot, h16, h32, h48, Spec.md5Step, Spec.md5F]
      · simp [toList4, rd, wr, hrot, h16, h32, h48, Spec.md5Step, Spec.md5F]

/-- The round macro used for operation `t`. -/
def md5Sel (t : Nat) : Nat := if t < 16 then 1 else if t < 32 then 2 else if t < 48 then 3 else 4

theorem md5MacroF_ok (t : Nat) (b c d : BitVec 32) : md5MacroF (md5Sel t) b c d = Spec.md5F t b c d := by
  unfold md5Sel Spec.md5F
  split
  · simp [md5MacroF]
  · split
    · simp [md5MacroF]
    · split
      · simp [md5MacroF]
      · simp [md5MacroF]

theorem md5MacroRound_ok (blk : List Byte) {t : Nat} {vals : List (BitVec 32)} (ht : t < 64) (h : WordsInv blk vals) (v : Vars4) :
    md5MacroRound vals (md5Sel t, Spec.md5Idx t, (0 + 4 - t % 4) % 4, (1 + 4 - t % 4) % 4, (2 + 4 - t % 4) % 4, (3 + 4 - t % 4) % 4, t)
        ((toList4 v).rotateLeft (t % 4)) =
      .ok ((toList4 (Spec.md5Step blk t v)).rotateLeft ((t + 1) % 4)) := by
  obtain ⟨_, h2, h3, h4, h5, h6⟩ := md5_tables t ht
  have hs := rd_eq_ok h2
  have hn := rd_eq_ok h3
  have hw : rd vals (Spec.md5Idx t) = .ok (Spec.leWord blk (Spec.md5Idx t)) := rd_eq_ok (h.2 _ h4)
  have hrot : ∀ x : BitVec 32, cRotl x (Spec.md5S t) = .ok (x.rotateLeft (Spec.md5S t)) := fun x => cRotl_ok x h5 h6
  have h8 : t % 4 < 4 := Nat.mod_lt _ (by omega)
  rw [Nat.add_mod]
  unfold md5MacroRound
  simp only [hs, hn, Res.ok_bind, hw, md5MacroF_ok]
  generalize hr : t % 4 = r at *
  have : r = 0 ∨ r = 1 ∨ r = 2 ∨ r = 3 := by omega
  rcases this with rfl | rfl | rfl | rfl <;>
    simp [toList4, List.rotateLeft, rd, wr, hrot, Spec.md5Step] <;> ac_rfl

theorem eq_toList4 (l : List (BitVec 32)) (h : l.length = 4) : ∃ v, l = toList4 v := by
  match l, h with
  | [a, b, c, d], _ => exact ⟨⟨a, b, c, d⟩, rfl⟩

theorem md5Compress_eq (blk : List Byte) (v : Vars4) :
    Spec.md5Compress (toList4 v) blk = List.zipWith (· + ·) (toList4 v) (toList4 (Spec.md5Steps blk v 64)) := by
  simp [Spec.md5Compress, toList4, BitVec.add_comm]

theorem md5Block_ok (unrolled : Bool) (ctxHv : List (BitVec 32)) (buf : List Byte) (off : Nat) (scr : Scr 32)
    (hc : ctxHv.length = 4) (hb : off + 64 ≤ buf.length) (hs1 : scr.hv.length = 4) (hs2 : scr.vals.length = 16) :
    ∃ scr', md5Block unrolled ctxHv buf off scr =
        .ok (Spec.md5Compress ctxHv ((buf.drop off).take 64), off + 64, scr') ∧
      scr'.hv.length = 4 ∧ scr'.vals.length = 16 := by
  obtain ⟨v0, rfl⟩ := eq_toList4 ctxHv hc
  generalize hblk : (buf.drop off).take 64 = blk
  have hcopy : memCopy scr.hv 0 (toList4 v0) 0 4 = .ok (toList4 v0) := by
    rw [memCopy_ok (by omega) (by omega)]
    simp [List.drop_eq_nil_of_le (show scr.hv.length ≤ 4 by omega), List.take_of_length_le (show (toList4 v0).length ≤ 4 by omega)]
  unfold md5Block
  rw [hcopy, Res.ok_bind]
  cases unrolled with
  | false =>
    simp only [Bool.false_eq_true, if_false]
    obtain ⟨vals1, e1, l1, hv1⟩ := loadLoop_ok (vals := scr.vals) (ws := 4) (prog := ld32le) (buf := buf) (off := off)
      (fun i => Spec.leWord blk i) hs2 (by omega)
      (fun i v0 hi => by rw [load_word_le (by decide) buf off hb i v0 hi, hblk])
    rw [e1, Res.ok_bind]
    simp only
    obtain ⟨hv3, e3, h3⟩ := forLoop_inv (f := md5LoopRound vals1) (fun t hv => hv = toList4 (Spec.md5Steps blk v0 t))
      (lo := 0) (hi := 64) (s := toList4 v0) (by omega) rfl
      (fun j s _ hj hP => ⟨_, by rw [hP, md5LoopRound_ok blk hj ⟨l1, hv1⟩]; rfl, rfl⟩)
    rw [e3, Res.ok_bind, addLoop_ok _ _ 4 rfl (by rw [h3]; rfl), Res.ok_bind]
    refine ⟨⟨hv3, vals1⟩, ?_, by rw [h3]; rfl, l1⟩
    rw [md5Compress_eq, ← h3]; rfl
  | true =>
    simp only [if_true]
    obtain ⟨vals1, e1, l1, hv1⟩ := loadUnrolled_ok (vals := scr.vals) (ws := 4) (sh := 2) (rows := load16x32leRows)
      (prog := ld1x32le) (buf := buf) (off := off)
      (fun i => Spec.leWord blk i) hs2 (by omega) (by decide) rfl
      (fun i v0 hi => by rw [load_word_le (by decide) buf off hb i v0 hi, hblk])
    rw [e1, Res.ok_bind]
    obtain ⟨hv3, e3, h3⟩ := runTable_rows (f := md5MacroRound vals1) (rows := md5RoundRows)
      (fun t => (md5Sel t, Spec.md5Idx t, (0 + 4 - t % 4) % 4, (1 + 4 - t % 4) % 4, (2 + 4 - t % 4) % 4, (3 + 4 - t % 4) % 4, t))
      (fun t hv => hv = (toList4 (Spec.md5Steps blk v0 t)).rotateLeft (t % 4))
      (lo := 0) (hi := 64) (s := toList4 v0) (by omega) (by rfl) (by simp [Spec.md5Steps, toList4, List.rotateLeft])
      (fun j s _ hj hP => ⟨_, by rw [hP, md5MacroRound_ok blk hj ⟨l1, hv1⟩]; rfl, rfl⟩)
    have h3' : hv3 = toList4 (Spec.md5Steps blk v0 64) := by
      rw [h3]; simp [toList4, List.rotateLeft]
    rw [e3, Res.ok_bind, addUnrolled_ok _ _ 4 _ (by decide) rfl (by rw [h3']; rfl), Res.ok_bind]
    refine ⟨⟨hv3, vals1⟩, ?_, by rw [h3']; rfl, l1⟩
    rw [md5Compress_eq, ← h3']; rfl

end Model
