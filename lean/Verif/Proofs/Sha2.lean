import Verif.Proofs.Load
/-! The SHA-224/256/512 block functions compute the compression function of FIPS 180-4, in both variants. -/

namespace Model

open Spec (Sha2Fns Vars8)

/-- What a parameter record must satisfy to implement the functions `F` of the standard. -/
structure Sha2Law {w} (P : Sha2P w) (F : Sha2Fns w) : Prop where
  bs : P.blockSize = 16 * P.wordSize
  ws : 0 < P.wordSize
  w8 : w / 8 = P.wordSize
  r16 : 16 ≤ F.rounds
  rounds : P.rounds = F.rounds
  k : P.k = F.k
  klen : F.k.length = F.rounds
  ext0 : ∀ x : BitVec w, sha2Ext x P.ext0 = .ok (F.smallSigma0 x)
  ext1 : ∀ x : BitVec w, sha2Ext x P.ext1 = .ok (F.smallSigma1 x)
  macroS0 : ∀ x : BitVec w, sha2Sig x P.macroS0 = .ok (F.bigSigma0 x)
  macroS1 : ∀ x : BitVec w, sha2Sig x P.macroS1 = .ok (F.bigSigma1 x)
  loopS0 : ∀ x : BitVec w, sha2Sig x P.loopS0 = .ok (F.bigSigma0 x)
  loopS1 : ∀ x : BitVec w, sha2Sig x P.loopS1 = .ok (F.bigSigma1 x)
  ldLoop : P.ldLoop = canonProg (List.range P.wordSize)
  ldUnrolled : P.ldUnrolled = canonProg (List.range P.wordSize)
  ldShift : P.wordSize = 2 ^ P.ldShift
  ldRows : P.ldRows = List.range 16
  extRows : P.extRows = (List.range' 16 (F.rounds - 16)).map id
  roundRows : P.roundRows = (List.range' 0 (F.rounds - 0)).map (fun t =>
    (t, (0 + 8 - t % 8) % 8, (1 + 8 - t % 8) % 8, (2 + 8 - t % 8) % 8, (3 + 8 - t % 8) % 8,
        (4 + 8 - t % 8) % 8, (5 + 8 - t % 8) % 8, (6 + 8 - t % 8) % 8, (7 + 8 - t % 8) % 8))
  rounds8 : F.rounds % 8 = 0
  addRows : P.addRows = (List.range 8).map (fun i => (i, i))

variable {w : Nat} {P : Sha2P w} {F : Sha2Fns w}

/-- Schedule invariant: the first `t` words of the array are the message schedule. -/
def SchedInv (F : Sha2Fns w) (blk : List Byte) (N t : Nat) (vals : List (BitVec w)) : Prop :=
  vals.length = N ∧ ∀ i, i < t → vals[i]? = some (Spec.sha2W F blk i)

theorem rdSub_ok {α} {a : List α} {i k : Nat} {x : α} (h : k ≤ i) (hx : a[i - k]? = some x) : rdSub a i k = .ok x := by
  simp [rdSub, h, rd_eq_ok hx]

theorem sha2Extend_ok (L : Sha2Law P F) (blk : List Byte) {N t : Nat} {vals : List (BitVec w)} (h16 : 16 ≤ t) (htN : t < N)
    (h : SchedInv F blk N t vals) : ∃ vals', sha2Extend P t vals = .ok vals' ∧ SchedInv F blk N (t + 1) vals' := by
  obtain ⟨hl, hv⟩ := h
  refine ⟨vals.set t (Spec.sha2W F blk t), ?_, by simp [hl], ?_⟩
  · unfold sha2Extend
    rw [rdSub_ok (by omega) (hv _ (by omega)), Res.ok_bind, L.ext0, Res.ok_bind, rdSub_ok (by omega) (hv _ (by omega)), Res.ok_bind,
      L.ext1, Res.ok_bind, rdSub_ok (by omega) (hv _ (by omega)), Res.ok_bind, rdSub_ok (by omega) (hv _ (by omega)), Res.ok_bind,
      wr_ok _ (by omega)]
    congr 2
    conv_rhs => rw [Spec.sha2W, if_neg (by omega)]
    ac_rfl
  · intro i hi
    by_cases hij : i = t
    · subst hij; rw [List.getElem?_set_self (by omega)]
    · rw [List.getElem?_set_ne (by omega), hv i (by omega)]

/-- The register array holding the working variables. -/
def toList8 (v : Vars8 w) : List (BitVec w) := [v.a, v.b, v.c, v.d, v.e, v.f, v.g, v.h]

theorem sha2LoopRound_ok (L : Sha2Law P F) (blk : List Byte) {N t : Nat} {vals : List (BitVec w)} (ht : t < F.rounds)
    (h : SchedInv F blk N F.rounds vals) (v : Vars8 w) :
    sha2LoopRound P vals t (toList8 v) = .ok (toList8 (Spec.sha2Round F (F.k.getD t 0) (Spec.sha2W F blk t) v)) := by
  have hk : rd P.k t = .ok (F.k.getD t 0) := by
    rw [L.k]; apply rd_eq_ok; simp [List.getD, show t < F.k.length by rw [L.klen]; exact ht]
  have hw : rd vals t = .ok (Spec.sha2W F blk t) := rd_eq_ok (h.2 t ht)
  simp [sha2LoopRound, toList8, rd, wr, L.loopS0, L.loopS1, Spec.sha2Round, Spec.ch, Spec.maj] at hk hw ⊢
  simp [hk, hw]

theorem sha2MacroRound_ok (L : Sha2Law P F) (blk : List Byte) {N t : Nat} {vals : List (BitVec w)} (ht : t < F.rounds)
    (h : SchedInv F blk N F.rounds vals) (v : Vars8 w) :
    sha2MacroRound P vals (t, (0 + 8 - t % 8) % 8, (1 + 8 - t % 8) % 8, (2 + 8 - t % 8) % 8, (3 + 8 - t % 8) % 8,
        (4 + 8 - t % 8) % 8, (5 + 8 - t % 8) % 8, (6 + 8 - t % 8) % 8, (7 + 8 - t % 8) % 8)
      ((toList8 v).rotateLeft (t % 8)) =
      .ok ((toList8 (Spec.sha2Round F (F.k.getD t 0) (Spec.sha2W F blk t) v)).rotateLeft ((t + 1) % 8)) := by
  have hk : rd P.k t = .ok (F.k.getD t 0) := by
    rw [L.k]; apply rd_eq_ok; simp [List.getD, show t < F.k.length by rw [L.klen]; exact ht]
  have hw : rd vals t = .ok (Spec.sha2W F blk t) := rd_eq_ok (h.2 t ht)
  have h8 : t % 8 < 8 := Nat.mod_lt _ (by omega)
  rw [Nat.add_mod]
  generalize t % 8 = r at *
  have : r = 0 ∨ r = 1 ∨ r = 2 ∨ r = 3 ∨ r = 4 ∨ r = 5 ∨ r = 6 ∨ r = 7 := by omega
  rcases this with rfl | rfl | rfl | rfl | rfl | rfl | rfl | rfl <;>
    simp [sha2MacroRound, toList8, List.rotateLeft, rd, wr, L.macroS0, L.macroS1, Spec.sha2Round, Spec.ch, Spec.maj] at hk hw ⊢ <;>
    simp [hk, hw]

theorem eq_toList8 (l : List (BitVec w)) (h : l.length = 8) : ∃ v, l = toList8 v := by
  match l, h with
  | [a, b, c, d, e, f, g, i], _ => exact ⟨⟨a, b, c, d, e, f, g, i⟩, rfl⟩

/-- The compression function in terms of the working variables. -/
theorem sha2Compress_eq (blk : List Byte) (v : Vars8 w) :
    Spec.sha2Compress F (toList8 v) blk = List.zipWith (· + ·) (toList8 v) (toList8 (Spec.sha2Rounds F blk v F.rounds)) := by
  simp [Spec.sha2Compress, toList8, BitVec.add_comm]

theorem sha2Block_ok (L : Sha2Law P F) (unrolled : Bool) (ctxHv : List (BitVec w)) (buf : List Byte) (off : Nat) (scr : Scr w)
    (hc : ctxHv.length = 8) (hb : off + P.blockSize ≤ buf.length) (hs1 : scr.hv.length = 8) (hs2 : scr.vals.length = F.rounds) :
    ∃ scr', sha2Block P unrolled ctxHv buf off scr =
        .ok (Spec.sha2Compress F ctxHv ((buf.drop off).take P.blockSize), off + P.blockSize, scr') ∧
      scr'.hv.length = 8 ∧ scr'.vals.length = F.rounds := by
  have hbs := L.bs
  have hr16 := L.r16
  obtain ⟨v0, rfl⟩ := eq_toList8 ctxHv hc
  generalize hblk : (buf.drop off).take P.blockSize = blk
  have hcopy : memCopy scr.hv 0 (toList8 v0) 0 8 = .ok (toList8 v0) := by
    rw [memCopy_ok (by omega) (by omega)]
    simp [List.drop_eq_nil_of_le (show scr.hv.length ≤ 8 by omega), List.take_of_length_le (show (toList8 v0).length ≤ 8 by omega)]
  unfold sha2Block
  rw [hcopy, Res.ok_bind]
  cases unrolled with
  | false =>
    simp only [Bool.false_eq_true, if_false]
    obtain ⟨vals1, e1, l1, hv1⟩ := loadLoop_ok (vals := scr.vals) (ws := P.wordSize) (prog := P.ldLoop) (buf := buf) (off := off)
      (fun i => Spec.beWord w blk i) hs2 hr16
      (fun i v0 hi => by rw [load_word_be L.ldLoop L.ws L.w8 buf off (by omega) i v0 hi, ← hbs, hblk])
    rw [e1, Res.ok_bind]
    obtain ⟨vals2, e2, hI⟩ := forLoop_inv (f := sha2Extend P) (SchedInv F blk F.rounds) (lo := 16) (hi := F.rounds) (s := vals1) hr16
      ⟨l1, fun i hi => by rw [hv1 i hi, Spec.sha2W, if_pos hi]⟩
      (fun j s h1 h2 h3 => sha2Extend_ok L blk h1 h2 h3)
    simp only
    rw [L.rounds, e2, Res.ok_bind]
    obtain ⟨hv3, e3, h3⟩ := forLoop_inv (f := sha2LoopRound P vals2) (fun t hv => hv = toList8 (Spec.sha2Rounds F blk v0 t))
      (lo := 0) (hi := F.rounds) (s := toList8 v0) (by omega) rfl
      (fun j s _ hj hP => ⟨_, by rw [hP, sha2LoopRound_ok L blk hj hI]; rfl, rfl⟩)
    rw [e3, Res.ok_bind, addLoop_ok _ _ 8 rfl (by rw [h3]; rfl), Res.ok_bind]
    refine ⟨⟨hv3, vals2⟩, ?_, by rw [h3]; rfl, hI.1⟩
    rw [sha2Compress_eq, ← h3, hbs]; rfl
  | true =>
    simp only [if_true]
    obtain ⟨vals1, e1, l1, hv1⟩ := loadUnrolled_ok (vals := scr.vals) (ws := P.wordSize) (prog := P.ldUnrolled) (buf := buf) (off := off)
      (fun i => Spec.beWord w blk i) hs2 hr16 L.ldRows L.ldShift
      (fun i v0 hi => by rw [load_word_be L.ldUnrolled L.ws L.w8 buf off (by omega) i v0 hi, ← hbs, hblk])
    rw [e1, Res.ok_bind]
    obtain ⟨vals2, e2, hI⟩ := runTable_rows (f := sha2Extend P) (rows := P.extRows) id (SchedInv F blk F.rounds) (lo := 16) (hi := F.rounds) (s := vals1)
      hr16 L.extRows ⟨l1, fun i hi => by rw [hv1 i hi, Spec.sha2W, if_pos hi]⟩
      (fun j s h1 h2 h3 => sha2Extend_ok L blk h1 h2 h3)
    rw [e2, Res.ok_bind]
    obtain ⟨hv3, e3, h3⟩ := runTable_rows (f := sha2MacroRound P vals2) (rows := P.roundRows) _
      (fun t hv => hv = (toList8 (Spec.sha2Rounds F blk v0 t)).rotateLeft (t % 8))
      (lo := 0) (hi := F.rounds) (s := toList8 v0) (by omega) L.roundRows (by simp [Spec.sha2Rounds, toList8, List.rotateLeft])
      (fun j s _ hj hP => ⟨_, by rw [hP, sha2MacroRound_ok L blk hj hI]; rfl, rfl⟩)
    have h3' : hv3 = toList8 (Spec.sha2Rounds F blk v0 F.rounds) := by
      rw [h3, L.rounds8]; simp [toList8, List.rotateLeft]
    rw [e3, Res.ok_bind, addUnrolled_ok _ _ 8 _ L.addRows rfl (by rw [h3']; rfl), Res.ok_bind]
    refine ⟨⟨hv3, vals2⟩, ?_, by rw [h3']; rfl, hI.1⟩
    rw [sha2Compress_eq, ← h3']; rfl

/-! ### the three instances -/

theorem sha2Ext_ok {w} (x : BitVec w) {a b c : Nat} (ha : 0 < a ∧ a < w) (hb : 0 < b ∧ b < w) (hc : c < w) :
    sha2Ext x (a, b, c) = .ok (x.rotateRight a ^^^ x.rotateRight b ^^^ (x >>> c)) := by
  simp [sha2Ext, cRotr_ok x ha.1 ha.2, cRotr_ok x hb.1 hb.2, cShr, hc]

theorem sha2Sig_ok {w} (x : BitVec w) {a b c : Nat} (ha : 0 < a ∧ a < w) (hb : 0 < b ∧ b < w) (hc : 0 < c ∧ c < w) :
    sha2Sig x (a, b, c) = .ok (x.rotateRight a ^^^ x.rotateRight b ^^^ x.rotateRight c) := by
  simp [sha2Sig, cRotr_ok x ha.1 ha.2, cRotr_ok x hb.1 hb.2, cRotr_ok x hc.1 hc.2]

theorem sha256Law : Sha2Law sha256P Spec.fns256 where
  bs := rfl
  ws := by decide
  w8 := rfl
  r16 := by decide
  rounds := rfl
  k := by decide +kernel
  klen := rfl
  ext0 x := sha2Ext_ok x (by decide) (by decide) (by decide)
  ext1 x := sha2Ext_ok x (by decide) (by decide) (by decide)
  macroS0 x := sha2Sig_ok x (by decide) (by decide) (by decide)
  macroS1 x := sha2Sig_ok x (by decide) (by decide) (by decide)
  loopS0 x := sha2Sig_ok x (by decide) (by decide) (by decide)
  loopS1 x := sha2Sig_ok x (by decide) (by decide) (by decide)
  ldLoop := by decide +kernel
  ldUnrolled := by decide +kernel
  ldShift := rfl
  ldRows := by decide +kernel
  extRows := by decide +kernel
  roundRows := by rfl
  rounds8 := rfl
  addRows := by decide +kernel

theorem sha224Law : Sha2Law sha224P Spec.fns256 where
  bs := rfl
  ws := by decide
  w8 := rfl
  r16 := by decide
  rounds := rfl
  k := by decide +kernel
  klen := rfl
  ext0 x := sha2Ext_ok x (by decide) (by decide) (by decide)
  ext1 x := sha2Ext_ok x (by decide) (by decide) (by decide)
  macroS0 x := sha2Sig_ok x (by decide) (by decide) (by decide)
  macroS1 x := sha2Sig_ok x (by decide) (by decide) (by decide)
  loopS0 x := sha2Sig_ok x (by decide) (by decide) (by decide)
  loopS1 x := sha2Sig_ok x (by decide) (by decide) (by decide)
  ldLoop := by decide +kernel
  ldUnrolled := by decide +kernel
  ldShift := rfl
  ldRows := by decide +kernel
  extRows := by decide +kernel
  roundRows := by rfl
  rounds8 := rfl
  addRows := by decide +kernel

theorem sha512Law : Sha2Law sha512P Spec.fns512 where
  bs := rfl
  ws := by decide
  w8 := rfl
  r16 := by decide
  rounds := rfl
  k := by decide +kernel
  klen := rfl
  ext0 x := sha2Ext_ok x (by decide) (by decide) (by decide)
  ext1 x := sha2Ext_ok x (by decide) (by decide) (by decide)
  macroS0 x := sha2Sig_ok x (by decide) (by decide) (by decide)
  macroS1 x := sha2Sig_ok x (by decide) (by decide) (by decide)
  loopS0 x := sha2Sig_ok x (by decide) (by decide) (by decide)
  loopS1 x := sha2Sig_ok x (by decide) (by decide) (by decide)
  ldLoop := by decide +kernel
  ldUnrolled := by decide +kernel
  ldShift := rfl
  ldRows := by decide +kernel
  extRows := by decide +kernel
  roundRows := by rfl
  rounds8 := rfl
  addRows := by decide +kernel

end Model
