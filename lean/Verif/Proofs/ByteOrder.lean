import Verif.Proofs.Basic
/-! Byte strings and numbers: the two conversions are inverse to each other. -/

namespace Model

open Spec (beNat leNat beBytes leBytes)

theorem leNat_lt : ∀ l : List Byte, leNat l < 2 ^ (8 * l.length)
  | [] => by simp [leNat]
  | b :: l => by
    have := leNat_lt l
    have := b.isLt
    rw [leNat, List.length_cons, Nat.mul_add, Nat.pow_add]
    omega

theorem leNat_leBytes : ∀ n v, leNat (leBytes n v) = v % 2 ^ (8 * n)
  | 0, v => by simp [leNat, leBytes, Nat.mod_one]
  | n + 1, v => by
    rw [leBytes, leNat, leNat_leBytes n, BitVec.toNat_ofNat, show 8 * (n + 1) = 8 + 8 * n by ring, Nat.pow_add, Nat.mod_mul]

theorem leBytes_leNat : ∀ l : List Byte, leBytes l.length (leNat l) = l
  | [] => rfl
  | b :: l => by
    have h := b.isLt
    have e1 : (b.toNat + 256 * leNat l) / 256 = leNat l := by omega
    have e2 : BitVec.ofNat 8 (b.toNat + 256 * leNat l) = b := by
      apply BitVec.eq_of_toNat_eq
      rw [BitVec.toNat_ofNat]; omega
    rw [List.length_cons, leNat, leBytes, e1, leBytes_leNat l, e2]

theorem beNat_eq_leNat (l : List Byte) : beNat l = leNat l.reverse := by
  rw [← foldl_le, List.reverse_reverse]

theorem beNat_lt (l : List Byte) : beNat l < 2 ^ (8 * l.length) := by
  rw [beNat_eq_leNat, ← List.length_reverse]; exact leNat_lt _

theorem beNat_beBytes (n v : Nat) : beNat (beBytes n v) = v % 2 ^ (8 * n) := by
  rw [beNat_eq_leNat, beBytes_eq_reverse, List.reverse_reverse, leNat_leBytes]

theorem beBytes_beNat (l : List Byte) : beBytes l.length (beNat l) = l := by
  rw [beNat_eq_leNat, beBytes_eq_reverse, ← List.length_reverse, leBytes_leNat, List.reverse_reverse]

theorem beNat_inj {a b : List Byte} (hl : a.length = b.length) (h : beNat a = beNat b) : a = b := by
  rw [← beBytes_beNat a, ← beBytes_beNat b, hl, h]

theorem beBytes_inj {n a b : Nat} (ha : a < 2 ^ (8 * n)) (hb : b < 2 ^ (8 * n)) (h : beBytes n a = beBytes n b) : a = b := by
  have := congrArg beNat h
  rwa [beNat_beBytes, beNat_beBytes, Nat.mod_eq_of_lt ha, Nat.mod_eq_of_lt hb] at this

theorem leBytes_inj {n a b : Nat} (ha : a < 2 ^ (8 * n)) (hb : b < 2 ^ (8 * n)) (h : leBytes n a = leBytes n b) : a = b := by
  have := congrArg leNat h
  rwa [leNat_leBytes, leNat_leBytes, Nat.mod_eq_of_lt ha, Nat.mod_eq_of_lt hb] at this

/-- The first sixteen words determine a block. -/
theorem beWord_inj {a b : List Byte} (ha : a.length = 64) (hb : b.length = 64)
    (h : ∀ i, i < 16 → BitVec.ofNat 32 (beNat ((a.drop (i * 4)).take 4)) = BitVec.ofNat 32 (beNat ((b.drop (i * 4)).take 4))) : a = b := by
  have hw : ∀ i, i < 16 → (a.drop (i * 4)).take 4 = (b.drop (i * 4)).take 4 := by
    intro i hi
    have hla : ((a.drop (i * 4)).take 4).length = 4 := by simp; omega
    have hlb : ((b.drop (i * 4)).take 4).length = 4 := by simp; omega
    have h1 := beNat_lt ((a.drop (i * 4)).take 4)
    have h2 := beNat_lt ((b.drop (i * 4)).take 4)
    rw [hla] at h1
    rw [hlb] at h2
    have := congrArg BitVec.toNat (h i hi)
    rw [BitVec.toNat_ofNat, BitVec.toNat_ofNat, Nat.mod_eq_of_lt h1, Nat.mod_eq_of_lt h2] at this
    exact beNat_inj (hla.trans hlb.symm) this
  apply List.ext_getElem?
  intro k
  by_cases hk : k < 64
  · have := congrArg (·[k % 4]?) (hw (k / 4) (by omega))
    simp only [List.getElem?_take, Nat.mod_lt k (show 0 < 4 by omega), if_true, List.getElem?_drop] at this
    rwa [show k / 4 * 4 + k % 4 = k by omega] at this
  · rw [List.getElem?_eq_none (by omega), List.getElem?_eq_none (by omega)]

/-- The SHA-1 schedule words 16..79 determine the words 0..15. -/
theorem rotl1_inj {x y : BitVec 32} (h : x.rotateLeft 1 = y.rotateLeft 1) : x = y := by
  apply BitVec.eq_of_getLsbD_eq
  intro i hi
  have := congrArg (·.getLsbD ((i + 1) % 32)) h
  simp only [BitVec.getLsbD_rotateLeft] at this
  by_cases h31 : i = 31
  · subst h31; simpa using this
  · rw [Nat.mod_eq_of_lt (by omega)] at this
    simp [show ¬ i + 1 < 1 by omega, show i + 1 < 32 by omega] at this
    simpa using this

end Model

namespace Model

open Spec (beNat leNat beBytes leBytes)

/-- Continuing a load macro on a variable with leftover bits `a`. -/
theorem runTable_orProg_junk {w} (bs : List Byte) (off : Nat) :
    ∀ (is : List Nat) (V : Nat) (a : BitVec w), (∀ i ∈ is, off + i < bs.length) →
      runTable (loadStep bs off) (orProg is) (a ||| BitVec.ofNat w V)
        = .ok ((a <<< (8 * is.length)) ||| BitVec.ofNat w ((is.map fun i => bs.getD (off + i) 0).foldl (fun acc b => 256 * acc + b.toNat) V))
  | [], V, a, _ => by simp [orProg, runTable]
  | i :: is, V, a, h => by
    have hi : off + i < bs.length := h i (by simp)
    simp only [orProg, runTable, loadStep, Res.pure_eq, Res.ok_bind, rd_ok hi, setWidth_byte, BitVec.shiftLeft_or_distrib,
      BitVec.or_assoc, shl8_or_ofNat _ _ _ bs[off + i].isLt]
    rw [runTable_orProg_junk bs off is _ _ (fun j hj => h j (by simp [hj]))]
    simp only [List.length_cons, List.map_cons, List.foldl_cons, List.getD, hi, List.getElem?_eq_getElem, Option.getD_some]
    rw [← BitVec.shiftLeft_add, show 8 + 8 * is.length = 8 * (is.length + 1) by ring]

theorem runTable_append {ρ σ} (f : ρ → σ → Res σ) : ∀ (a b : List ρ) (s : σ), runTable f (a ++ b) s = runTable f a s >>= runTable f b
  | [], b, s => rfl
  | r :: a, b, s => by
    simp only [List.cons_append, runTable]
    cases f r s with
    | ok s' => exact runTable_append f a b s'
    | ub => rfl
    | diverge => rfl

end Model
