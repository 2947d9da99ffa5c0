import Verif.Proofs.Blocks
import Verif.Model.Context
/-! Refinement of the context functions to an iterated hash, for any algorithm whose block function is right. -/

namespace Model

open Spec (IterHash blocks)

/-- What the refinement needs to know about an algorithm `A` to relate it to the iterated hash `H`. `enc` is the 8 byte encoding of the bit length. -/
structure Lawful {w} (A : Alg w) (H : IterHash w) (enc : Nat → List Byte) : Prop where
  size : (A.blockSize = 64 ∧ H.lenBytes = 8) ∨ (A.blockSize = 128 ∧ H.lenBytes = 16)
  bs : H.blockBytes = A.blockSize
  hmacBs : A.hmacBlockSize = A.blockSize
  hashLe : A.hashSize ≤ A.blockSize
  limit : A.padLimit + 1 + H.lenBytes = A.blockSize
  iv : A.iv = H.iv
  ivLen : A.iv.length = A.nHash
  block : ∀ u hv buf off (scr : Scr w), hv.length = A.nHash → off + A.blockSize ≤ buf.length → scr.hv.length = A.nHash →
    scr.vals.length = A.nVals → ∃ scr', A.blockFn u hv buf off scr = .ok (H.compress hv ((buf.drop off).take A.blockSize), off + A.blockSize, scr') ∧
      scr'.hv.length = A.nHash ∧ scr'.vals.length = A.nVals
  comp : ∀ hv b, hv.length = A.nHash → (H.compress hv b).length = A.nHash
  wipeH : A.wipeHv ≤ A.nHash
  wipeV : A.wipeVals ≤ A.nVals
  outLen : ∀ hv, hv.length = A.nHash → (H.output hv).length = A.hashSize
  store : ∀ u hv h, hv.length = A.nHash → A.hashSize ≤ h.length → storeHash A u hv h = .ok (H.output hv ++ h.drop A.hashSize)
  encLen : ∀ n, (enc n).length = 8
  lenStore : ∀ (bs : List Byte) off (v : BitVec 64), off + 8 ≤ bs.length → runStore A.lenProg bs off v = .ok (splice bs off (enc v.toNat))
  field : ∀ n, H.lenField n = List.replicate (H.lenBytes - 8) 0 ++ enc (n % 2 ^ 64)

variable {w : Nat} {A : Alg w} {H : IterHash w} {enc : Nat → List Byte}

/-- The scratch arrays have the sizes the code declares. -/
def ScrOk (A : Alg w) (scr : Scr w) : Prop := scr.hv.length = A.nHash ∧ scr.vals.length = A.nVals

theorem chain_len (L : Lawful A H enc) (bs : List (List Byte)) : ∀ h0, h0.length = A.nHash → (H.chain h0 bs).length = A.nHash := by
  induction bs with
  | nil => exact fun h0 h => h
  | cons b bs ih => exact fun h0 h => ih _ (L.comp _ _ h)

theorem chain_append (h0 : List (BitVec w)) (a b : List (List Byte)) : H.chain h0 (a ++ b) = H.chain (H.chain h0 a) b := by
  simp [IterHash.chain]

theorem transformLoop_ok (L : Lawful A H enc) (u : Bool) (buf : List Byte) :
    ∀ (n fuel size off : Nat) (hv : List (BitVec w)) (scr : Scr w), size / A.blockSize = n → n < fuel → off + size ≤ buf.length →
      size < 2 ^ 64 → hv.length = A.nHash → ScrOk A scr →
      ∃ scr', transformLoop A u buf fuel size off hv scr =
          .ok (H.chain hv (blocks A.blockSize ((buf.drop off).take size)), off + n * A.blockSize, scr') ∧ ScrOk A scr' := by
  have hB : 0 < A.blockSize := by rcases L.size with h | h <;> omega
  intro n
  induction n with
  | zero =>
    intro fuel size off hv scr hn hf hb h64 hhv hscr
    have hlt : size < A.blockSize := (Nat.div_eq_zero_iff_lt hB).mp hn
    unfold transformLoop
    rw [if_neg (by omega), Spec.blocks_of_lt (by simp; omega)]
    exact ⟨scr, by simp [IterHash.chain], hscr⟩
  | succ n ih =>
    intro fuel size off hv scr hn hf hb h64 hhv hscr
    have hge : A.blockSize ≤ size := by
      by_contra h
      rw [Nat.div_eq_of_lt (by omega)] at hn; omega
    have hdiv := Nat.div_eq_sub_div hB hge
    unfold transformLoop
    rw [if_pos hge]
    match fuel, hf with
    | fuel + 1, hf =>
      obtain ⟨scr1, e1, h1⟩ := L.block u hv buf off scr hhv (by omega) hscr.1 hscr.2
      simp only [e1, Res.ok_bind]
      rw [szSub_eq hge h64]
      obtain ⟨scr', e2, h2⟩ := ih fuel (size - A.blockSize) (off + A.blockSize) _ scr1 (by omega) (by omega) (by omega) (by omega)
        (L.comp _ _ hhv) h1
      refine ⟨scr', ?_, h2⟩
      rw [e2]
      have hl : ((buf.drop off).take size).length = size := by simp; omega
      rw [Spec.blocks_step (m := (buf.drop off).take size) hB (by rw [hl]; exact hge), List.take_take, Nat.min_eq_left hge, List.drop_take, List.drop_drop]
      simp only [IterHash.chain, List.foldl_cons, Nat.succ_mul]
      congr 3; omega

/-- The transform hashes the whole blocks of the buffer and reports their size. -/
theorem transform_ok (L : Lawful A H enc) (u : Bool) (scr : Scr w) (c : Ctx w) (buf : List Byte) (size : Nat)
    (hs : size ≤ ssizeMax) (hb : size ≤ buf.length) (hhv : c.hashValues.length = A.nHash) (hscr : ScrOk A scr) :
    ∃ scr', transform A u scr (some c) (some buf) size =
        .ok (((size / A.blockSize * A.blockSize : Nat) : Int),
          some { c with hashValues := H.chain c.hashValues (blocks A.blockSize (buf.take size)) }, scr') ∧ ScrOk A scr' ∧
      scr'.hv.take A.wipeHv = List.replicate A.wipeHv 0 ∧ scr'.vals.take A.wipeVals = List.replicate A.wipeVals 0 := by
  have hB : 0 < A.blockSize := by rcases L.size with h | h <;> omega
  have hss : ssizeMax < 2 ^ 64 := by decide
  obtain ⟨scr', e, h1, h2⟩ := transformLoop_ok L u buf (size / A.blockSize) (size + 1) size 0 c.hashValues scr rfl
    (by have := Nat.div_le_self size A.blockSize; omega) (by omega) (by omega) hhv hscr
  have hwh := L.wipeH
  have hwv := L.wipeV
  unfold transform
  simp only
  rw [if_neg (by omega), e, Res.ok_bind]
  simp only
  rw [memSet_ok _ (by omega), Res.ok_bind, memSet_ok _ (by omega), Res.ok_bind]
  refine ⟨⟨List.replicate A.wipeHv 0 ++ scr'.hv.drop A.wipeHv, List.replicate A.wipeVals 0 ++ scr'.vals.drop A.wipeVals⟩,
    by simp, ⟨by simp; omega, by simp; omega⟩, by simp, by simp⟩

/-- The context holds the state of the iterated hash from `h0` after the message `m`. -/
def Rep (A : Alg w) (H : IterHash w) (h0 : List (BitVec w)) (m : List Byte) (c : Ctx w) : Prop :=
  ∃ p r, m = p ++ r ∧ p.length % A.blockSize = 0 ∧ r.length < A.blockSize ∧ c.hashValues = H.chain h0 (blocks A.blockSize p) ∧
    c.hashCount = BitVec.ofNat 64 p.length ∧ c.blockOffset = r.length ∧ c.block.length = 2 * A.blockSize ∧ c.block.take r.length = r

theorem updateTail_ok {h0 m} (c : Ctx w) (b : List Byte) (o n : Nat) (hlt : n < A.blockSize)
    (hb : o + n ≤ b.length) (hr : Rep A H h0 m c) (h0' : c.blockOffset = 0) :
    ∃ c', updateTail A c b o n = .ok (1, c') ∧ Rep A H h0 (m ++ (b.drop o).take n) c' := by
  unfold updateTail
  split
  · rw [if_neg (by omega)]
    obtain ⟨p, r, rfl, h1, h2, h3, h4, h5, h6, h7⟩ := hr
    have : r = [] := List.length_eq_zero_iff.mp (by omega)
    subst this
    rw [memCopy_ok (by omega) (by omega), Res.ok_bind]
    refine ⟨_, rfl, p, (b.drop o).take n, by simp, h1, by simp; omega, h3, h4, by simp; omega, by simp; omega, ?_⟩
    simp
  · have : n = 0 := by omega
    subst this
    exact ⟨c, rfl, by simpa using hr⟩

theorem updateBulk_ok (L : Lawful A H enc) {h0 m} (hh0 : h0.length = A.nHash) (u : Bool) (scr : Scr w) (hscr : ScrOk A scr) (c : Ctx w) (b : List Byte) (o n : Nat)
    (hs : n ≤ ssizeMax) (hb : o + n ≤ b.length) (hr : Rep A H h0 m c) (h0' : c.blockOffset = 0) :
    ∃ c', updateBulk A u scr c b o n = .ok (1, c', o + n / A.blockSize * A.blockSize, n % A.blockSize) ∧
      Rep A H h0 (m ++ (b.drop o).take (n / A.blockSize * A.blockSize)) c' ∧ c'.blockOffset = 0 := by
  have hB : 0 < A.blockSize := by rcases L.size with h | h <;> omega
  have hss : ssizeMax < 2 ^ 64 := by decide
  unfold updateBulk
  split
  · rw [ptrAt_ok (by omega), Res.ok_bind]
    obtain ⟨p, r, rfl, h1, h2, h3, h4, h5, h6, h7⟩ := hr
    have : r = [] := List.length_eq_zero_iff.mp (by omega)
    subst this
    obtain ⟨scr', e, -⟩ := transform_ok L u scr c (b.drop o) n hs (by simp; omega) (by rw [h3]; exact chain_len L _ _ hh0) hscr
    have hle : n / A.blockSize * A.blockSize ≤ n := Nat.div_mul_le_self _ _
    rw [e, Res.ok_bind]
    simp only
    rw [if_neg (by omega), Int.toNat_natCast, szSub_eq hle (by omega), ← Nat.mod_eq_sub_div_mul]
    have hlen : ((b.drop o).take (n / A.blockSize * A.blockSize)).length = n / A.blockSize * A.blockSize := by simp; omega
    refine ⟨_, rfl, ⟨p ++ (b.drop o).take (n / A.blockSize * A.blockSize), [], by simp, ?_, by simpa using hB, ?_, ?_, by simpa using h5, h6, by simp⟩, h5⟩
    · rw [List.length_append, hlen, Nat.add_mul_mod_self_right]; exact h1
    · have := Spec.blocks_take hB ((b.drop o).take n)
      rw [show ((b.drop o).take n).length = n by simp; omega, List.take_take, Nat.min_eq_left hle] at this
      simp only [h3]
      rw [Spec.blocks_append hB _ _ h1, chain_append, this]
    · simp only [h4]
      rw [List.length_append, hlen, BitVec.ofInt_natCast, BitVec.ofNat_add]
  · have : n = 0 := by omega
    subst this
    exact ⟨c, by simp, by simpa using hr, h0'⟩

theorem updateFill_ok (L : Lawful A H enc) {h0 m} (hh0 : h0.length = A.nHash) (u : Bool) (scr : Scr w) (hscr : ScrOk A scr) (c : Ctx w) (b : List Byte) (n : Nat)
    (hs : n ≤ ssizeMax) (hb : n ≤ b.length) (hr : Rep A H h0 m c) :
    (∃ c', updateFill A u scr c b n = .ok (1, c', none) ∧ Rep A H h0 (m ++ b.take n) c') ∨
    (∃ c' k, k ≤ n ∧ updateFill A u scr c b n = .ok (1, c', some (k, n - k)) ∧ Rep A H h0 (m ++ b.take k) c' ∧ c'.blockOffset = 0) := by
  have hB : 0 < A.blockSize := by rcases L.size with h | h <;> omega
  have hB2 : A.blockSize ≤ ssizeMax := by unfold ssizeMax; rcases L.size with h | h <;> omega
  have hss : ssizeMax < 2 ^ 64 := by decide
  unfold updateFill
  by_cases hpos : 0 < c.blockOffset
  · rw [if_pos hpos]
    obtain ⟨p, r, rfl, h1, h2, h3, h4, h5, h6, h7⟩ := hr
    rw [if_neg (by omega), szSub_eq (by omega) (by omega)]
    have hrem : (if n < A.blockSize - c.blockOffset then n else A.blockSize - c.blockOffset) = min n (A.blockSize - c.blockOffset) := by
      split <;> omega
    simp only [hrem]
    generalize hk : min n (A.blockSize - c.blockOffset) = k
    rw [memCopy_ok (by omega) (by omega), Res.ok_bind]
    simp only [List.drop_zero]
    have htake : (c.block.take c.blockOffset ++ (b.take k ++ c.block.drop (c.blockOffset + k))).take (c.blockOffset + k) = r ++ b.take k := by
      rw [h5, h7, ← List.append_assoc, List.take_left' (by simp; omega)]
    by_cases hlt : c.blockOffset + k < A.blockSize
    · left
      rw [if_pos hlt]
      have : k = n := by omega
      subst this
      refine ⟨_, rfl, p, r ++ b.take k, by simp, h1, by simp; omega, h3, h4, by simp; omega, by simp; omega, ?_⟩
      rw [show (r ++ b.take k).length = c.blockOffset + k by simp; omega, htake]
    · right
      rw [if_neg hlt]
      have hfull : c.blockOffset + k = A.blockSize := by omega
      obtain ⟨scr', e, -⟩ := transform_ok L u scr
        { c with block := c.block.take c.blockOffset ++ (b.take k ++ c.block.drop (c.blockOffset + k)), blockOffset := c.blockOffset + k }
        (c.block.take c.blockOffset ++ (b.take k ++ c.block.drop (c.blockOffset + k))) A.blockSize hB2 (by simp; omega)
        (by simp only [h3]; exact chain_len L _ _ hh0) hscr
      rw [e, Res.ok_bind]
      simp only
      rw [if_neg (by omega), szSub_eq (by omega) (by omega)]
      refine ⟨_, k, by omega, rfl, ⟨p ++ (r ++ b.take k), [], by simp, ?_, by simpa using hB, ?_, ?_, rfl, by simp; omega, by simp⟩, rfl⟩
      · rw [List.length_append, show (r ++ b.take k).length = A.blockSize by simp; omega, Nat.add_mod_right]; exact h1
      · simp only [h3]
        rw [Spec.blocks_append hB _ _ h1, chain_append, ← hfull, htake, hfull]
      · simp only [h4]
        rw [Nat.div_self hB, Nat.one_mul, List.length_append, show (r ++ b.take k).length = A.blockSize by simp; omega,
          BitVec.ofInt_natCast, BitVec.ofNat_add]
  · right
    rw [if_neg hpos]
    exact ⟨c, 0, by omega, by simp, by simpa using hr, by omega⟩

/-- A successful update appends its bytes to the message the context represents. -/
theorem ctxUpdate_ok (L : Lawful A H enc) {h0 m} (hh0 : h0.length = A.nHash) (u : Bool) (scr : Scr w) (hscr : ScrOk A scr) (c : Ctx w) (b : List Byte) (n : Nat)
    (hs : n ≤ ssizeMax) (hb : n ≤ b.length) (hr : Rep A H h0 m c) :
    ∃ c', ctxUpdate A u scr (some c) (some b) n = .ok (1, some c') ∧ Rep A H h0 (m ++ b.take n) c' := by
  have hB : 0 < A.blockSize := by rcases L.size with h | h <;> omega
  unfold ctxUpdate
  simp only
  rw [if_neg (by omega)]
  by_cases hz : n = 0
  · rw [if_pos hz]; subst hz
    exact ⟨c, rfl, by simpa using hr⟩
  · rw [if_neg hz]
    rcases updateFill_ok L hh0 u scr hscr c b n hs hb hr with ⟨c', e, h⟩ | ⟨c1, k, hk, e, h, ho⟩
    · exact ⟨c', by rw [e]; rfl, h⟩
    · obtain ⟨c2, e2, h2, ho2⟩ := updateBulk_ok L hh0 u scr hscr c1 b k (n - k) (by omega) (by omega) h ho
      have hdm : (n - k) / A.blockSize * A.blockSize + (n - k) % A.blockSize = n - k := by
        rw [Nat.mul_comm]; exact Nat.div_add_mod _ _
      obtain ⟨c3, e3, h3⟩ := updateTail_ok c2 b (k + (n - k) / A.blockSize * A.blockSize) ((n - k) % A.blockSize)
        (Nat.mod_lt _ hB) (by omega) h2 ho2
      refine ⟨c3, ?_, ?_⟩
      · rw [e, Res.ok_bind]; simp only; rw [e2, Res.ok_bind]; simp only; rw [if_neg (by omega), e3]; rfl
      · have e4 : b.take n = b.take k ++ ((b.drop k).take ((n - k) / A.blockSize * A.blockSize) ++
            (b.drop (k + (n - k) / A.blockSize * A.blockSize)).take ((n - k) % A.blockSize)) := by
          rw [← List.drop_drop, ← List.take_add, hdm, ← List.take_add]
          congr 1; omega
        rw [e4, ← List.append_assoc, ← List.append_assoc]; exact h3

theorem padZeros_arith {B lb : Nat} (h : (B = 64 ∧ lb = 8) ∨ (B = 128 ∧ lb = 16)) (p r : Nat) (hp : p % B = 0) (hr : r < B) :
    Spec.padZeros B lb (p + r) + (lb - 8) = (if B - lb - 1 < r then 1 + 1 else 1) * B - r - 9 ∧
    r + 1 + lb ≤ (if B - lb - 1 < r then 1 + 1 else 1) * B := by
  unfold Spec.padZeros
  rcases h with ⟨rfl, rfl⟩ | ⟨rfl, rfl⟩ <;> split <;> constructor <;> omega

theorem splice_append {α} {off : Nat} (X Z T l : List α) (hX : X.length = off) (hZ : Z.length = l.length) :
    splice (X ++ (Z ++ T)) off l = X ++ (l ++ T) := by
  subst hX
  unfold splice
  rw [List.take_left' rfl, ← List.append_assoc X Z T, List.drop_left' (by simp [hZ])]

/-- The final block(s): what remains of the message, then the padding. -/
theorem finalBlock (L : Lawful A H enc) {p r : List Byte} (hp : p.length % A.blockSize = 0) (hr : r.length < A.blockSize)
    (block : List Byte) (hl : block.length = 2 * A.blockSize) (ht : block.take r.length = r) (nb : Nat)
    (hnb : nb = if A.padLimit < r.length then 1 + 1 else 1) :
    ∃ b1 b2 b3, memSet block r.length 0 (szSub (nb * A.blockSize) r.length) = .ok b1 ∧ wr b1 r.length 0x80 = .ok b2 ∧
      runStore A.lenProg b2 (nb * A.blockSize - 8) ((BitVec.ofNat 64 p.length + BitVec.ofNat 64 r.length) * 8) = .ok b3 ∧
      b3.length = 2 * A.blockSize ∧
      p ++ b3.take (nb * A.blockSize) = Spec.pad H.blockBytes H.lenBytes H.lenField (p ++ r) := by
  have hlim : A.padLimit = A.blockSize - H.lenBytes - 1 := by have := L.limit; omega
  obtain ⟨hz, hz2⟩ := padZeros_arith L.size p.length r.length hp hr
  rw [← hlim, ← hnb] at hz hz2
  have hsz := L.size
  have hlb : 8 ≤ H.lenBytes := by rcases hsz with h | h <;> omega
  have hB : A.blockSize ≤ 128 := by rcases hsz with h | h <;> omega
  have hnbB : nb * A.blockSize ≤ 2 * A.blockSize := by
    apply Nat.mul_le_mul_right; rw [hnb]; split <;> omega
  have hrlt : r.length < nb * A.blockSize := by omega
  have hfield : ((BitVec.ofNat 64 p.length + BitVec.ofNat 64 r.length) * 8 : BitVec 64).toNat = 8 * (p ++ r).length % 2 ^ 64 := by
    rw [List.length_append, ← BitVec.ofNat_add]
    simp [BitVec.toNat_mul, Nat.mul_comm]
  generalize hN : nb * A.blockSize = N at *
  have e1 : memSet block r.length 0 (szSub N r.length) = .ok (r ++ (List.replicate (N - r.length) 0 ++ block.drop N)) := by
    rw [szSub_eq (by omega) (by omega), memSet_ok _ (by omega), ht, Nat.add_sub_cancel' (by omega)]
  refine ⟨_, _, _, e1, wr_ok _ (by simp; omega), L.lenStore _ _ _ (by simp; omega), ?_, ?_⟩
  · rw [splice_length _ _ _ (by simp [L.encLen]; omega)]; simp; omega
  · have e2 : (r ++ (List.replicate (N - r.length) (0 : Byte) ++ block.drop N)).set r.length 0x80 =
        (r ++ [0x80] ++ List.replicate (N - r.length - 9) 0) ++ (List.replicate 8 0 ++ block.drop N) := by
      rw [List.set_append_right _ _ (by omega), Nat.sub_self]
      obtain ⟨k, hk⟩ : ∃ k, N - r.length = k + 1 := ⟨N - r.length - 1, by omega⟩
      rw [hk, List.replicate_succ, List.cons_append, List.set_cons_zero, show k + 1 - 9 = k - 8 by omega]
      conv_lhs => rw [show k = (k - 8) + 8 by omega, ← List.replicate_append_replicate]
      simp
    rw [e2, hfield]
    rw [splice_append _ _ _ _ (by simp; omega) (by simp [L.encLen]), ← List.append_assoc _ (enc _), List.take_left' (by simp [L.encLen]; omega)]
    unfold Spec.pad
    rw [L.field, L.bs, List.length_append, ← hz, ← List.replicate_append_replicate]
    simp only [List.append_assoc]
    rfl

/-- A successful finalize stores the digest, wipes the context and touches no other byte of the output buffer. -/
theorem ctxFinalize_ok (L : Lawful A H enc) {h0 m} (hh0 : h0.length = A.nHash) (u : Bool) (scr : Scr w) (hscr : ScrOk A scr) (c : Ctx w) (h : List Byte) (n : Nat)
    (hs : n ≤ ssizeMax) (hn : A.hashSize ≤ n) (hb : n ≤ h.length) (hr : Rep A H h0 m c) :
    ctxFinalize A u scr (some c) (some h) n =
      .ok (1, some (zeroCtx A), some (H.digestFrom h0 m ++ h.drop A.hashSize)) := by
  have hB : 0 < A.blockSize := by rcases L.size with h | h <;> omega
  obtain ⟨p, r, rfl, h1, h2, h3, h4, h5, h6, h7⟩ := hr
  unfold ctxFinalize
  dsimp only
  rw [if_neg (by omega), if_neg (by omega), h5, h4]
  generalize hnb : (if A.padLimit < r.length then 1 + 1 else 1) = nb
  obtain ⟨b1, b2, b3, e1, e2, e3, hl, hp⟩ := finalBlock L h1 h2 c.block h6 h7 nb hnb.symm
  rw [e1, Res.ok_bind, e2, Res.ok_bind, e3, Res.ok_bind]
  have hnbB : nb * A.blockSize ≤ 2 * A.blockSize := by
    apply Nat.mul_le_mul_right; rw [← hnb]; split <;> omega
  obtain ⟨scr', e, -⟩ := transform_ok L u scr ⟨BitVec.ofNat 64 p.length, c.hashValues, r.length, b3⟩ b3 (nb * A.blockSize)
    (by unfold ssizeMax; rcases L.size with h | h <;> omega) (by omega) (by simp only [h3]; exact chain_len L _ _ hh0) hscr
  rw [e, Res.ok_bind]
  simp only
  rw [if_neg (by omega), L.store _ _ _ (by simp only [h3]; exact chain_len L _ _ (chain_len L _ _ hh0)) (by omega), Res.ok_bind]
  simp only [h3]
  rw [← chain_append, ← Spec.blocks_append hB _ _ h1, hp, ← L.bs]
  rfl

/-- A fresh context represents the empty message. -/
theorem ctxInitialize_ok (L : Lawful A H enc) (blk : Ctx w) :
    ∃ c, ctxInitialize A (some blk) (some none) = .ok (1, some (some c)) ∧ Rep A H H.iv [] c := by
  have hB : 0 < A.blockSize := by rcases L.size with h | h <;> omega
  have hi := L.ivLen
  unfold ctxInitialize
  dsimp only
  rw [memCopy_ok (by simp [zeroCtx]) (by omega), Res.ok_bind]
  refine ⟨_, rfl, [], [], rfl, by simp, by simpa using hB, ?_, rfl, rfl, by simp [zeroCtx], rfl⟩
  simp [Spec.blocks_of_lt (show ([] : List Byte).length < A.blockSize by simpa using hB), zeroCtx, IterHash.chain, ← L.iv]
  rw [List.take_of_length_le (by omega)]

/-- The context after a finalize represents the empty message hashed from an all-zero chaining value. -/
theorem zeroCtx_rep (L : Lawful A H enc) : Rep A H (List.replicate A.nHash 0) [] (zeroCtx A) := by
  have hB : 0 < A.blockSize := by rcases L.size with h | h <;> omega
  refine ⟨[], [], rfl, by simp, by simpa using hB, ?_, rfl, rfl, by simp [zeroCtx], rfl⟩
  simp [Spec.blocks_of_lt (show ([] : List Byte).length < A.blockSize by simpa using hB), zeroCtx, IterHash.chain]

end Model
