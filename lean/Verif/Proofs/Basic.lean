import Verif.Model.ByteStream
import Verif.Spec.Common
import Mathlib.Tactic.Ring
import Mathlib.Tactic.SplitIfs
/-! Lemmas on the outcome type, arrays and loops. -/

theorem rd_eq_ok {α} {a : List α} {i : Nat} {x : α} (h : a[i]? = some x) : rd a i = .ok x := by
  simp [rd, h]

theorem rd_ok {α} {a : List α} {i : Nat} (h : i < a.length) : rd a i = .ok a[i] := by
  simp [rd, h]

theorem rd_ub {α} {a : List α} {i : Nat} (h : a.length ≤ i) : rd a i = .ub := by
  simp [rd, h]

theorem wr_ok {α} {a : List α} {i : Nat} (v : α) (h : i < a.length) : wr a i v = .ok (a.set i v) := by
  simp [wr, h]

@[simp] theorem rd_cons_zero {α} (x : α) (l : List α) : rd (x :: l) 0 = .ok x := rfl
@[simp] theorem rd_cons_succ {α} (x : α) (l : List α) (n : Nat) : rd (x :: l) (n + 1) = rd l n := by
  simp [rd]

theorem memCopy_ok {α} {dst : List α} {doff : Nat} {src : List α} {soff n : Nat}
    (h1 : doff + n ≤ dst.length) (h2 : soff + n ≤ src.length) :
    memCopy dst doff src soff n = .ok (dst.take doff ++ ((src.drop soff).take n ++ dst.drop (doff + n))) := by
  simp [memCopy, h1, h2]

theorem memSet_ok {α} {dst : List α} {off n : Nat} (v : α) (h1 : off + n ≤ dst.length) :
    memSet dst off v n = .ok (dst.take off ++ (List.replicate n v ++ dst.drop (off + n))) := by
  simp [memSet, h1]

theorem forCount_inv {σ} {f : Nat → σ → Res σ} (P : Nat → σ → Prop) :
    ∀ (n i : Nat) (s : σ), P i s → (∀ j s, i ≤ j → j < i + n → P j s → ∃ s', f j s = .ok s' ∧ P (j + 1) s') →
      ∃ s', forCount f i n s = .ok s' ∧ P (i + n) s'
  | 0, i, s, h, _ => ⟨s, rfl, h⟩
  | n + 1, i, s, h, hs => by
    obtain ⟨s1, e1, p1⟩ := hs i s (Nat.le_refl _) (by omega) h
    obtain ⟨s2, e2, p2⟩ := forCount_inv P n (i + 1) s1 p1 (fun j s h1 h2 => hs j s (by omega) (by omega))
    refine ⟨s2, ?_, by rw [show i + (n + 1) = i + 1 + n by omega]; exact p2⟩
    simp [forCount, e1, e2]

/-- Loop invariant rule. -/
theorem forLoop_inv {σ} {f : Nat → σ → Res σ} (P : Nat → σ → Prop) {lo hi : Nat} {s : σ} (hle : lo ≤ hi) (h0 : P lo s)
    (hs : ∀ j s, lo ≤ j → j < hi → P j s → ∃ s', f j s = .ok s' ∧ P (j + 1) s') :
    ∃ s', forLoop lo hi f s = .ok s' ∧ P hi s' := by
  obtain ⟨s', e, p⟩ := forCount_inv P (hi - lo) lo s h0 (fun j s h1 h2 => hs j s h1 (by omega))
  exact ⟨s', e, by rwa [show lo + (hi - lo) = hi by omega] at p⟩

theorem runTable_inv {ρ σ} {f : ρ → σ → Res σ} (row : Nat → ρ) (P : Nat → σ → Prop) (n : Nat) :
    ∀ (i : Nat) (s : σ), P i s → (∀ j s, i ≤ j → j < i + n → P j s → ∃ s', f (row j) s = .ok s' ∧ P (j + 1) s') →
      ∃ s', runTable f ((List.range' i n).map row) s = .ok s' ∧ P (i + n) s' := by
  induction n with
  | zero => exact fun i s h _ => ⟨s, rfl, h⟩
  | succ n ih =>
    intro i s h hs
    obtain ⟨s1, e1, p1⟩ := hs i s (Nat.le_refl _) (by omega) h
    obtain ⟨s2, e2, p2⟩ := ih (i + 1) s1 p1 (fun j s h1 h2 => hs j s (by omega) (by omega))
    refine ⟨s2, ?_, by rw [show i + (n + 1) = i + 1 + n by omega]; exact p2⟩
    simp [List.range'_succ, runTable, e1, e2]

/-- Invariant rule for macro tables: if the rows are `row lo, …, row (hi-1)`. -/
theorem runTable_rows {ρ σ} {f : ρ → σ → Res σ} {rows : List ρ} (row : Nat → ρ) (P : Nat → σ → Prop) {lo hi : Nat} {s : σ}
    (hle : lo ≤ hi) (hrows : rows = (List.range' lo (hi - lo)).map row) (h0 : P lo s)
    (hs : ∀ j s, lo ≤ j → j < hi → P j s → ∃ s', f (row j) s = .ok s' ∧ P (j + 1) s') :
    ∃ s', runTable f rows s = .ok s' ∧ P hi s' := by
  subst hrows
  obtain ⟨s', e, p⟩ := runTable_inv row P (hi - lo) lo s h0 (fun j s h1 h2 => hs j s h1 (by omega))
  exact ⟨s', e, by rwa [show lo + (hi - lo) = hi by omega] at p⟩

namespace Model

theorem szSub_eq {a b : Nat} (h : b ≤ a) (ha : a < 2 ^ 64) : szSub a b = a - b := by
  unfold szSub; omega

theorem ptrAt_ok {α} {b : List α} {o : Nat} (h : o ≤ b.length) : ptrAt b o = .ok (b.drop o) := by simp [ptrAt, h]

/-! ### rotations -/

theorem cRotl_ok {w} (x : BitVec w) {n : Nat} (h0 : 0 < n) (h1 : n < w) : cRotl x n = .ok (x.rotateLeft n) := by
  unfold cRotl
  rw [if_pos ⟨h1, by omega, by omega⟩, BitVec.rotateLeft_def, Nat.mod_eq_of_lt h1]

theorem cRotr_ok {w} (x : BitVec w) {n : Nat} (h0 : 0 < n) (h1 : n < w) : cRotr x n = .ok (x.rotateRight n) := by
  unfold cRotr
  rw [if_pos ⟨h1, by omega, by omega⟩, BitVec.rotateRight_def, Nat.mod_eq_of_lt h1]

/-! ### loads -/

theorem shl8_or_ofNat (w V b : Nat) (hb : b < 256) :
    (BitVec.ofNat w V <<< 8) ||| BitVec.ofNat w b = BitVec.ofNat w (256 * V + b) := by
  have : 256 * V + b = (V <<< 8) ||| b := by
    rw [← Nat.shiftLeft_add_eq_or_of_lt (by simpa using hb), Nat.shiftLeft_eq]; ring
  rw [this, BitVec.ofNat_or]
  congr 1
  apply BitVec.eq_of_toNat_eq
  simp [Nat.shiftLeft_eq, Nat.mod_mul_mod]

theorem setWidth_byte (w : Nat) (b : Byte) : b.setWidth w = BitVec.ofNat w b.toNat := by
  apply BitVec.eq_of_toNat_eq; simp

/-- The remaining statements of a load macro that reads the bytes at indexes `is` in order. -/
def orProg : List Nat → List LoadStep
  | [] => []
  | i :: is => .shl8 :: .or i :: orProg is

/-- A load macro reading the bytes at indexes `i :: is`, most significant first. -/
def canonProg : List Nat → List LoadStep
  | [] => []
  | i :: is => .set i :: orProg is

theorem runTable_orProg {w} (bs : List Byte) (off : Nat) :
    ∀ (is : List Nat) (V : Nat), (∀ i ∈ is, off + i < bs.length) →
      runTable (loadStep bs off) (orProg is) (BitVec.ofNat w V)
        = .ok (BitVec.ofNat w ((is.map fun i => bs.getD (off + i) 0).foldl (fun acc b => 256 * acc + b.toNat) V))
  | [], V, _ => rfl
  | i :: is, V, h => by
    have hi : off + i < bs.length := h i (by simp)
    simp only [orProg, runTable, loadStep, Res.pure_eq, Res.ok_bind, rd_ok hi, setWidth_byte,
      shl8_or_ofNat _ _ _ bs[off + i].isLt]
    rw [runTable_orProg bs off is _ (fun j hj => h j (by simp [hj]))]
    simp [List.getD, hi]

theorem runLoad_canon {w} (bs : List Byte) (off : Nat) (is : List Nat) (hne : is ≠ []) (v0 : BitVec w)
    (h : ∀ i ∈ is, off + i < bs.length) :
    runLoad (canonProg is) bs off v0 = .ok (BitVec.ofNat w (Spec.beNat (is.map fun i => bs.getD (off + i) 0))) := by
  cases is with
  | nil => exact absurd rfl hne
  | cons i is =>
    have hi : off + i < bs.length := h i (by simp)
    simp only [runLoad, canonProg, runTable, loadStep, Res.pure_eq, Res.ok_bind, rd_ok hi, setWidth_byte]
    rw [runTable_orProg bs off is _ (fun j hj => h j (by simp [hj]))]
    simp [Spec.beNat, List.getD, hi]

theorem runLoad_ub {w} (bs : List Byte) (off : Nat) : ∀ (prog : List LoadStep) (v0 : BitVec w),
    (∃ i, (LoadStep.set i ∈ prog ∨ LoadStep.or i ∈ prog) ∧ bs.length ≤ off + i) → runLoad prog bs off v0 = .ub
  | [], _, ⟨i, h, _⟩ => by simp at h
  | s :: prog, v0, ⟨i, h, hi⟩ => by
    have key : (∃ v, loadStep bs off s v0 = .ok v) ∨ loadStep bs off s v0 = .ub := by
      cases s with
      | set j => by_cases hj : off + j < bs.length
                 · left; simp [loadStep, rd_ok hj]
                 · right; simp [loadStep, rd_ub (Nat.le_of_not_lt hj)]
      | or j => by_cases hj : off + j < bs.length
                · left; simp [loadStep, rd_ok hj]
                · right; simp [loadStep, rd_ub (Nat.le_of_not_lt hj)]
      | shl8 => left; exact ⟨_, rfl⟩
    rcases key with ⟨v, hv⟩ | hv
    · have hin : LoadStep.set i ∈ prog ∨ LoadStep.or i ∈ prog := by
        rcases h with h | h
        · rcases List.mem_cons.1 h with h | h
          · subst h; simp [loadStep, rd_ub hi] at hv
          · exact Or.inl h
        · rcases List.mem_cons.1 h with h | h
          · subst h; simp [loadStep, rd_ub hi] at hv
          · exact Or.inr h
      simp only [runLoad, runTable, hv, Res.ok_bind]
      exact runLoad_ub bs off prog v ⟨i, hin, hi⟩
    · simp [runLoad, runTable, hv]

theorem map_range_getD (bs : List Byte) (off n : Nat) (h : off + n ≤ bs.length) :
    (List.range n).map (fun i => bs.getD (off + i) 0) = (bs.drop off).take n := by
  apply List.ext_getElem
  · simp; omega
  · intro i h1 h2
    simp at h1 h2
    simp [List.getD, show off + i < bs.length by omega]

theorem foldl_le (l : List Byte) : Spec.beNat l.reverse = Spec.leNat l := by
  unfold Spec.beNat
  induction l with
  | nil => rfl
  | cons b l ih => simp only [List.reverse_cons, List.foldl_append, ih, List.foldl_cons, List.foldl_nil, Spec.leNat]; omega

/-- Big-endian loads: `n` bytes. -/
theorem runLoad_be {w} {prog : List LoadStep} {n : Nat} (hp : prog = canonProg (List.range n)) (hn : 0 < n)
    (bs : List Byte) (off : Nat) (v0 : BitVec w) (h : off + n ≤ bs.length) :
    runLoad prog bs off v0 = .ok (BitVec.ofNat w (Spec.beNat ((bs.drop off).take n))) := by
  subst hp
  rw [runLoad_canon bs off _ (by simp; omega) v0 (by intro i hi; simp at hi; omega), map_range_getD bs off n h]

/-- Little-endian loads: `n` bytes. -/
theorem runLoad_le {w} {prog : List LoadStep} {n : Nat} (hp : prog = canonProg (List.range n).reverse) (hn : 0 < n)
    (bs : List Byte) (off : Nat) (v0 : BitVec w) (h : off + n ≤ bs.length) :
    runLoad prog bs off v0 = .ok (BitVec.ofNat w (Spec.leNat ((bs.drop off).take n))) := by
  subst hp
  rw [runLoad_canon bs off _ (by simp; omega) v0 (by intro i hi; simp at hi; omega), List.map_reverse,
    map_range_getD bs off n h, foldl_le]

/-! ### stores -/

theorem storeByte {w} (v : BitVec w) (s : Nat) : ((v >>> s) &&& 0xff#w).setWidth 8 = BitVec.ofNat 8 (v.toNat / 2 ^ s) := by
  apply BitVec.eq_of_getLsbD_eq
  intro i hi
  have h1 : (0xff#w).getLsbD i = decide (i < w) := by
    have h2 : Nat.testBit 255 i = true := by
      have : i = 0 ∨ i = 1 ∨ i = 2 ∨ i = 3 ∨ i = 4 ∨ i = 5 ∨ i = 6 ∨ i = 7 := by omega
      rcases this with rfl | rfl | rfl | rfl | rfl | rfl | rfl | rfl <;> decide
    rw [BitVec.getLsbD_ofNat, h2]; simp
  rw [← Nat.shiftRight_eq_div_pow]
  simp only [BitVec.getLsbD_setWidth, BitVec.getLsbD_and, BitVec.getLsbD_ushiftRight, h1, BitVec.getLsbD_ofNat, hi, decide_true,
    Bool.true_and, Nat.testBit_shiftRight]
  by_cases hw : i < w
  · simp [hw, BitVec.getLsbD]
  · simp [hw]
    rw [← BitVec.getLsbD, BitVec.getLsbD_of_ge _ _ (by omega)]

theorem leBytes_length : ∀ n v, (Spec.leBytes n v).length = n
  | 0, _ => rfl
  | n + 1, v => by simp [Spec.leBytes, leBytes_length n]

theorem beBytes_eq_reverse : ∀ n v, Spec.beBytes n v = (Spec.leBytes n v).reverse
  | 0, _ => rfl
  | n + 1, v => by simp [Spec.beBytes, Spec.leBytes, beBytes_eq_reverse n]

theorem beBytes_length (n v : Nat) : (Spec.beBytes n v).length = n := by simp [beBytes_eq_reverse, leBytes_length]

theorem leBytes_getElem? : ∀ (n v i : Nat), i < n → (Spec.leBytes n v)[i]? = some (BitVec.ofNat 8 (v / 2 ^ (8 * i)))
  | 0, _, _, h => by omega
  | n + 1, v, 0, _ => by simp [Spec.leBytes]
  | n + 1, v, i + 1, h => by
    rw [Spec.leBytes, List.getElem?_cons_succ, leBytes_getElem? n _ i (by omega), Nat.div_div_eq_div_mul]
    congr 3
    rw [show 8 * (i + 1) = 8 + 8 * i by ring, Nat.pow_add]

theorem beBytes_getElem? (n v i : Nat) (h : i < n) :
    (Spec.beBytes n v)[i]? = some (BitVec.ofNat 8 (v / 2 ^ (8 * (n - 1 - i)))) := by
  rw [beBytes_eq_reverse, List.getElem?_reverse (by rw [leBytes_length]; exact h), leBytes_length,
    leBytes_getElem? _ _ _ (by omega)]

/-- Array contents after replacing the `l.length` elements from `off`. -/
def splice {α} (bs : List α) (off : Nat) (l : List α) : List α := bs.take off ++ (l ++ bs.drop (off + l.length))

theorem splice_length {α} (bs : List α) (off : Nat) (l : List α) (h : off + l.length ≤ bs.length) :
    (splice bs off l).length = bs.length := by
  simp [splice]; omega

theorem splice_getElem? {α} (bs : List α) (off : Nat) (l : List α) (h : off + l.length ≤ bs.length) (k : Nat) :
    (splice bs off l)[k]? = if off ≤ k ∧ k < off + l.length then l[k - off]? else bs[k]? := by
  unfold splice
  by_cases h1 : k < off
  · rw [List.getElem?_append_left (by simp; omega), if_neg (by omega), List.getElem?_take, if_pos h1]
  · rw [List.getElem?_append_right (by simp; omega), List.length_take, Nat.min_eq_left (by omega)]
    by_cases h2 : k < off + l.length
    · rw [List.getElem?_append_left (by omega), if_pos ⟨by omega, h2⟩]
    · rw [List.getElem?_append_right (by omega), if_neg (by omega), List.getElem?_drop]
      congr 1; omega

theorem runStore_rows {w} (n : Nat) (e : Nat → Nat) (prog : List (Nat × Nat))
    (hp : prog = (List.range n).map (fun j => (e j, 8 * (n - 1 - j)))) (le : List Byte) (hl : le.length = n)
    (he : ∀ j, j < n → e j < n)
    (bs : List Byte) (off : Nat) (v : BitVec w) (hs : 8 * (n - 1) < max w 32) (h : off + n ≤ bs.length)
    (hle : ∀ j, j < n → le[e j]? = some (BitVec.ofNat 8 (v.toNat / 2 ^ (8 * (n - 1 - j)))))
    (hsur : ∀ i, i < n → ∃ j, j < n ∧ e j = i) :
    runStore prog bs off v = .ok (splice bs off le) := by
  obtain ⟨s', e1, hlen, hin, hout⟩ := runTable_rows (f := fun (r : Nat × Nat) (bs : List Byte) =>
      if r.2 < max w 32 then wr bs (off + r.1) (((v >>> r.2) &&& 0xff#w).setWidth 8) else .ub)
    (rows := prog) (fun j => (e j, 8 * (n - 1 - j)))
    (fun j bs' => bs'.length = bs.length ∧ (∀ k, (∃ i, i < j ∧ k = off + e i) → bs'[k]? = le[k - off]?) ∧
      (∀ k, (k < off ∨ off + n ≤ k) → bs'[k]? = bs[k]?))
    (lo := 0) (hi := n) (s := bs) (by omega) (by rw [hp, List.range_eq_range']; rfl)
    ⟨rfl, by rintro k ⟨i, hi, _⟩; omega, fun _ _ => rfl⟩
    (by
      rintro j bs' _ hj ⟨hl1, hl2, hl3⟩
      have hej := he j hj
      refine ⟨_, by dsimp only; rw [if_pos (by omega), wr_ok _ (by omega), storeByte], by simp [hl1], ?_, ?_⟩
      · rintro k ⟨i, hi, rfl⟩
        by_cases hk : e i = e j
        · rw [hk, List.getElem?_set_self (by omega), Nat.add_sub_cancel_left, hle j hj]
        · rw [List.getElem?_set_ne (by omega)]
          exact hl2 _ ⟨i, by
            rcases Nat.lt_succ_iff_lt_or_eq.1 hi with h | h
            · exact h
            · subst h; exact absurd rfl hk, rfl⟩
      · intro k hk
        rw [List.getElem?_set_ne (by omega), hl3 k hk])
  unfold runStore
  rw [e1]
  congr 1
  apply List.ext_getElem?
  intro k
  rw [splice_getElem? _ _ _ (by omega)]
  split
  · rename_i hk
    obtain ⟨j, hj, hej⟩ := hsur (k - off) (by omega)
    exact hin k ⟨j, hj, by omega⟩
  · rename_i hk
    exact hout k (by omega)

/-- Big-endian stores: `n` bytes. -/
theorem runStore_be {w} {prog : List (Nat × Nat)} {n : Nat} (hp : prog = (List.range n).map (fun j => (j, 8 * (n - 1 - j))))
    (bs : List Byte) (off : Nat) (v : BitVec w) (hs : 8 * (n - 1) < max w 32) (h : off + n ≤ bs.length) :
    runStore prog bs off v = .ok (splice bs off (Spec.beBytes n v.toNat)) :=
  runStore_rows n id prog hp _ (beBytes_length _ _) (fun _ h => h) bs off v hs h
    (fun j hj => beBytes_getElem? n _ j hj) (fun i hi => ⟨i, hi, rfl⟩)

/-- Little-endian stores: `n` bytes. -/
theorem runStore_le {w} {prog : List (Nat × Nat)} {n : Nat}
    (hp : prog = (List.range n).map (fun j => (n - 1 - j, 8 * (n - 1 - j))))
    (bs : List Byte) (off : Nat) (v : BitVec w) (hs : 8 * (n - 1) < max w 32) (h : off + n ≤ bs.length) :
    runStore prog bs off v = .ok (splice bs off (Spec.leBytes n v.toNat)) :=
  runStore_rows n (fun j => n - 1 - j) prog hp _ (leBytes_length _ _) (fun _ _ => by omega) bs off v hs h
    (fun j hj => leBytes_getElem? n _ _ (by omega)) (fun i hi => ⟨n - 1 - i, by omega, by omega⟩)

end Model
