import Verif.Proofs.Context
import Verif.Proofs.Sha1
import Verif.Proofs.Sha2
import Verif.Proofs.Md5
/-! The five algorithms satisfy `Lawful`. -/

namespace Model

open Spec (IterHash)

theorem flatMap_length_const {α β} (f : α → List β) (s : Nat) (l : List α) (h : ∀ x ∈ l, (f x).length = s) :
    (l.flatMap f).length = l.length * s := by
  induction l with
  | nil => simp
  | cons x l ih =>
    simp only [List.flatMap_cons, List.length_append, List.length_cons, Nat.succ_mul]
    rw [ih fun y hy => h y (by simp [hy]), h x (by simp)]; omega

theorem storeHash_ok {w} (A : Alg w) (encw : BitVec w → List Byte) (s n : Nat)
    (hs : A.wordSize = s) (hn : A.outWords = n) (hle : n ≤ A.nHash) (hrows : A.storeRows = (List.range' 0 (n - 0)).map (fun i => (i * s, i)))
    (hlen : ∀ v, (encw v).length = s)
    (hst : ∀ (bs : List Byte) off v, off + s ≤ bs.length → runStore A.wordProg bs off v = .ok (splice bs off (encw v)))
    (u : Bool) (hv : List (BitVec w)) (h : List Byte) (hhv : hv.length = A.nHash) (hh : n * s ≤ h.length) :
    storeHash A u hv h = .ok ((hv.take n).flatMap encw ++ h.drop (n * s)) := by
  have hfl : ∀ i, i ≤ n → ((hv.take i).flatMap encw).length = i * s := fun i hi => by
    rw [flatMap_length_const _ s _ (fun v _ => hlen v), List.length_take, Nat.min_eq_left (by omega)]
  have step : ∀ i, i < n → ∃ v, rd hv i = .ok v ∧
      runStore A.wordProg ((hv.take i).flatMap encw ++ h.drop (i * s)) (i * s) v = .ok ((hv.take (i + 1)).flatMap encw ++ h.drop ((i + 1) * s)) := by
    intro i hi
    have hi' : i < hv.length := by omega
    have hmul : (i + 1) * s ≤ n * s := Nat.mul_le_mul_right s (by omega)
    have hsm : (i + 1) * s = i * s + s := Nat.succ_mul i s
    refine ⟨hv[i], rd_ok hi', ?_⟩
    rw [hst _ _ _ (by rw [List.length_append, hfl i (by omega), List.length_drop]; omega)]
    congr 1
    unfold splice
    rw [List.take_left' (hfl i (by omega)), List.take_add_one, List.getElem?_eq_getElem hi', List.flatMap_append, hlen]
    rw [List.drop_append, hfl i (by omega), List.drop_eq_nil_of_le (by rw [hfl i (by omega)]; omega), List.drop_drop]
    simp only [List.nil_append, Option.toList_some, List.flatMap_cons, List.flatMap_nil, List.append_nil, List.append_assoc]
    congr 3; omega
  unfold storeHash
  cases u with
  | true =>
    simp only [if_true]
    obtain ⟨h', e, hp⟩ := runTable_rows (f := fun r h => rd hv r.2 >>= fun v => runStore A.wordProg h r.1 v) (rows := A.storeRows)
      (fun i => (i * s, i)) (fun i h' => h' = (hv.take i).flatMap encw ++ h.drop (i * s)) (lo := 0) (hi := n) (s := h)
      (by omega) hrows (by simp) (fun j x _ hj hx => by
        obtain ⟨v, e1, e2⟩ := step j hj
        exact ⟨_, by rw [hx]; simp only [e1, Res.ok_bind]; rw [e2], rfl⟩)
    rw [e, hp]
  | false =>
    simp only [Bool.false_eq_true, if_false]
    obtain ⟨⟨h', k⟩, e, hp⟩ := forLoop_inv (f := fun i (s : List Byte × Nat) => do
      let v ← rd hv i
      let h ← runStore A.wordProg s.1 s.2 v
      pure (h, s.2 + A.wordSize)) (fun i x => x = ((hv.take i).flatMap encw ++ h.drop (i * s), i * s)) (lo := 0) (hi := A.outWords) (s := (h, 0))
      (by omega) (by simp) (fun j x _ hj hx => by
        obtain ⟨v, e1, e2⟩ := step j (by omega)
        exact ⟨_, by rw [hx]; simp only [e1, Res.ok_bind]; rw [e2, Res.ok_bind, hs]; rfl, by rw [Nat.succ_mul]⟩)
    rw [e, Res.ok_bind]
    simp only [Prod.mk.injEq] at hp
    rw [hp.1, hn]; rfl

theorem beBytes_mod (n v : Nat) : Spec.beBytes n (v % 2 ^ (8 * n)) = Spec.beBytes n v := by
  apply List.ext_getElem?
  intro i
  by_cases hi : i < n
  · rw [beBytes_getElem? _ _ _ hi, beBytes_getElem? _ _ _ hi]
    congr 1
    apply BitVec.eq_of_toNat_eq
    simp only [BitVec.toNat_ofNat]
    have e1 : 8 * n = 8 * (n - 1 - i) + 8 * (i + 1) := by omega
    rw [e1, Nat.pow_add, Nat.mod_mul_right_div_self, Nat.mod_mod_of_dvd]
    exact Nat.pow_dvd_pow 2 (by omega)
  · rw [List.getElem?_eq_none (by rw [beBytes_length]; omega), List.getElem?_eq_none (by rw [beBytes_length]; omega)]

theorem leBytes_mod (n v : Nat) : Spec.leBytes n (v % 2 ^ (8 * n)) = Spec.leBytes n v := by
  have := beBytes_mod n v
  rwa [beBytes_eq_reverse, beBytes_eq_reverse, List.reverse_inj] at this

theorem beBytes_split (a b v : Nat) : Spec.beBytes (a + b) v = Spec.beBytes a (v / 2 ^ (8 * b)) ++ Spec.beBytes b v := by
  apply List.ext_getElem?
  intro i
  by_cases hi : i < a + b
  · rw [beBytes_getElem? _ _ _ hi]
    by_cases hia : i < a
    · rw [List.getElem?_append_left (by rw [beBytes_length]; exact hia), beBytes_getElem? _ _ _ hia, Nat.div_div_eq_div_mul, ← Nat.pow_add]
      congr 4; omega
    · rw [List.getElem?_append_right (by rw [beBytes_length]; omega), beBytes_length, beBytes_getElem? _ _ _ (by omega)]
      congr 4; omega
  · rw [List.getElem?_eq_none (by rw [beBytes_length]; omega), List.getElem?_eq_none (by simp [beBytes_length]; omega)]

theorem beBytes_zero (n : Nat) : Spec.beBytes n 0 = List.replicate n 0 := by
  induction n with
  | zero => rfl
  | succ n ih => rw [Spec.beBytes, Nat.zero_div, ih, List.replicate_succ']; rfl

theorem outBe {w} (n s : Nat) (hv : List (BitVec w)) (h : n ≤ hv.length) :
    ((hv.take n).flatMap fun x => Spec.beBytes s x.toNat).length = n * s := by
  rw [flatMap_length_const _ s _ (fun v _ => beBytes_length _ _), List.length_take, Nat.min_eq_left h]

theorem outLe {w} (n s : Nat) (hv : List (BitVec w)) (h : n ≤ hv.length) :
    ((hv.take n).flatMap fun x => Spec.leBytes s x.toNat).length = n * s := by
  rw [flatMap_length_const _ s _ (fun v _ => leBytes_length _ _), List.length_take, Nat.min_eq_left h]

theorem toList8_len {w} (F : Spec.Sha2Fns w) (hv : List (BitVec w)) (b : List Byte) (h : hv.length = 8) : (Spec.sha2Compress F hv b).length = 8 := by
  obtain ⟨v, rfl⟩ := eq_toList8 hv h
  rw [sha2Compress_eq]; rfl

theorem md5Lawful : Lawful md5 Spec.md5 (Spec.leBytes 8) where
  size := Or.inl ⟨rfl, rfl⟩
  bs := rfl
  hmacBs := rfl
  hashLe := by decide
  limit := rfl
  iv := rfl
  ivLen := rfl
  block u hv buf off scr h1 h2 h3 h4 := md5Block_ok u hv buf off scr h1 h2 h3 h4
  comp hv b h := by
    obtain ⟨v, rfl⟩ := eq_toList4 hv h
    exact (congrArg List.length (md5Compress_eq b v)).trans rfl
  wipeH := by decide
  wipeV := by decide
  outLen hv h := by
    have := outLe 4 4 hv (Nat.le_of_eq h.symm)
    rwa [List.take_of_length_le (show hv.length ≤ 4 from Nat.le_of_eq h)] at this
  store u hv h h1 h2 := by
    rw [storeHash_ok md5 (fun v => Spec.leBytes 4 v.toNat) 4 4 rfl rfl (by decide) (by decide) (fun v => leBytes_length _ _)
      (fun bs off v hb => runStore_le (by decide) bs off v (by decide) hb) u hv h h1 h2, List.take_of_length_le (show hv.length ≤ 4 from Nat.le_of_eq h1)]
    rfl
  encLen n := leBytes_length _ _
  lenStore bs off v h := runStore_le (by decide) bs off v (by decide) h
  field n := by
    show Spec.leBytes 8 n = _
    rw [← leBytes_mod 8 n]; rfl

theorem sha1Lawful : Lawful sha1 Spec.sha1 (Spec.beBytes 8) where
  size := Or.inl ⟨rfl, rfl⟩
  bs := rfl
  hmacBs := rfl
  hashLe := by decide
  limit := rfl
  iv := rfl
  ivLen := rfl
  block u hv buf off scr h1 h2 h3 h4 := by
    obtain ⟨scr', e, l1, l2, -⟩ := sha1Block_ok u hv buf off scr h1 h2 h3 h4
    exact ⟨scr', e, l1, l2⟩
  comp hv b h := by
    obtain ⟨v, rfl⟩ := eq_toList5 hv h
    exact (congrArg List.length (sha1Compress_eq b v)).trans rfl
  wipeH := by decide
  wipeV := by decide
  outLen hv h := by
    have := outBe 5 4 hv (Nat.le_of_eq h.symm)
    rwa [List.take_of_length_le (show hv.length ≤ 5 from Nat.le_of_eq h)] at this
  store u hv h h1 h2 := by
    rw [storeHash_ok sha1 (fun v => Spec.beBytes 4 v.toNat) 4 5 rfl rfl (by decide) (by decide) (fun v => beBytes_length _ _)
      (fun bs off v hb => runStore_be (by decide) bs off v (by decide) hb) u hv h h1 h2, List.take_of_length_le (show hv.length ≤ 5 from Nat.le_of_eq h1)]
    rfl
  encLen n := beBytes_length _ _
  lenStore bs off v h := runStore_be (by decide) bs off v (by decide) h
  field n := by
    show Spec.beBytes 8 n = _
    rw [← beBytes_mod 8 n]; rfl

theorem sha256Lawful : Lawful sha256 Spec.sha256 (Spec.beBytes 8) where
  size := Or.inl ⟨rfl, rfl⟩
  bs := rfl
  hmacBs := rfl
  hashLe := by decide
  limit := rfl
  iv := rfl
  ivLen := rfl
  block u hv buf off scr h1 h2 h3 h4 := sha2Block_ok sha256Law u hv buf off scr h1 h2 h3 h4
  comp hv b h := toList8_len _ _ _ h
  wipeH := by decide
  wipeV := by decide
  outLen hv h := by
    have := outBe 8 4 hv (Nat.le_of_eq h.symm)
    rwa [List.take_of_length_le (show hv.length ≤ 8 from Nat.le_of_eq h)] at this
  store u hv h h1 h2 := by
    rw [storeHash_ok sha256 (fun v => Spec.beBytes 4 v.toNat) 4 8 rfl rfl (by decide) (by decide) (fun v => beBytes_length _ _)
      (fun bs off v hb => runStore_be (by decide) bs off v (by decide) hb) u hv h h1 h2, List.take_of_length_le (show hv.length ≤ 8 from Nat.le_of_eq h1)]
    rfl
  encLen n := beBytes_length _ _
  lenStore bs off v h := runStore_be (by decide) bs off v (by decide) h
  field n := by
    show Spec.beBytes 8 n = _
    rw [← beBytes_mod 8 n]; rfl

theorem sha224Lawful : Lawful sha224 Spec.sha224 (Spec.beBytes 8) where
  size := Or.inl ⟨rfl, rfl⟩
  bs := rfl
  hmacBs := rfl
  hashLe := by decide
  limit := rfl
  iv := rfl
  ivLen := rfl
  block u hv buf off scr h1 h2 h3 h4 := sha2Block_ok sha224Law u hv buf off scr h1 h2 h3 h4
  comp hv b h := toList8_len _ _ _ h
  wipeH := by decide
  wipeV := by decide
  outLen hv h := outBe 7 4 hv (by rw [h]; decide)
  store u hv h h1 h2 := by
    rw [storeHash_ok sha224 (fun v => Spec.beBytes 4 v.toNat) 4 7 rfl rfl (by decide) (by decide) (fun v => beBytes_length _ _)
      (fun bs off v hb => runStore_be (by decide) bs off v (by decide) hb) u hv h h1 h2]
    rfl
  encLen n := beBytes_length _ _
  lenStore bs off v h := runStore_be (by decide) bs off v (by decide) h
  field n := by
    show Spec.beBytes 8 n = _
    rw [← beBytes_mod 8 n]; rfl

theorem sha512Lawful : Lawful sha512 Spec.sha512Len64 (Spec.beBytes 8) where
  size := Or.inr ⟨rfl, rfl⟩
  bs := rfl
  hmacBs := rfl
  hashLe := by decide
  limit := rfl
  iv := rfl
  ivLen := rfl
  block u hv buf off scr h1 h2 h3 h4 := sha2Block_ok sha512Law u hv buf off scr h1 h2 h3 h4
  comp hv b h := toList8_len _ _ _ h
  wipeH := by decide
  wipeV := by decide
  outLen hv h := by
    have := outBe 8 8 hv (Nat.le_of_eq h.symm)
    rwa [List.take_of_length_le (show hv.length ≤ 8 from Nat.le_of_eq h)] at this
  store u hv h h1 h2 := by
    rw [storeHash_ok sha512 (fun v => Spec.beBytes 8 v.toNat) 8 8 rfl rfl (by decide) (by decide) (fun v => beBytes_length _ _)
      (fun bs off v hb => runStore_be (by decide) bs off v (by decide) hb) u hv h h1 h2, List.take_of_length_le (show hv.length ≤ 8 from Nat.le_of_eq h1)]
    rfl
  encLen n := beBytes_length _ _
  lenStore bs off v h := runStore_be (by decide) bs off v (by decide) h
  field n := by
    show Spec.beBytes (8 + 8) (n % 2 ^ 64) = _
    rw [beBytes_split, Nat.div_eq_of_lt (Nat.mod_lt _ (by decide)), beBytes_zero]; rfl

end Model
