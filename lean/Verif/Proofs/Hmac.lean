import Verif.Proofs.Calculate
/-! `libhmac_*_calculate_hmac`, stage by stage. -/

set_option linter.unusedSimpArgs false
set_option linter.unusedTactic false
set_option linter.unreachableTactic false
set_option linter.unnecessarySeqFocus false

namespace Model

open Spec (IterHash slice overwrite AreaOk)

variable {w : Nat} {A : Alg w} {H : IterHash w} {enc : Nat → List Byte}

/-- The padded key of RFC 2104. -/
def paddedKey (B : Nat) (h : List Byte → List Byte) (key : List Byte) : List Byte :=
  (if key.length ≤ B then key else h key) ++ List.replicate (B - (if key.length ≤ B then key else h key).length) 0

theorem paddedKey_length (L : Lawful A H enc) (key : List Byte) : (paddedKey A.hmacBlockSize H.digest key).length = A.hmacBlockSize := by
  have := L.hashLe
  have := L.hmacBs
  have := digestLen L key
  unfold paddedKey
  split <;> simp <;> omega

theorem allocBytes_ok (env : Env w) (n : Nat) (s : St w) (h : env.allocOk s.count = true) :
    ∃ d, d.length = n ∧ allocBytes env n s = (some s.count, { s with count := s.count + 1, live := (s.count, .bytes d) :: s.live }) :=
  ⟨(List.range n).map (env.junkByte s.count), by simp, by simp [allocBytes, h]⟩

theorem allocBytes_fail (env : Env w) (n : Nat) (s : St w) (h : env.allocOk s.count = false) :
    allocBytes env n s = (none, { s with count := s.count + 1 }) := by simp [allocBytes, h]

theorem hmacKey_fail (A : Alg w) (u : Bool) (env : Env w) (key : Option Nat) (keySize : Nat) (l : Loc) (s : St w) (h : env.allocOk s.count = false) :
    hmacKey A u env key keySize l s = .ok (false, { l with keyData := none }, { s with count := s.count + 1 }) := by
  simp [hmacKey, allocBytes_fail env _ s h]

theorem hmacKey_short (L : Lawful A H enc) (u : Bool) (env : Env w) (k keySize : Nat) (l : Loc) (s : St w) (h : env.allocOk s.count = true)
    (hk : keySize ≤ A.hmacBlockSize) (hb : k + keySize ≤ s.caller.length) :
    hmacKey A u env (some k) keySize l s = .ok (true, { l with keyData := some s.count },
      { s with count := s.count + 1, live := (s.count, .bytes (paddedKey A.hmacBlockSize H.digest (slice s.caller k keySize))) :: s.live }) := by
  obtain ⟨d, hd, e⟩ := allocBytes_ok env A.hmacBlockSize s h
  have hB : A.hmacBlockSize ≤ 128 := by rw [L.hmacBs]; rcases L.size with h | h <;> omega
  have hl := slice_length hb
  unfold hmacKey
  rw [e]
  simp only [hk, if_true, region_some, loadBytes, getKey, Res.ok_bind]
  rw [memCopy_ok (by omega) (by omega), Res.ok_bind, szSub_eq hk (by omega), memSet_ok _ (by simp; omega), Res.ok_bind]
  simp only [storeBytes, setKey, if_true, Res.ok_bind, Res.pure_eq, paddedKey, hl, hk]
  congr 5
  have e1 : List.take 0 d ++ (List.take keySize (List.drop 0 (slice s.caller k keySize)) ++ List.drop (0 + keySize) d) =
      slice s.caller k keySize ++ d.drop keySize := by
    simp [List.take_of_length_le (Nat.le_of_eq hl)]
  rw [e1, List.take_left' hl, Nat.add_sub_cancel' hk, List.drop_eq_nil_of_le (by simp; omega), List.append_nil]

theorem hmacKey_long_fail (u : Bool) (env : Env w) (k keySize : Nat) (l : Loc) (s : St w) (h : env.allocOk s.count = true)
    (h2 : env.allocOk (s.count + 1) = false) (hc : l.context = none) (hk : A.hmacBlockSize < keySize) :
    ∃ d, d.length = A.hmacBlockSize ∧ hmacKey A u env (some k) keySize l s = .ok (false, { l with keyData := some s.count },
      { s with count := s.count + 2, live := (s.count, .bytes d) :: s.live }) := by
  obtain ⟨d, hd, e⟩ := allocBytes_ok env A.hmacBlockSize s h
  refine ⟨d, hd, ?_⟩
  obtain ⟨cx, kd, i, o, kh⟩ := l
  simp only at hc
  subst hc
  unfold hmacKey
  rw [e]
  simp only [Nat.not_le.mpr hk, if_false]
  rw [hInitialize_fail A env _ h2]
  rfl

theorem hmacKey_long (L : Lawful A H enc) (u : Bool) (env : Env w) (hscr : ScrOk A env.scr) (k keySize : Nat) (l : Loc) (s : St w) (h : env.allocOk s.count = true)
    (h2 : env.allocOk (s.count + 1) = true) (hc : l.context = none) (hkh : l.keyHash.length = A.hashSize) (hk : A.hmacBlockSize < keySize)
    (hks : keySize ≤ ssizeMax) (hb : k + keySize ≤ s.caller.length) :
    hmacKey A u env (some k) keySize l s = .ok (true, { l with keyData := some s.count, keyHash := H.digest (slice s.caller k keySize) },
      { s with
        count := s.count + 2, live := (s.count, .bytes (paddedKey A.hmacBlockSize H.digest (slice s.caller k keySize))) :: s.live
        freed := (s.count + 1, .ctx (zeroCtx A)) :: s.freed }) := by
  obtain ⟨d, hd, e⟩ := allocBytes_ok env A.hmacBlockSize s h
  have hB : A.hmacBlockSize ≤ 128 := by rw [L.hmacBs]; rcases L.size with h | h <;> omega
  have hh := L.hashLe
  rw [← L.hmacBs] at hh
  have hl := slice_length hb
  obtain ⟨cx, kd, i, o, kh⟩ := l
  simp only at hc hkh
  subst hc
  unfold hmacKey
  rw [e]
  simp only [Nat.not_le.mpr hk, if_false]
  obtain ⟨c, e1, hr⟩ := hInitialize_ok L env { s with count := s.count + 1, live := (s.count, .bytes d) :: s.live } h2
  rw [e1, Res.ok_bind]
  simp only [ne_eq, not_true_eq_false, if_false, region_some]
  obtain ⟨c', e2, hr'⟩ := hUpdate_ok L u env hscr { s with count := s.count + 1 + 1, live := (s.count + 1, .ctx c) :: (s.count, .bytes d) :: s.live } (s.count + 1) c _ [] (slice s.caller k keySize) keySize rfl hr hks hl
  rw [e2, Res.ok_bind]
  simp only [not_true_eq_false, if_false]
  rw [hFinalize_ok L u env hscr _ (s.count + 1) c' ((s.count, .bytes d) :: s.live) _ _ _ rfl hr' (by unfold ssizeMax; omega) (Nat.le_refl _) (by omega), Res.ok_bind]
  simp only [List.nil_append, not_true_eq_false, if_false]
  rw [hFree_ok _ _ (.ctx (zeroCtx A)) ((s.count, .bytes d) :: s.live) rfl, Res.ok_bind]
  simp only [not_true_eq_false, if_false, loadBytes, getKey, if_true, Res.ok_bind]
  have hdl := digestLen L (slice s.caller k keySize)
  have hkd : H.digest (slice s.caller k keySize) ++ kh.drop A.hashSize = H.digest (slice s.caller k keySize) := by
    rw [List.drop_eq_nil_of_le (by omega), List.append_nil]
  rw [hkd]
  have fin : ∀ x : List Byte, x.length = A.hmacBlockSize → x.drop A.hashSize = List.replicate (A.hmacBlockSize - A.hashSize) 0 →
      memCopy x 0 (H.digest (slice s.caller k keySize)) 0 A.hashSize = .ok (paddedKey A.hmacBlockSize H.digest (slice s.caller k keySize)) := by
    intro x hx hx2
    rw [memCopy_ok (by omega) (by omega)]
    simp only [paddedKey, hl, Nat.not_le.mpr hk, if_false, hdl, List.take_zero, List.nil_append, List.drop_zero,
      List.take_of_length_le (Nat.le_of_eq hdl), Nat.zero_add, hx2]
  by_cases hlt : A.hashSize < A.hmacBlockSize
  · rw [if_pos hlt, szSub_eq hh (by omega), memSet_ok _ (by omega), Res.ok_bind, fin _ (by simp; omega) (by
      rw [List.drop_left' (by simp; omega), Nat.add_sub_cancel' hh, List.drop_eq_nil_of_le (by omega), List.append_nil])]
    simp only [Res.ok_bind, storeBytes, setKey, if_true, Res.pure_eq]
  · rw [if_neg hlt]
    simp only [Res.ok_bind, Res.pure_eq]
    rw [fin d hd (by rw [List.drop_eq_nil_of_le (by omega), show A.hmacBlockSize - A.hashSize = 0 by omega, List.replicate_zero])]
    simp only [Res.ok_bind, storeBytes, setKey, if_true]

theorem xorPads_ok (kd : List Byte) (n : Nat) (h : kd.length = n) :
    xorPads n kd (List.replicate n 0x36) (List.replicate n 0x5c) = .ok (kd.map (· ^^^ 0x36#8), kd.map (· ^^^ 0x5c#8)) := by
  unfold xorPads
  obtain ⟨p, e, h1, h2⟩ := forLoop_inv (lo := 0) (hi := n) (s := (List.replicate n (0x36 : Byte), List.replicate n (0x5c : Byte)))
    (f := fun i (p : List Byte × List Byte) => do
      let k ← rd kd i
      let x ← rd p.1 i
      let inner ← wr p.1 i (x ^^^ k)
      let y ← rd p.2 i
      let outer ← wr p.2 i (y ^^^ k)
      pure (inner, outer))
    (fun i p => p.1 = (kd.take i).map (· ^^^ 0x36#8) ++ List.replicate (n - i) 0x36 ∧ p.2 = (kd.take i).map (· ^^^ 0x5c#8) ++ List.replicate (n - i) 0x5c)
    (by omega) (by simp) (by
      rintro i ⟨a, b⟩ - hi ⟨ha, hb⟩
      simp only at ha hb
      subst ha hb
      have hlen : ∀ c : Byte, ((kd.take i).map (· ^^^ c)).length = i := by intro c; simp; omega
      have hrep : ∀ c : Byte, List.replicate (n - i) c = c :: List.replicate (n - (i + 1)) c := by
        intro c; rw [show n - i = (n - (i + 1)) + 1 by omega, List.replicate_succ]
      have hget : ∀ c d : Byte, rd ((kd.take i).map (· ^^^ c) ++ List.replicate (n - i) d) i = .ok d := by
        intro c d
        apply rd_eq_ok
        rw [List.getElem?_append_right (by rw [hlen]), hlen, Nat.sub_self, hrep]; rfl
      have hset : ∀ c d v : Byte, wr ((kd.take i).map (· ^^^ c) ++ List.replicate (n - i) d) i v =
          .ok ((kd.take i).map (· ^^^ c) ++ v :: List.replicate (n - (i + 1)) d) := by
        intro c d v
        rw [wr_ok _ (by rw [List.length_append, hlen]; simp; omega), List.set_append_right _ _ (by rw [hlen]), hlen, Nat.sub_self, hrep]; rfl
      rw [rd_ok (by omega : i < kd.length), Res.ok_bind]
      simp only [hget, hset, Res.ok_bind, Res.pure_eq]
      refine ⟨_, rfl, ?_, ?_⟩ <;> simp only [List.take_add_one, List.getElem?_eq_getElem (by omega : i < kd.length), Option.toList, List.map_append,
          List.map_cons, List.map_nil, List.append_assoc, List.cons_append, List.nil_append] <;> rw [BitVec.xor_comm] <;> rfl)
  rw [e]
  obtain ⟨a, b⟩ := p
  simp only at h1 h2
  subst h1 h2
  simp [List.take_of_length_le (Nat.le_of_eq h)]

theorem hmacPads_fail1 (env : Env w) (l : Loc) (s : St w) (h : env.allocOk s.count = false) :
    hmacPads A env l s = .ok (false, { l with inner := none }, { s with count := s.count + 1 }) := by
  simp [hmacPads, allocBytes_fail env _ s h]

theorem hmacPads_fail2 (env : Env w) (l : Loc) (s : St w) (h : env.allocOk s.count = true) (h2 : env.allocOk (s.count + 1) = false) :
    ∃ d, d.length = A.hmacBlockSize ∧ hmacPads A env l s = .ok (false, { l with inner := some s.count, outer := none },
      { s with count := s.count + 2, live := (s.count, .bytes d) :: s.live }) := by
  obtain ⟨d, hd, e⟩ := allocBytes_ok env A.hmacBlockSize s h
  refine ⟨List.replicate A.hmacBlockSize 0x36, by simp, ?_⟩
  unfold hmacPads
  rw [e]
  simp only [loadBytes, getKey, if_true, Res.ok_bind]
  rw [memSet_ok _ (by omega), Res.ok_bind]
  simp only [storeBytes, setKey, if_true, Res.ok_bind]
  rw [allocBytes_fail env _ _ h2]
  simp [List.drop_eq_nil_of_le (show d.length ≤ A.hmacBlockSize by omega)]

theorem hmacPads_ok (env : Env w) (l : Loc) (s : St w) (a : Nat) (kd : List Byte) (rest : List (Nat × Obj w)) (h : env.allocOk s.count = true)
    (h2 : env.allocOk (s.count + 1) = true) (ha : a < s.count) (hl : s.live = (a, .bytes kd) :: rest) (hkd : kd.length = A.hmacBlockSize) (hla : l.keyData = some a) :
    hmacPads A env l s = .ok (true, { l with inner := some s.count, outer := some (s.count + 1) },
      { s with count := s.count + 2, live := (s.count + 1, .bytes (kd.map (· ^^^ 0x5c#8))) :: (s.count, .bytes (kd.map (· ^^^ 0x36#8))) :: s.live }) := by
  obtain ⟨d, hd, e⟩ := allocBytes_ok env A.hmacBlockSize s h
  unfold hmacPads
  rw [e]
  simp only [loadBytes, getKey, if_true, Res.ok_bind]
  rw [memSet_ok _ (by omega), Res.ok_bind]
  simp only [storeBytes, setKey, if_true, Res.ok_bind]
  obtain ⟨d2, hd2, e2⟩ := allocBytes_ok env A.hmacBlockSize
    { s with count := s.count + 1, live := (s.count, .bytes (d.take 0 ++ (List.replicate A.hmacBlockSize 0x36 ++ d.drop (0 + A.hmacBlockSize)))) :: s.live } h2
  rw [e2]
  simp only [getKey, if_true, Res.ok_bind]
  rw [memSet_ok _ (by omega), Res.ok_bind]
  have n1 : s.count + 1 ≠ s.count := by omega
  have n2 : s.count + 1 ≠ a := by omega
  have n3 : s.count ≠ a := by omega
  simp only [hla, hl, getKey, n1, n2, n3, if_false, if_true, Res.ok_bind, List.take_zero, List.nil_append, Nat.zero_add,
    List.drop_eq_nil_of_le (Nat.le_of_eq hd), List.drop_eq_nil_of_le (Nat.le_of_eq hd2), List.append_nil, setKey]
  rw [xorPads_ok kd _ hkd]
  simp only [Res.ok_bind, Res.pure_eq]

/-- The arguments with which the passes can succeed. -/
def PassArgs (A : Alg w) (buffer : Option Nat) (size : Nat) (hmac : Option Nat) (hmacSize : Nat) : Prop :=
  buffer ≠ none ∧ size ≤ ssizeMax ∧ hmac ≠ none ∧ A.hashSize ≤ hmacSize ∧ hmacSize ≤ ssizeMax

theorem hmacPass_fail (u : Bool) (env : Env w) (padding buffer : Option Nat) (size : Nat) (hmac : Option Nat) (hmacSize : Nat) (l : Loc) (s : St w)
    (h : env.allocOk s.count = false) (hc : l.context = none) :
    hmacPass A u env padding buffer size hmac hmacSize l s = .ok (false, l, { s with count := s.count + 1 }) := by
  obtain ⟨cx, kd, i, o, kh⟩ := l
  simp only at hc
  subst hc
  unfold hmacPass
  rw [hInitialize_fail A env s h, Res.ok_bind]
  rfl

theorem hmacPass_args (L : Lawful A H enc) (u : Bool) (env : Env w) (hscr : ScrOk A env.scr) (p : Nat) (pd : List Byte) (buffer : Option Nat) (size : Nat) (hmac : Option Nat) (hmacSize : Nat)
    (l : Loc) (s : St w) (h : env.allocOk s.count = true) (hc : l.context = none) (hp : p < s.count) (hg : getKey p s.live = some (.bytes pd))
    (hpd : pd.length = A.hmacBlockSize) (hb : AreaOk s.caller buffer size) (hargs : ¬ PassArgs A buffer size hmac hmacSize) :
    ∃ c x, Rep A H H.iv (pd ++ x) c ∧ hmacPass A u env (some p) buffer size hmac hmacSize l s =
      .ok (false, { l with context := some s.count }, { s with count := s.count + 1, live := (s.count, .ctx c) :: s.live }) := by
  have hB : A.hmacBlockSize ≤ ssizeMax := by rw [L.hmacBs]; unfold ssizeMax; rcases L.size with h | h <;> omega
  obtain ⟨cx, kd, i, o, kh⟩ := l
  simp only at hc
  subst hc
  unfold hmacPass
  obtain ⟨c, e1, hr⟩ := hInitialize_ok L env s h
  rw [e1, Res.ok_bind]
  have n1 : s.count ≠ p := by omega
  simp only [ne_eq, not_true_eq_false, if_false, loadBytes, getKey, n1, hg, Res.ok_bind]
  obtain ⟨c2, e2, hr2⟩ := hUpdate_ok L u env hscr { s with count := s.count + 1, live := (s.count, .ctx c) :: s.live } s.count c _ [] pd _ rfl hr hB hpd
  rw [e2, Res.ok_bind]
  simp only [not_true_eq_false, if_false]
  by_cases hbad : region { s with count := s.count + 1, live := (s.count, .ctx c2) :: s.live } buffer size = none ∨ ssizeMax < size
  · exact ⟨c2, [], by simpa using hr2, by rw [hUpdate_bad A u env _ s.count c2 s.live _ _ rfl hbad]; rfl⟩
  · cases buffer with
    | none => exact (hbad (Or.inl rfl)).elim
    | some i =>
      have hsz : size ≤ ssizeMax := by have := fun h => hbad (Or.inr h); omega
      have hlen : (slice s.caller i size).length = size := slice_length (hb i rfl hsz)
      obtain ⟨c3, e3, hr3⟩ := hUpdate_ok L u env hscr { s with count := s.count + 1, live := (s.count, .ctx c2) :: s.live } s.count c2 _ _ (slice s.caller i size) size rfl hr2 hsz hlen
      refine ⟨c3, _, hr3, ?_⟩
      rw [region_some, e3, Res.ok_bind]
      simp only [not_true_eq_false, if_false]
      have hbad2 : region { s with count := s.count + 1, live := (s.count, .ctx c3) :: s.live } hmac hmacSize = none ∨ hmacSize < A.hashSize ∨ ssizeMax < hmacSize := by
        by_contra hne
        apply hargs
        refine ⟨by simp, hsz, ?_, by omega, by omega⟩
        rintro rfl
        exact hne (Or.inl rfl)
      rw [hFinalize_bad A u env _ s.count c3 s.live _ _ rfl hbad2, Res.ok_bind]
      simp only [setRegion_same]
      rfl

theorem hmacPass_ok (L : Lawful A H enc) (u : Bool) (env : Env w) (hscr : ScrOk A env.scr) (p : Nat) (pd : List Byte) (b size o hmacSize : Nat)
    (l : Loc) (s : St w) (h : env.allocOk s.count = true) (hc : l.context = none) (hp : p < s.count) (hg : getKey p s.live = some (.bytes pd))
    (hpd : pd.length = A.hmacBlockSize) (hb : b + size ≤ s.caller.length) (hs : size ≤ ssizeMax) (ho : o + hmacSize ≤ s.caller.length)
    (hh : A.hashSize ≤ hmacSize) (hos : hmacSize ≤ ssizeMax) :
    hmacPass A u env (some p) (some b) size (some o) hmacSize l s =
      .ok (true, l, { s with
                          count := s.count + 1, caller := overwrite s.caller o (H.digest (pd ++ slice s.caller b size))
                          freed := (s.count, .ctx (zeroCtx A)) :: s.freed }) := by
  have hB : A.hmacBlockSize ≤ ssizeMax := by rw [L.hmacBs]; unfold ssizeMax; rcases L.size with h | h <;> omega
  obtain ⟨cx, kd, i, o', kh⟩ := l
  simp only at hc
  subst hc
  unfold hmacPass
  obtain ⟨c, e1, hr⟩ := hInitialize_ok L env s h
  rw [e1, Res.ok_bind]
  have n1 : s.count ≠ p := by omega
  simp only [ne_eq, not_true_eq_false, if_false, loadBytes, getKey, n1, hg, Res.ok_bind]
  obtain ⟨c2, e2, hr2⟩ := hUpdate_ok L u env hscr { s with count := s.count + 1, live := (s.count, .ctx c) :: s.live } s.count c _ [] pd _ rfl hr hB hpd
  rw [e2, Res.ok_bind]
  simp only [not_true_eq_false, if_false]
  have hlen : (slice s.caller b size).length = size := slice_length hb
  obtain ⟨c3, e3, hr3⟩ := hUpdate_ok L u env hscr { s with count := s.count + 1, live := (s.count, .ctx c2) :: s.live } s.count c2 _ _ (slice s.caller b size) size rfl hr2 hs hlen
  rw [region_some, e3, Res.ok_bind]
  simp only [not_true_eq_false, if_false]
  rw [region_some, hFinalize_ok L u env hscr _ s.count c3 s.live _ _ _ rfl hr3 hos hh (by rw [slice_length ho]), Res.ok_bind]
  simp only [setRegion_some, List.nil_append, not_true_eq_false, if_false]
  rw [hFree_ok _ _ (.ctx (zeroCtx A)) s.live rfl]
  simp only [Res.ok_bind]
  rw [overwrite_digest _ (digestLen L _) hh ho]
  rfl

theorem wipeFree_ok (p : Nat) (d : List Byte) (rest : List (Nat × Obj w)) (s : St w) (hl : s.live = (p, .bytes d) :: rest) (hd : d.length = A.hmacBlockSize) :
    wipeFree A (some p) s = .ok { s with live := rest, freed := (p, .bytes (List.replicate A.hmacBlockSize 0)) :: s.freed } := by
  unfold wipeFree
  simp only [loadBytes, hl, getKey, if_true, Res.ok_bind]
  rw [memSet_ok _ (by omega), Res.ok_bind]
  simp only [storeBytes, hl, setKey, if_true, Res.ok_bind, memFree, getKey, eraseKey]
  simp [List.drop_eq_nil_of_le (Nat.le_of_eq hd)]

/-- A pointer variable and the object it points to, as a piece of the heap. -/
def optObj (p : Option Nat) (o : Obj w) : List (Nat × Obj w) :=
  match p with
  | none => []
  | some p => [(p, o)]

theorem wipeFreeOpt_ok (p : Option Nat) (d : List Byte) (live : List (Nat × Obj w)) (s : St w) (hl : s.live = optObj p (.bytes d) ++ live)
    (hd : d.length = A.hmacBlockSize) :
    wipeFreeOpt A p s = .ok { s with live := live, freed := optObj p (.bytes (List.replicate A.hmacBlockSize 0)) ++ s.freed } := by
  obtain ⟨caller, count, l, freed⟩ := s
  simp only at hl
  subst hl
  cases p with
  | none => rfl
  | some p => exact wipeFree_ok p d live _ rfl hd

theorem freeOpt_ok (p : Option Nat) (c : Ctx w) (live : List (Nat × Obj w)) (s : St w) (hl : s.live = optObj p (.ctx c) ++ live) :
    freeOpt p s = .ok { s with live := live, freed := optObj p (.ctx c) ++ s.freed } := by
  obtain ⟨caller, count, l, freed⟩ := s
  simp only at hl
  subst hl
  cases p with
  | none => rfl
  | some p =>
    unfold freeOpt
    simp only
    rw [hFree_ok _ p (.ctx c) live rfl]
    rfl

theorem hmacError_ok (l : Loc) (s : St w) (c : Ctx w) (dO dI dK : List Byte) (live0 : List (Nat × Obj w))
    (hO : dO.length = A.hmacBlockSize) (hI : dI.length = A.hmacBlockSize) (hK : dK.length = A.hmacBlockSize)
    (hl : s.live = optObj l.context (.ctx c) ++ (optObj l.outer (.bytes dO) ++ (optObj l.inner (.bytes dI) ++ (optObj l.keyData (.bytes dK) ++ live0)))) :
    hmacError A l s = .ok (-1, l, { s with
      live := live0
      freed := optObj l.keyData (.bytes (List.replicate A.hmacBlockSize 0)) ++ (optObj l.inner (.bytes (List.replicate A.hmacBlockSize 0)) ++
        (optObj l.outer (.bytes (List.replicate A.hmacBlockSize 0)) ++ (optObj l.context (.ctx c) ++ s.freed))) }) := by
  unfold hmacError
  rw [freeOpt_ok _ c _ s hl, Res.ok_bind, wipeFreeOpt_ok _ dO _ _ rfl hO, Res.ok_bind, wipeFreeOpt_ok _ dI _ _ rfl hI, Res.ok_bind, wipeFreeOpt_ok _ dK _ _ rfl hK, Res.ok_bind]
  rfl

/-- The ways in which the part after the key can end. `K` is the padded key, `c` the number of the next allocation, `n` the number of allocations made. -/
inductive RestEnd (A : Alg w) (H : IterHash w) (env : Env w) (buffer : Option Nat) (size : Nat) (hmac : Option Nat) (hmacSize : Nat) (K mem : List Byte) (a c : Nat) :
    Int → Option Nat → List Byte → Nat → List (Nat × Obj w) → Prop
  | pad1 (h1 : env.allocOk c = false) :
      RestEnd A H env buffer size hmac hmacSize K mem a c (-1) none mem 1
      [(a, .bytes (List.replicate A.hmacBlockSize 0))]
  | pad2 (h1 : env.allocOk c = true) (h2 : env.allocOk (c + 1) = false) : RestEnd A H env buffer size hmac hmacSize K mem a c (-1) none mem 2
      [(a, .bytes (List.replicate A.hmacBlockSize 0)), (c, .bytes (List.replicate A.hmacBlockSize 0))]
  | pass1 (h1 : env.allocOk c = true) (h2 : env.allocOk (c + 1) = true) (h3 : env.allocOk (c + 2) = false) :
      RestEnd A H env buffer size hmac hmacSize K mem a c (-1) none mem 3
      [(a, .bytes (List.replicate A.hmacBlockSize 0)), (c, .bytes (List.replicate A.hmacBlockSize 0)), (c + 1, .bytes (List.replicate A.hmacBlockSize 0))]
  | args (h1 : env.allocOk c = true) (h2 : env.allocOk (c + 1) = true) (h3 : env.allocOk (c + 2) = true) (cx : Ctx w) (x : List Byte)
      (hrep : Rep A H H.iv (K.map (· ^^^ 0x36#8) ++ x) cx) (hargs : ¬ PassArgs A buffer size hmac hmacSize) :
      RestEnd A H env buffer size hmac hmacSize K mem a c (-1) (some (c + 2)) mem 3
      [(a, .bytes (List.replicate A.hmacBlockSize 0)), (c, .bytes (List.replicate A.hmacBlockSize 0)), (c + 1, .bytes (List.replicate A.hmacBlockSize 0)), (c + 2, .ctx cx)]
  | pass2 (h1 : env.allocOk c = true) (h2 : env.allocOk (c + 1) = true) (h3 : env.allocOk (c + 2) = true) (h4 : env.allocOk (c + 3) = false) (i o : Nat)
      (hi : buffer = some i) (ho : hmac = some o) (hargs : PassArgs A buffer size hmac hmacSize) :
      RestEnd A H env buffer size hmac hmacSize K mem a c (-1) none (overwrite mem o (H.digest (K.map (· ^^^ 0x36#8) ++ slice mem i size))) 4
      [(a, .bytes (List.replicate A.hmacBlockSize 0)), (c, .bytes (List.replicate A.hmacBlockSize 0)), (c + 1, .bytes (List.replicate A.hmacBlockSize 0)), (c + 2, .ctx (zeroCtx A))]
  | done (h1 : env.allocOk c = true) (h2 : env.allocOk (c + 1) = true) (h3 : env.allocOk (c + 2) = true) (h4 : env.allocOk (c + 3) = true) (i o : Nat)
      (hi : buffer = some i) (ho : hmac = some o) (hargs : PassArgs A buffer size hmac hmacSize) :
      RestEnd A H env buffer size hmac hmacSize K mem a c 1 none
        (overwrite mem o (H.digest (K.map (· ^^^ 0x5c#8) ++ H.digest (K.map (· ^^^ 0x36#8) ++ slice mem i size)))) 4
      [(a, .bytes (List.replicate A.hmacBlockSize 0)), (c, .bytes (List.replicate A.hmacBlockSize 0)), (c + 1, .bytes (List.replicate A.hmacBlockSize 0)),
        (c + 3, .ctx (zeroCtx A)), (c + 2, .ctx (zeroCtx A))]

theorem hmacRest_ok (L : Lawful A H enc) (u : Bool) (env : Env w) (hscr : ScrOk A env.scr) (buffer : Option Nat) (size : Nat) (hmac : Option Nat) (hmacSize : Nat)
    (K kh : List Byte) (a : Nat) (s : St w) (live0 : List (Nat × Obj w)) (hK : K.length = A.hmacBlockSize) (ha : a < s.count)
    (hl : s.live = (a, .bytes K) :: live0) (hb : AreaOk s.caller buffer size) (hh : AreaOk s.caller hmac hmacSize) :
    ∃ r l' cx mem n fl, RestEnd A H env buffer size hmac hmacSize K s.caller a s.count r cx mem n fl ∧
      hmacRest A u env buffer size hmac hmacSize ⟨none, some a, none, none, kh⟩ s = .ok (r, l', ⟨mem, s.count + n, live0, fl ++ s.freed⟩) ∧
      l'.context = cx ∧ l'.keyHash = kh := by
  obtain ⟨caller, count, live, freed⟩ := s
  simp only at ha hl hb hh
  subst hl
  have hKx : ∀ x : Byte, (K.map (· ^^^ x)).length = A.hmacBlockSize := by intro x; simpa using hK
  have hBs : A.hmacBlockSize ≤ 128 := by rw [L.hmacBs]; rcases L.size with h | h <;> omega
  have hhs : A.hashSize ≤ A.hmacBlockSize := by rw [L.hmacBs]; exact L.hashLe
  unfold hmacRest
  cases h1 : env.allocOk count with
  | false =>
    rw [hmacPads_fail1 env _ _ h1, Res.ok_bind]
    simp only [Bool.not_false, if_true]
    rw [hmacError_ok _ _ (zeroCtx A) K K K live0 hK hK hK (by simp [optObj])]
    exact ⟨_, _, _, _, _, _, .pad1 h1, rfl, rfl, rfl⟩
  | true =>
    cases h2 : env.allocOk (count + 1) with
    | false =>
      obtain ⟨d, hd, e⟩ := hmacPads_fail2 (A := A) env ⟨none, some a, none, none, kh⟩ ⟨caller, count, (a, .bytes K) :: live0, freed⟩ h1 h2
      rw [e, Res.ok_bind]
      simp only [Bool.not_false, if_true]
      rw [hmacError_ok _ _ (zeroCtx A) K d K live0 hK hd hK (by simp [optObj])]
      exact ⟨_, _, _, _, _, _, .pad2 h1 h2, rfl, rfl, rfl⟩
    | true =>
      rw [hmacPads_ok env _ _ a K live0 h1 h2 ha rfl hK rfl, Res.ok_bind]
      simp only [Bool.not_true, Bool.false_eq_true, if_false]
      cases h3 : env.allocOk (count + 2) with
      | false =>
        rw [hmacPass_fail u env _ _ _ _ _ _ _ h3 rfl, Res.ok_bind]
        simp only [Bool.not_false, if_true]
        rw [hmacError_ok _ _ (zeroCtx A) (K.map (· ^^^ 0x5c#8)) (K.map (· ^^^ 0x36#8)) K live0 (hKx _) (hKx _) hK (by simp [optObj])]
        exact ⟨_, _, _, _, _, _, .pass1 h1 h2 h3, rfl, rfl, rfl⟩
      | true =>
        have n1 : count + 1 ≠ count := by omega
        by_cases hargs : PassArgs A buffer size hmac hmacSize
        · obtain ⟨g1, g2, g3, g4, g5⟩ := id hargs
          obtain ⟨i, rfl⟩ := Option.ne_none_iff_exists'.mp g1
          obtain ⟨o, rfl⟩ := Option.ne_none_iff_exists'.mp g3
          have hol : o + hmacSize ≤ caller.length := hh o rfl g5
          have hdl := digestLen L (K.map (· ^^^ 0x36#8) ++ slice caller i size)
          rw [hmacPass_ok L u env hscr count (K.map (· ^^^ 0x36#8)) i size o hmacSize _ _ h3 rfl (by simp only; omega) (by simp [getKey]) (hKx _) (hb i rfl g2) g2 hol g4 g5,
            Res.ok_bind]
          simp only [Bool.not_true, Bool.false_eq_true, if_false]
          have hol2 : o + hmacSize ≤ (overwrite caller o (H.digest (K.map (· ^^^ 0x36#8) ++ slice caller i size))).length := by
            rw [overwrite_length (by omega)]; exact hol
          cases h4 : env.allocOk (count + 3) with
          | false =>
            rw [hmacPass_fail u env _ _ _ _ _ _ _ h4 rfl, Res.ok_bind]
            simp only [Bool.not_false, if_true]
            rw [hmacError_ok _ _ (zeroCtx A) (K.map (· ^^^ 0x5c#8)) (K.map (· ^^^ 0x36#8)) K live0 (hKx _) (hKx _) hK (by simp [optObj])]
            exact ⟨_, _, _, _, _, _, .pass2 h1 h2 h3 h4 i o rfl rfl hargs, rfl, rfl, rfl⟩
          | true =>
            rw [hmacPass_ok L u env hscr (count + 1) (K.map (· ^^^ 0x5c#8)) o A.hashSize o hmacSize _ _ h4 rfl (by simp only; omega) (by simp [getKey]) (hKx _) (le_trans (by omega) hol2)
              (by unfold ssizeMax; omega) hol2 g4 g5, Res.ok_bind]
            simp only [Bool.not_true, Bool.false_eq_true, if_false]
            rw [slice_overwrite hdl (by omega), overwrite_overwrite (by rw [hdl, digestLen L]) (by rw [hdl]; omega)]
            rw [wipeFree_ok (count + 1) (K.map (· ^^^ 0x5c#8)) ((count, .bytes (K.map (· ^^^ 0x36#8))) :: (a, .bytes K) :: live0) _ rfl (hKx _), Res.ok_bind]
            rw [wipeFree_ok count (K.map (· ^^^ 0x36#8)) ((a, .bytes K) :: live0) _ rfl (hKx _), Res.ok_bind]
            rw [wipeFree_ok a K live0 _ rfl hK, Res.ok_bind]
            exact ⟨_, _, _, _, _, _, .done h1 h2 h3 h4 i o rfl rfl hargs, rfl, rfl, rfl⟩
        · obtain ⟨c, x, hrep, e⟩ := hmacPass_args L u env hscr count (K.map (· ^^^ 0x36#8)) buffer size hmac hmacSize ⟨none, some a, some count, some (count + 1), kh⟩
            ⟨caller, count + 2, (count + 1, .bytes (K.map (· ^^^ 0x5c#8))) :: (count, .bytes (K.map (· ^^^ 0x36#8))) :: (a, .bytes K) :: live0, freed⟩
            h3 rfl (by simp only; omega) (by simp [getKey]) (hKx _) hb hargs
          rw [e, Res.ok_bind]
          simp only [Bool.not_false, if_true]
          rw [hmacError_ok _ _ c (K.map (· ^^^ 0x5c#8)) (K.map (· ^^^ 0x36#8)) K live0 (hKx _) (hKx _) hK (by simp [optObj])]
          exact ⟨_, _, _, _, _, _, .args h1 h2 h3 c x hrep hargs, rfl, rfl, rfl⟩

/-- Number of allocations made by a successful call. -/
def hmacAllocs (B keySize : Nat) : Nat := if keySize ≤ B then 5 else 6

/-- What a call of `libhmac_*_calculate_hmac` leaves behind. -/
structure HmacEnd (A : Alg w) (H : IterHash w) (env : Env w) (key : Option Nat) (keySize : Nat) (buffer : Option Nat) (size : Nat)
    (hmac : Option Nat) (hmacSize : Nat) (s : St w) (r : Int) (l' : Loc) (s' : St w) (fl : List (Nat × Obj w)) : Prop where
  live : s'.live = s.live
  freed : s'.freed = fl ++ s.freed
  nodup : (fl.map Prod.fst).Nodup
  mem : ∀ p, p ∈ fl.map Prod.fst ↔ (s.count ≤ p ∧ p < s'.count) ∧ env.allocOk p = true
  wiped : ∀ p o, (p, o) ∈ fl → o = .bytes (List.replicate A.hmacBlockSize 0) ∨ o = .ctx (zeroCtx A) ∨
    (r = -1 ∧ ¬ PassArgs A buffer size hmac hmacSize ∧ p + 1 = s'.count ∧ ∃ c, o = .ctx c)
  leak : ∀ k, key = some k → keySize ≤ ssizeMax → A.hashSize ≤ hmacSize → ¬ PassArgs A buffer size hmac hmacSize →
    (∀ j, j + 1 < hmacAllocs A.hmacBlockSize keySize → env.allocOk (s.count + j) = true) → ∃ c x, (s.count + (hmacAllocs A.hmacBlockSize keySize - 2), .ctx c) ∈ fl ∧
      Rep A H H.iv ((paddedKey A.hmacBlockSize H.digest (slice s.caller k keySize)).map (· ^^^ 0x36#8) ++ x) c
  count : s.count ≤ s'.count ∧ s'.count ≤ s.count + hmacAllocs A.hmacBlockSize keySize
  result :
    (r = 1 ∧ (∀ j < hmacAllocs A.hmacBlockSize keySize, env.allocOk (s.count + j) = true) ∧ ∃ k i o, key = some k ∧ buffer = some i ∧ hmac = some o ∧
      (key ≠ none ∧ keySize ≤ ssizeMax ∧ PassArgs A buffer size hmac hmacSize) ∧
      s'.caller = overwrite s.caller o (H.digest ((paddedKey A.hmacBlockSize H.digest (slice s.caller k keySize)).map (· ^^^ 0x5c#8) ++
        H.digest ((paddedKey A.hmacBlockSize H.digest (slice s.caller k keySize)).map (· ^^^ 0x36#8) ++ slice s.caller i size)))) ∨
    (r = -1 ∧ s'.caller = s.caller ∧ (¬ (key ≠ none ∧ keySize ≤ ssizeMax ∧ PassArgs A buffer size hmac hmacSize) ∨
      ∃ j, j + 1 < hmacAllocs A.hmacBlockSize keySize ∧ env.allocOk (s.count + j) = false)) ∨
    (r = -1 ∧ (∀ j, j + 1 < hmacAllocs A.hmacBlockSize keySize → env.allocOk (s.count + j) = true) ∧
      env.allocOk (s.count + (hmacAllocs A.hmacBlockSize keySize - 1)) = false ∧ ∃ k i o, key = some k ∧ buffer = some i ∧ hmac = some o ∧
      (key ≠ none ∧ keySize ≤ ssizeMax ∧ PassArgs A buffer size hmac hmacSize) ∧
      s'.caller = overwrite s.caller o (H.digest ((paddedKey A.hmacBlockSize H.digest (slice s.caller k keySize)).map (· ^^^ 0x36#8) ++ slice s.caller i size)))
  keyHash : r = 1 → ∀ k, key = some k → A.hmacBlockSize < keySize → l'.keyHash = H.digest (slice s.caller k keySize)

theorem restEnd_short {env : Env w} {buffer : Option Nat} {size : Nat} {hmac : Option Nat} {hmacSize keySize : Nat} {r : Int} {cx : Option Nat}
    {mem : List Byte} {n k : Nat} {fl : List (Nat × Obj w)} {s : St w} {l' : Loc} (hk : keySize ≤ A.hmacBlockSize) (hks : keySize ≤ ssizeMax) (h0 : env.allocOk s.count = true)
    (e : RestEnd A H env buffer size hmac hmacSize (paddedKey A.hmacBlockSize H.digest (slice s.caller k keySize)) s.caller s.count (s.count + 1) r cx mem n fl) :
    HmacEnd A H env (some k) keySize buffer size hmac hmacSize s r l' ⟨mem, s.count + 1 + n, s.live, fl ++ s.freed⟩ fl := by
  have hn : hmacAllocs A.hmacBlockSize keySize = 5 := by simp [hmacAllocs, hk]
  have hk' : ¬ A.hmacBlockSize < keySize := by omega
  cases e with
  | pad1 h1 =>
    refine ⟨rfl, rfl, (by simp <;> omega), fun p => ?_, (by intro p o h; simp only [List.cons_append, List.nil_append, List.mem_cons, Prod.mk.injEq, List.not_mem_nil, or_false] at h; tauto), (fun _ _ _ _ _ hall => absurd (hall 1 (by omega)) (by rw [show s.count + 1 = s.count + 1 from rfl, h1]; simp)), by simp only [hn]; omega, .inr (.inl ⟨rfl, rfl, .inr ⟨1, by omega, h1⟩⟩), by simp⟩
    simp only [List.map_cons, List.map_nil, List.mem_cons, List.not_mem_nil, or_false]
    constructor
    · rintro rfl; exact ⟨by omega, h0⟩
    · rintro ⟨h, hp⟩
      have : p = s.count ∨ p = s.count + 1 := by omega
      rcases this with rfl | rfl <;> simp_all
  | pad2 h1 h2 =>
    refine ⟨rfl, rfl, (by simp <;> omega), fun p => ?_, (by intro p o h; simp only [List.cons_append, List.nil_append, List.mem_cons, Prod.mk.injEq, List.not_mem_nil, or_false] at h; tauto), (fun _ _ _ _ _ hall => absurd (hall 2 (by omega)) (by rw [show s.count + 2 = s.count + 1 + 1 from rfl, h2]; simp)), by simp only [hn]; omega, .inr (.inl ⟨rfl, rfl, .inr ⟨2, by omega, h2⟩⟩), by simp⟩
    simp only [List.map_cons, List.map_nil, List.mem_cons, List.not_mem_nil, or_false]
    constructor
    · rintro (rfl | rfl)
      · exact ⟨by omega, h0⟩
      · exact ⟨by omega, h1⟩
    · rintro ⟨h, hp⟩
      have : p = s.count ∨ p = s.count + 1 ∨ p = s.count + 1 + 1 := by omega
      rcases this with rfl | rfl | rfl <;> simp_all
  | pass1 h1 h2 h3 =>
    refine ⟨rfl, rfl, (by simp <;> omega), fun p => ?_, (by intro p o h; simp only [List.cons_append, List.nil_append, List.mem_cons, Prod.mk.injEq, List.not_mem_nil, or_false] at h; tauto), (fun _ _ _ _ _ hall => absurd (hall 3 (by omega)) (by rw [show s.count + 3 = s.count + 1 + 2 from rfl, h3]; simp)), by simp only [hn]; omega, .inr (.inl ⟨rfl, rfl, .inr ⟨3, by omega, h3⟩⟩), by simp⟩
    simp only [List.map_cons, List.map_nil, List.mem_cons, List.not_mem_nil, or_false]
    constructor
    · rintro (rfl | rfl | rfl)
      · exact ⟨by omega, h0⟩
      · exact ⟨by omega, h1⟩
      · exact ⟨by omega, h2⟩
    · rintro ⟨h, hp⟩
      have : p = s.count ∨ p = s.count + 1 ∨ p = s.count + 1 + 1 ∨ p = s.count + 1 + 2 := by omega
      rcases this with rfl | rfl | rfl | rfl <;> simp_all
  | args h1 h2 h3 c x hrep hargs =>
    refine ⟨rfl, rfl, (by simp <;> omega), fun p => ?_, ?_, (by rintro _ ⟨⟩ - - - -; exact ⟨c, x, by rw [hn]; simp, hrep⟩), by simp only [hn]; omega, .inr (.inl ⟨rfl, rfl, .inl (by simp [hargs])⟩), by simp⟩
    · simp only [List.map_cons, List.map_nil, List.mem_cons, List.not_mem_nil, or_false]
      constructor
      · rintro (rfl | rfl | rfl | rfl)
        · exact ⟨by omega, h0⟩
        · exact ⟨by omega, h1⟩
        · exact ⟨by omega, h2⟩
        · exact ⟨by omega, h3⟩
      · rintro ⟨h, hp⟩
        omega
    · intro p o h
      simp only [List.mem_cons, Prod.mk.injEq, List.not_mem_nil, or_false] at h
      rcases h with (⟨rfl, rfl⟩ | ⟨rfl, rfl⟩ | ⟨rfl, rfl⟩ | ⟨rfl, rfl⟩)
      · exact .inl rfl
      · exact .inl rfl
      · exact .inl rfl
      · exact .inr (.inr ⟨rfl, hargs, rfl, c, rfl⟩)
  | pass2 h1 h2 h3 h4 i o hi ho hargs =>
    refine ⟨rfl, rfl, (by simp <;> omega), fun p => ?_, (by intro p o h; simp only [List.cons_append, List.nil_append, List.mem_cons, Prod.mk.injEq, List.not_mem_nil, or_false] at h; tauto), (fun _ _ _ _ h => absurd hargs h), by simp only [hn]; omega, .inr (.inr ⟨rfl, fun j hj => ?_, by rw [hn]; exact h4, k, i, o, rfl, hi, ho, ⟨by simp, hks, hargs⟩, rfl⟩), by simp⟩
    · simp only [List.map_cons, List.map_nil, List.mem_cons, List.not_mem_nil, or_false]
      constructor
      · rintro (rfl | rfl | rfl | rfl)
        · exact ⟨by omega, h0⟩
        · exact ⟨by omega, h1⟩
        · exact ⟨by omega, h2⟩
        · exact ⟨by omega, h3⟩
      · rintro ⟨h, hp⟩
        have : p = s.count ∨ p = s.count + 1 ∨ p = s.count + 1 + 1 ∨ p = s.count + 1 + 2 ∨ p = s.count + 1 + 3 := by omega
        rcases this with rfl | rfl | rfl | rfl | rfl <;> simp_all
    · rw [hn] at hj
      have : j = 0 ∨ j = 1 ∨ j = 2 ∨ j = 3 := by omega
      rcases this with rfl | rfl | rfl | rfl
      · exact h0
      · exact h1
      · exact h2
      · exact h3
  | done h1 h2 h3 h4 i o hi ho hargs =>
    refine ⟨rfl, rfl, (by simp <;> omega), fun p => ?_, (by intro p o h; simp only [List.cons_append, List.nil_append, List.mem_cons, Prod.mk.injEq, List.not_mem_nil, or_false] at h; tauto), (fun _ _ _ _ h => absurd hargs h), by simp only [hn]; omega, .inl ⟨rfl, fun j hj => ?_, k, i, o, rfl, hi, ho, ⟨by simp, hks, hargs⟩, rfl⟩, fun _ _ _ h => absurd h hk'⟩
    · simp only [List.map_cons, List.map_nil, List.mem_cons, List.not_mem_nil, or_false]
      constructor
      · rintro (rfl | rfl | rfl | rfl | rfl)
        · exact ⟨by omega, h0⟩
        · exact ⟨by omega, h1⟩
        · exact ⟨by omega, h2⟩
        · exact ⟨by omega, h4⟩
        · exact ⟨by omega, h3⟩
      · rintro ⟨h, hp⟩
        omega
    · rw [hn] at hj
      have : j = 0 ∨ j = 1 ∨ j = 2 ∨ j = 3 ∨ j = 4 := by omega
      rcases this with rfl | rfl | rfl | rfl | rfl
      · exact h0
      · exact h1
      · exact h2
      · exact h3
      · exact h4

theorem restEnd_long {env : Env w} {buffer : Option Nat} {size : Nat} {hmac : Option Nat} {hmacSize keySize : Nat} {r : Int} {cx : Option Nat}
    {mem : List Byte} {n k : Nat} {fl : List (Nat × Obj w)} {s : St w} {l' : Loc} (hk : A.hmacBlockSize < keySize) (hks : keySize ≤ ssizeMax) (h0 : env.allocOk s.count = true)
    (h0' : env.allocOk (s.count + 1) = true) (hl : l'.keyHash = H.digest (slice s.caller k keySize))
    (e : RestEnd A H env buffer size hmac hmacSize (paddedKey A.hmacBlockSize H.digest (slice s.caller k keySize)) s.caller s.count (s.count + 2) r cx mem n fl) :
    HmacEnd A H env (some k) keySize buffer size hmac hmacSize s r l' ⟨mem, s.count + 2 + n, s.live, fl ++ (s.count + 1, .ctx (zeroCtx A)) :: s.freed⟩
      (fl ++ [(s.count + 1, .ctx (zeroCtx A))]) := by
  have hn : hmacAllocs A.hmacBlockSize keySize = 6 := by simp [hmacAllocs, hk]
  cases e with
  | pad1 h1 =>
    refine ⟨rfl, by simp, (by simp <;> omega), fun p => ?_, (by intro p o h; simp only [List.cons_append, List.nil_append, List.mem_cons, Prod.mk.injEq, List.not_mem_nil, or_false] at h; tauto), (fun _ _ _ _ _ hall => absurd (hall 2 (by omega)) (by rw [show s.count + 2 = s.count + 2 from rfl, h1]; simp)), by simp only [hn]; omega, .inr (.inl ⟨rfl, rfl, .inr ⟨2, by omega, h1⟩⟩), by simp⟩
    simp only [List.map_cons, List.map_nil, List.cons_append, List.nil_append, List.mem_cons, List.not_mem_nil, or_false]
    constructor
    · rintro (rfl | rfl)
      · exact ⟨by omega, h0⟩
      · exact ⟨by omega, h0'⟩
    · rintro ⟨h, hp⟩
      have : p = s.count ∨ p = s.count + 1 ∨ p = s.count + 2 := by omega
      rcases this with rfl | rfl | rfl <;> simp_all
  | pad2 h1 h2 =>
    refine ⟨rfl, by simp, (by simp <;> omega), fun p => ?_, (by intro p o h; simp only [List.cons_append, List.nil_append, List.mem_cons, Prod.mk.injEq, List.not_mem_nil, or_false] at h; tauto), (fun _ _ _ _ _ hall => absurd (hall 3 (by omega)) (by rw [show s.count + 3 = s.count + 2 + 1 from rfl, h2]; simp)), by simp only [hn]; omega, .inr (.inl ⟨rfl, rfl, .inr ⟨3, by omega, h2⟩⟩), by simp⟩
    simp only [List.map_cons, List.map_nil, List.cons_append, List.nil_append, List.mem_cons, List.not_mem_nil, or_false]
    constructor
    · rintro (rfl | rfl | rfl)
      · exact ⟨by omega, h0⟩
      · exact ⟨by omega, h1⟩
      · exact ⟨by omega, h0'⟩
    · rintro ⟨h, hp⟩
      have : p = s.count ∨ p = s.count + 1 ∨ p = s.count + 2 ∨ p = s.count + 2 + 1 := by omega
      rcases this with rfl | rfl | rfl | rfl <;> simp_all
  | pass1 h1 h2 h3 =>
    refine ⟨rfl, by simp, (by simp <;> omega), fun p => ?_, (by intro p o h; simp only [List.cons_append, List.nil_append, List.mem_cons, Prod.mk.injEq, List.not_mem_nil, or_false] at h; tauto), (fun _ _ _ _ _ hall => absurd (hall 4 (by omega)) (by rw [show s.count + 4 = s.count + 2 + 2 from rfl, h3]; simp)), by simp only [hn]; omega, .inr (.inl ⟨rfl, rfl, .inr ⟨4, by omega, h3⟩⟩), by simp⟩
    simp only [List.map_cons, List.map_nil, List.cons_append, List.nil_append, List.mem_cons, List.not_mem_nil, or_false]
    constructor
    · rintro (rfl | rfl | rfl | rfl)
      · exact ⟨by omega, h0⟩
      · exact ⟨by omega, h1⟩
      · exact ⟨by omega, h2⟩
      · exact ⟨by omega, h0'⟩
    · rintro ⟨h, hp⟩
      have : p = s.count ∨ p = s.count + 1 ∨ p = s.count + 2 ∨ p = s.count + 2 + 1 ∨ p = s.count + 2 + 2 := by omega
      rcases this with rfl | rfl | rfl | rfl | rfl <;> simp_all
  | args h1 h2 h3 c x hrep hargs =>
    refine ⟨rfl, by simp, (by simp <;> omega), fun p => ?_, ?_, (by rintro _ ⟨⟩ - - - -; exact ⟨c, x, by rw [hn]; simp, hrep⟩), by simp only [hn]; omega, .inr (.inl ⟨rfl, rfl, .inl (by simp [hargs])⟩), by simp⟩
    · simp only [List.map_cons, List.map_nil, List.cons_append, List.nil_append, List.mem_cons, List.not_mem_nil, or_false]
      constructor
      · rintro (rfl | rfl | rfl | rfl | rfl)
        · exact ⟨by omega, h0⟩
        · exact ⟨by omega, h1⟩
        · exact ⟨by omega, h2⟩
        · exact ⟨by omega, h3⟩
        · exact ⟨by omega, h0'⟩
      · rintro ⟨h, hp⟩
        omega
    · intro p o h
      simp only [List.cons_append, List.nil_append, List.mem_cons, Prod.mk.injEq, List.not_mem_nil, or_false] at h
      rcases h with (⟨rfl, rfl⟩ | ⟨rfl, rfl⟩ | ⟨rfl, rfl⟩ | ⟨rfl, rfl⟩ | ⟨rfl, rfl⟩)
      · exact .inl rfl
      · exact .inl rfl
      · exact .inl rfl
      · exact .inr (.inr ⟨rfl, hargs, rfl, c, rfl⟩)
      · exact .inr (.inl rfl)
  | pass2 h1 h2 h3 h4 i o hi ho hargs =>
    refine ⟨rfl, by simp, (by simp <;> omega), fun p => ?_, (by intro p o h; simp only [List.cons_append, List.nil_append, List.mem_cons, Prod.mk.injEq, List.not_mem_nil, or_false] at h; tauto), (fun _ _ _ _ h => absurd hargs h), by simp only [hn]; omega, .inr (.inr ⟨rfl, fun j hj => ?_, by rw [hn]; exact h4, k, i, o, rfl, hi, ho, ⟨by simp, hks, hargs⟩, rfl⟩), by simp⟩
    · simp only [List.map_cons, List.map_nil, List.cons_append, List.nil_append, List.mem_cons, List.not_mem_nil, or_false]
      constructor
      · rintro (rfl | rfl | rfl | rfl | rfl)
        · exact ⟨by omega, h0⟩
        · exact ⟨by omega, h1⟩
        · exact ⟨by omega, h2⟩
        · exact ⟨by omega, h3⟩
        · exact ⟨by omega, h0'⟩
      · rintro ⟨h, hp⟩
        have : p = s.count ∨ p = s.count + 1 ∨ p = s.count + 2 ∨ p = s.count + 2 + 1 ∨ p = s.count + 2 + 2 ∨ p = s.count + 2 + 3 := by omega
        rcases this with rfl | rfl | rfl | rfl | rfl | rfl <;> simp_all
    · rw [hn] at hj
      have : j = 0 ∨ j = 1 ∨ j = 2 ∨ j = 3 ∨ j = 4 := by omega
      rcases this with rfl | rfl | rfl | rfl | rfl
      · exact h0
      · exact h0'
      · exact h1
      · exact h2
      · exact h3
  | done h1 h2 h3 h4 i o hi ho hargs =>
    refine ⟨rfl, by simp, (by simp <;> omega), fun p => ?_, (by intro p o h; simp only [List.cons_append, List.nil_append, List.mem_cons, Prod.mk.injEq, List.not_mem_nil, or_false] at h; tauto), (fun _ _ _ _ h => absurd hargs h), by simp only [hn]; omega, .inl ⟨rfl, fun j hj => ?_, k, i, o, rfl, hi, ho, ⟨by simp, hks, hargs⟩, rfl⟩, ?_⟩
    · simp only [List.map_cons, List.map_nil, List.cons_append, List.nil_append, List.mem_cons, List.not_mem_nil, or_false]
      constructor
      · rintro (rfl | rfl | rfl | rfl | rfl | rfl)
        · exact ⟨by omega, h0⟩
        · exact ⟨by omega, h1⟩
        · exact ⟨by omega, h2⟩
        · exact ⟨by omega, h4⟩
        · exact ⟨by omega, h3⟩
        · exact ⟨by omega, h0'⟩
      · rintro ⟨h, hp⟩
        omega
    · rw [hn] at hj
      have : j = 0 ∨ j = 1 ∨ j = 2 ∨ j = 3 ∨ j = 4 ∨ j = 5 := by omega
      rcases this with rfl | rfl | rfl | rfl | rfl | rfl
      · exact h0
      · exact h0'
      · exact h1
      · exact h2
      · exact h3
      · exact h4
    · rintro - k' ⟨⟩ -
      exact hl

theorem calculateHmac_ok (L : Lawful A H enc) (u : Bool) (env : Env w) (hscr : ScrOk A env.scr) (keyHash : List Byte) (hkh : keyHash.length = A.hashSize)
    (key : Option Nat) (keySize : Nat) (buffer : Option Nat) (size : Nat) (hmac : Option Nat) (hmacSize : Nat) (s : St w)
    (hk : AreaOk s.caller key keySize) (hb : AreaOk s.caller buffer size) (hh : AreaOk s.caller hmac hmacSize) :
    ∃ r l' s' fl, calculateHmac A u env keyHash key keySize buffer size hmac hmacSize s = .ok (r, l', s') ∧
      HmacEnd A H env key keySize buffer size hmac hmacSize s r l' s' fl := by
  have early : ¬ (key ≠ none ∧ keySize ≤ ssizeMax ∧ A.hashSize ≤ hmacSize) →
      HmacEnd A H env key keySize buffer size hmac hmacSize s (-1) ⟨none, none, none, none, keyHash⟩ s [] := by
    intro hbad
    refine ⟨rfl, rfl, by simp, ?_, by simp, ?_, ⟨by omega, by omega⟩, .inr (.inl ⟨rfl, rfl, .inl fun h => hbad ⟨h.1, h.2.1, h.2.2.2.2.2.1⟩⟩), by simp⟩
    on_goal 2 => exact fun k e h1 h2 => absurd ⟨by simp [e], h1, h2⟩ hbad
    intro p
    simp only [List.map_nil, List.not_mem_nil, false_iff, not_and]
    omega
  unfold calculateHmac
  cases key with
  | none => exact ⟨_, _, _, _, rfl, early (by simp)⟩
  | some k =>
    simp only
    split
    · rename_i h
      exact ⟨_, _, _, _, rfl, early (by intro hc; omega)⟩
    · rename_i hks
      split
      · rename_i h
        exact ⟨_, _, _, _, rfl, early (by rintro ⟨-, -, hc⟩; omega)⟩
      · have hks : keySize ≤ ssizeMax := by omega
        cases h0 : env.allocOk s.count with
        | false =>
          rw [hmacKey_fail A u env _ _ _ _ h0, Res.ok_bind]
          simp only [Bool.not_false, if_true]
          rw [hmacError_ok _ _ (zeroCtx A) (List.replicate A.hmacBlockSize 0) (List.replicate A.hmacBlockSize 0) (List.replicate A.hmacBlockSize 0) s.live
            (by simp) (by simp) (by simp) (by simp [optObj])]
          refine ⟨_, _, _, [], rfl, ⟨rfl, by simp [optObj], by simp, ?_, by simp, (fun _ _ _ _ _ hall => absurd (hall 0 (by simp only [hmacAllocs]; split <;> omega)) (by simp [h0])), ?_, .inr (.inl ⟨rfl, rfl, .inr ⟨0, ?_, h0⟩⟩), by simp⟩⟩
          · intro p
            simp only [List.map_nil, List.not_mem_nil, false_iff, not_and]
            intro hp
            have : p = s.count := by omega
            subst this
            simp [h0]
          · simp only [hmacAllocs]; split <;> omega
          · simp only [hmacAllocs]; split <;> omega
        | true =>
          by_cases hkb : keySize ≤ A.hmacBlockSize
          · rw [hmacKey_short L u env k keySize _ s h0 hkb (hk k rfl hks), Res.ok_bind]
            simp only [Bool.not_true, Bool.false_eq_true, if_false]
            obtain ⟨r, l', cx, mem, n, fl, e, hr, hc, hkh'⟩ := hmacRest_ok L u env hscr buffer size hmac hmacSize
              (paddedKey A.hmacBlockSize H.digest (slice s.caller k keySize)) keyHash s.count
              { s with count := s.count + 1, live := (s.count, .bytes (paddedKey A.hmacBlockSize H.digest (slice s.caller k keySize))) :: s.live }
              s.live (paddedKey_length L _) (by simp) rfl hb hh
            exact ⟨r, l', _, fl, hr, restEnd_short hkb hks h0 e⟩
          · cases h0' : env.allocOk (s.count + 1) with
            | false =>
              obtain ⟨d, hd, e⟩ := hmacKey_long_fail (A := A) u env k keySize ⟨none, none, none, none, keyHash⟩ s h0 h0' rfl (by omega)
              rw [e, Res.ok_bind]
              simp only [Bool.not_false, if_true]
              rw [hmacError_ok _ _ (zeroCtx A) d d d s.live hd hd hd (by simp [optObj])]
              refine ⟨_, _, _, [(s.count, .bytes (List.replicate A.hmacBlockSize 0))], rfl, ⟨rfl, by simp [optObj], by simp, ?_, by simp, (fun _ _ _ _ _ hall => absurd (hall 1 (by simp only [hmacAllocs]; split <;> omega)) (by simp [h0'])), ?_, .inr (.inl ⟨rfl, rfl, .inr ⟨1, ?_, h0'⟩⟩), by simp⟩⟩
              · intro p
                simp only [List.map_cons, List.map_nil, List.mem_cons, List.not_mem_nil, or_false]
                constructor
                · rintro rfl; exact ⟨by omega, h0⟩
                · rintro ⟨hp, hp'⟩
                  have : p = s.count ∨ p = s.count + 1 := by omega
                  rcases this with rfl | rfl <;> simp_all
              · simp only [hmacAllocs]; split <;> omega
              · simp only [hmacAllocs]; split <;> omega
            | true =>
              rw [hmacKey_long L u env hscr k keySize ⟨none, none, none, none, keyHash⟩ s h0 h0' rfl hkh (by omega) hks (hk k rfl hks), Res.ok_bind]
              simp only [Bool.not_true, Bool.false_eq_true, if_false]
              obtain ⟨r, l', cx, mem, n, fl, e, hr, hc, hkh'⟩ := hmacRest_ok L u env hscr buffer size hmac hmacSize
                (paddedKey A.hmacBlockSize H.digest (slice s.caller k keySize)) (H.digest (slice s.caller k keySize)) s.count
                { s with
                  count := s.count + 2, live := (s.count, .bytes (paddedKey A.hmacBlockSize H.digest (slice s.caller k keySize))) :: s.live
                  freed := (s.count + 1, .ctx (zeroCtx A)) :: s.freed }
                s.live (paddedKey_length L _) (by simp) rfl hb hh
              exact ⟨r, l', _, _, hr, restEnd_long (by omega) hks h0 h0' hkh' e⟩

end Model
