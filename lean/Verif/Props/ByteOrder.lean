import Verif.Proofs.ByteOrder
import Verif.Model.Block
/-! C27, C28: the byte order macros and the rotation macros. `runLoad` and `runStore` execute the statements of a macro in order on a byte
array; a byte outside the array is undefined behaviour. -/

namespace Props

open Model Spec

/-- The big-endian load macros with their sizes in bytes. -/
def loadsBe : List (Nat × List LoadStep) := [(2, ld16be), (3, ld24be), (4, ld32be), (6, ld48be), (8, ld64be), (4, ld1x32be), (8, ld1x64be)]

/-- The little-endian load macros that are right. `ld48le` and `ld1x64le` are not among them. -/
def loadsLe : List (Nat × List LoadStep) := [(2, ld16le), (3, ld24le), (4, ld32le), (8, ld64le), (4, ld1x32le)]

/-- The big-endian store macros with their sizes in bytes. -/
def storesBe : List (Nat × List (Nat × Nat)) := [(2, st16be), (3, st24be), (4, st32be), (6, st48be), (8, st64be)]

/-- The little-endian store macros. -/
def storesLe : List (Nat × List (Nat × Nat)) := [(2, st16le), (3, st24le), (4, st32le), (6, st48le), (8, st64le)]

/-- C27. A big-endian load gives the positional value of exactly the `n` bytes, whatever the variable (of at least `8 n` bits) contained. -/
theorem C27_load_big_endian {w n : Nat} {prog : List LoadStep} (hp : (n, prog) ∈ loadsBe) (hw : 8 * n ≤ w) (pre data post : List Byte) (hd : data.length = n)
    (v0 : BitVec w) : ∃ v, runLoad prog (pre ++ data ++ post) pre.length v0 = .ok v ∧ v.toNat = beNat data := by
  have h : prog = canonProg (List.range n) ∧ 0 < n := by
    simp only [loadsBe, List.mem_cons, Prod.mk.injEq, List.not_mem_nil, or_false] at hp
    rcases hp with ⟨rfl, rfl⟩ | ⟨rfl, rfl⟩ | ⟨rfl, rfl⟩ | ⟨rfl, rfl⟩ | ⟨rfl, rfl⟩ | ⟨rfl, rfl⟩ | ⟨rfl, rfl⟩ <;> exact ⟨by decide, by decide⟩
  refine ⟨_, runLoad_be h.1 h.2 _ _ _ (by simp [hd]), ?_⟩
  rw [List.append_assoc, List.drop_left' rfl, List.take_left' hd, BitVec.toNat_ofNat, Nat.mod_eq_of_lt]
  exact lt_of_lt_of_le (beNat_lt data) (Nat.pow_le_pow_right (by decide) (by omega))

example : (6, ld48be) ∈ loadsBe ∧ 8 * 6 ≤ 64 ∧ ([1, 2, 3, 4, 5, 6] : List Byte).length = 6 := ⟨by simp [loadsBe], by decide, rfl⟩

/-- C27, partial. The same for little-endian loads of 16, 24, 32 and 64 bits. Missing: `byte_stream_copy_to_uint48_little_endian` and
`libhmac_byte_stream_copy_to_1x_uint64_little_endian`, for which the claim is false (`C27_load48_little_endian_wrong`,
`C27_load1x64_little_endian_wrong`). -/
theorem C27_load_little_endian_partial {w n : Nat} {prog : List LoadStep} (hp : (n, prog) ∈ loadsLe) (hw : 8 * n ≤ w) (pre data post : List Byte)
    (hd : data.length = n) (v0 : BitVec w) : ∃ v, runLoad prog (pre ++ data ++ post) pre.length v0 = .ok v ∧ v.toNat = leNat data := by
  have h : prog = canonProg (List.range n).reverse ∧ 0 < n := by
    simp only [loadsLe, List.mem_cons, Prod.mk.injEq, List.not_mem_nil, or_false] at hp
    rcases hp with ⟨rfl, rfl⟩ | ⟨rfl, rfl⟩ | ⟨rfl, rfl⟩ | ⟨rfl, rfl⟩ | ⟨rfl, rfl⟩ <;> exact ⟨by decide, by decide⟩
  refine ⟨_, runLoad_le h.1 h.2 _ _ _ (by simp [hd]), ?_⟩
  rw [List.append_assoc, List.drop_left' rfl, List.take_left' hd, BitVec.toNat_ofNat, Nat.mod_eq_of_lt]
  exact lt_of_lt_of_le (leNat_lt data) (Nat.pow_le_pow_right (by decide) (by omega))

example : (3, ld24le) ∈ loadsLe ∧ 8 * 3 ≤ 32 ∧ ([1, 2, 3] : List Byte).length = 3 := ⟨by simp [loadsLe], by decide, rfl⟩

/-- C27. `byte_stream_copy_to_uint48_little_endian` starts with `|=`: the previous contents of the variable, shifted by 40 bits, are mixed into the
result. -/
theorem C27_load48_little_endian (pre data post : List Byte) (hd : data.length = 6) (v0 : BitVec 64) :
    runLoad ld48le (pre ++ data ++ post) pre.length v0 = .ok ((v0 <<< 40) ||| BitVec.ofNat 64 (leNat data)) := by
  have hl : ∀ i, i < 6 → pre.length + i < (pre ++ data ++ post).length := fun i hi => by simp [hd]; omega
  have e : ld48le = .or 5 :: orProg [4, 3, 2, 1, 0] := rfl
  rw [runLoad, e, runTable, loadStep, rd_ok (hl 5 (by omega)), Res.ok_bind, Res.pure_eq, Res.ok_bind, setWidth_byte,
    runTable_orProg_junk _ _ _ _ _ (by intro i hi; simp only [List.mem_cons, List.not_mem_nil, or_false] at hi; exact hl i (by omega))]
  have : ∀ i, i < 6 → (pre ++ data ++ post).getD (pre.length + i) 0 = data.getD i 0 := by
    intro i hi
    rw [List.append_assoc, List.getD, List.getD, List.getElem?_append_right (by omega), Nat.add_sub_cancel_left,
      List.getElem?_append_left (by omega)]
  simp only [List.map_cons, List.map_nil, List.length_cons, List.length_nil, this _ (show 4 < 6 by omega), this _ (show 3 < 6 by omega),
    this _ (show 2 < 6 by omega), this _ (show 1 < 6 by omega), this _ (show 0 < 6 by omega)]
  match data, hd with
  | [b0, b1, b2, b3, b4, b5], _ =>
    simp [leNat, List.getD]
    congr 2
    omega

example : runLoad ld48le ([9] ++ [1, 2, 3, 4, 5, 6] ++ [7]) 1 (0 : BitVec 64) = .ok (((0 : BitVec 64) <<< 40) ||| BitVec.ofNat 64 (leNat [1, 2, 3, 4, 5, 6])) :=
  C27_load48_little_endian [9] [1, 2, 3, 4, 5, 6] [7] rfl 0

/-- C27, violated: the result of the 48 bit little-endian load is not the value of the bytes, it depends on what the variable contained. -/
theorem C27_load48_little_endian_wrong : ∃ (data : List Byte) (v0 : BitVec 64), data.length = 6 ∧
    ∀ v, runLoad ld48le data 0 v0 = .ok v → v.toNat ≠ leNat data :=
  ⟨[1, 0, 0, 0, 0, 0], 1, rfl, by
    have := C27_load48_little_endian [] [1, 0, 0, 0, 0, 0] [] rfl 1
    simp only [List.nil_append, List.append_nil, List.length_nil] at this
    rw [this]
    intro v hv
    rw [← Res.ok.inj hv]
    decide⟩

/-- C27. `libhmac_byte_stream_copy_to_1x_uint64_little_endian` assigns (`=`) at byte 3: the upper four bytes are dropped. -/
theorem C27_load1x64_little_endian (pre data post : List Byte) (hd : data.length = 8) (v0 : BitVec 64) :
    ∃ v, runLoad ld1x64le (pre ++ data ++ post) pre.length v0 = .ok v ∧ v.toNat = leNat (data.take 4) := by
  have hl : ∀ i, i < 8 → pre.length + i < (pre ++ data ++ post).length := fun i hi => by simp [hd]; omega
  have e : ld1x64le = (canonProg [7, 6, 5, 4] ++ [.shl8]) ++ canonProg (List.range 4).reverse := rfl
  obtain ⟨v1, h1⟩ : ∃ v1, runLoad (w := 64) (canonProg [7, 6, 5, 4] ++ [.shl8]) (pre ++ data ++ post) pre.length v0 = .ok v1 := by
    have := runLoad_canon (w := 64) (pre ++ data ++ post) pre.length [7, 6, 5, 4] (by simp) v0
      (by intro i hi; simp only [List.mem_cons, List.not_mem_nil, or_false] at hi; exact hl i (by omega))
    rw [runLoad] at this ⊢
    rw [runTable_append, this]
    exact ⟨_, rfl⟩
  have h2 := runLoad_le (w := 64) (n := 4) rfl (by decide) (pre ++ data ++ post) pre.length v1 (by simp [hd]; omega)
  refine ⟨BitVec.ofNat 64 (leNat (data.take 4)), ?_, ?_⟩
  · rw [runLoad] at h1 h2 ⊢
    rw [e, runTable_append, h1, Res.ok_bind, h2, List.append_assoc, List.drop_left' rfl, List.take_append_of_le_length (by omega)]
  · have := leNat_lt (data.take 4)
    rw [List.length_take, Nat.min_eq_left (by omega)] at this
    rw [BitVec.toNat_ofNat, Nat.mod_eq_of_lt (by omega)]

example : ∃ v, runLoad ld1x64le ([9] ++ [1, 2, 3, 4, 5, 6, 7, 8] ++ []) 1 (0 : BitVec 64) = .ok v ∧ v.toNat = leNat [1, 2, 3, 4] := C27_load1x64_little_endian [9] [1, 2, 3, 4, 5, 6, 7, 8] [] rfl 0

/-- C27, violated: with a non-zero byte among the upper four, the unrolled 64 bit little-endian load is wrong. -/
theorem C27_load1x64_little_endian_wrong (data : List Byte) (hd : data.length = 8) (hne : ∃ b ∈ data.drop 4, b ≠ 0) (v v0 : BitVec 64)
    (h : runLoad ld1x64le data 0 v0 = .ok v) : v.toNat ≠ leNat data := by
  obtain ⟨v', e, hv⟩ := C27_load1x64_little_endian [] data [] hd v0
  simp only [List.nil_append, List.append_nil, List.length_nil] at e
  rw [e] at h
  rw [← Res.ok.inj h, hv]
  match data, hd with
  | [b0, b1, b2, b3, b4, b5, b6, b7], _ =>
    simp only [List.drop_succ_cons, List.drop_zero, List.mem_cons, List.not_mem_nil, or_false] at hne
    have h0 : ∀ b : Byte, b ≠ 0 → b.toNat ≠ 0 := fun b hb h => hb (BitVec.eq_of_toNat_eq h)
    simp only [List.take_succ_cons, List.take_zero, leNat]
    obtain ⟨b, rfl | rfl | rfl | rfl, hb⟩ := hne <;> have := h0 _ hb <;> omega

example : ∃ b ∈ ([0, 0, 0, 0, 0, 0, 0, 1] : List Byte).drop 4, b ≠ 0 := ⟨1, by simp, by decide⟩

/-- C27. A big-endian store writes exactly `n` bytes, whose positional value is the value stored (modulo 2^(8 n)). -/
theorem C27_store_big_endian {w n : Nat} {prog : List (Nat × Nat)} (hp : (n, prog) ∈ storesBe) (hw : 8 * n ≤ w) (pre old post : List Byte)
    (ho : old.length = n) (v : BitVec w) :
    ∃ data, runStore prog (pre ++ old ++ post) pre.length v = .ok (pre ++ data ++ post) ∧ data.length = n ∧ beNat data = v.toNat % 2 ^ (8 * n) := by
  have h : prog = (List.range n).map (fun j => (j, 8 * (n - 1 - j))) ∧ 0 < n := by
    simp only [storesBe, List.mem_cons, Prod.mk.injEq, List.not_mem_nil, or_false] at hp
    rcases hp with ⟨rfl, rfl⟩ | ⟨rfl, rfl⟩ | ⟨rfl, rfl⟩ | ⟨rfl, rfl⟩ | ⟨rfl, rfl⟩ <;> exact ⟨by decide, by decide⟩
  refine ⟨beBytes n v.toNat, ?_, beBytes_length _ _, beNat_beBytes _ _⟩
  rw [runStore_be h.1 _ _ _ (by omega) (by simp [ho]), splice, beBytes_length, List.append_assoc, List.take_left' rfl, ← List.append_assoc pre old post,
    List.drop_left' (by simp [ho]), List.append_assoc]

example : ∃ data, runStore st24be ([9] ++ [0, 0, 0] ++ [7]) 1 (0xABCDEF12 : BitVec 32) = .ok ([9] ++ data ++ [7]) ∧ data.length = 3 ∧ beNat data = 0xABCDEF12 % 2 ^ 24 :=
  C27_store_big_endian (n := 3) (by simp [storesBe]) (by decide) [9] [0, 0, 0] [7] rfl (0xABCDEF12 : BitVec 32)

/-- C27. A little-endian store, as `C27_store_big_endian`. -/
theorem C27_store_little_endian {w n : Nat} {prog : List (Nat × Nat)} (hp : (n, prog) ∈ storesLe) (hw : 8 * n ≤ w) (pre old post : List Byte)
    (ho : old.length = n) (v : BitVec w) :
    ∃ data, runStore prog (pre ++ old ++ post) pre.length v = .ok (pre ++ data ++ post) ∧ data.length = n ∧ leNat data = v.toNat % 2 ^ (8 * n) := by
  have h : prog = (List.range n).map (fun j => (n - 1 - j, 8 * (n - 1 - j))) ∧ 0 < n := by
    simp only [storesLe, List.mem_cons, Prod.mk.injEq, List.not_mem_nil, or_false] at hp
    rcases hp with ⟨rfl, rfl⟩ | ⟨rfl, rfl⟩ | ⟨rfl, rfl⟩ | ⟨rfl, rfl⟩ | ⟨rfl, rfl⟩ <;> exact ⟨by decide, by decide⟩
  refine ⟨leBytes n v.toNat, ?_, leBytes_length _ _, leNat_leBytes _ _⟩
  rw [runStore_le h.1 _ _ _ (by omega) (by simp [ho]), splice, leBytes_length, List.append_assoc, List.take_left' rfl, ← List.append_assoc pre old post,
    List.drop_left' (by simp [ho]), List.append_assoc]

example : (3, st24le) ∈ storesLe ∧ (6, st48be) ∈ storesBe ∧ 8 * 6 ≤ 64 := ⟨by simp [storesLe], by simp [storesBe], by decide⟩

/-- C27. Loading what was stored gives the value back, big-endian. -/
theorem C27_load_store_big_endian {w n : Nat} {ld : List LoadStep} {st : List (Nat × Nat)} (hl : (n, ld) ∈ loadsBe) (hs : (n, st) ∈ storesBe)
    (hw : 8 * n ≤ w) (pre old post : List Byte) (ho : old.length = n) (v v0 : BitVec w) (hv : v.toNat < 2 ^ (8 * n)) :
    ∃ mem, runStore st (pre ++ old ++ post) pre.length v = .ok mem ∧ runLoad ld mem pre.length v0 = .ok v := by
  obtain ⟨data, e, hd, hval⟩ := C27_store_big_endian hs hw pre old post ho v
  obtain ⟨v', e', hv'⟩ := C27_load_big_endian hl hw pre data post hd v0
  refine ⟨_, e, ?_⟩
  rw [e']
  congr 1
  apply BitVec.eq_of_toNat_eq
  rw [hv', hval, Nat.mod_eq_of_lt hv]

example : ∃ mem, runStore st24be ([9] ++ [0, 0, 0] ++ [7]) 1 (0xCDEF12 : BitVec 32) = .ok mem ∧ runLoad ld24be mem 1 5 = .ok (0xCDEF12 : BitVec 32) :=
  C27_load_store_big_endian (n := 3) (by simp [loadsBe]) (by simp [storesBe]) (by decide) [9] [0, 0, 0] [7] rfl (0xCDEF12 : BitVec 32) 5 (by decide)

/-- C27. Loading what was stored gives the value back, little-endian (16, 24, 32, 64 bits). -/
theorem C27_load_store_little_endian_partial {w n : Nat} {ld : List LoadStep} {st : List (Nat × Nat)} (hl : (n, ld) ∈ loadsLe) (hs : (n, st) ∈ storesLe)
    (hw : 8 * n ≤ w) (pre old post : List Byte) (ho : old.length = n) (v v0 : BitVec w) (hv : v.toNat < 2 ^ (8 * n)) :
    ∃ mem, runStore st (pre ++ old ++ post) pre.length v = .ok mem ∧ runLoad ld mem pre.length v0 = .ok v := by
  obtain ⟨data, e, hd, hval⟩ := C27_store_little_endian hs hw pre old post ho v
  obtain ⟨v', e', hv'⟩ := C27_load_little_endian_partial hl hw pre data post hd v0
  refine ⟨_, e, ?_⟩
  rw [e']
  congr 1
  apply BitVec.eq_of_toNat_eq
  rw [hv', hval, Nat.mod_eq_of_lt hv]

example : ∃ mem, runStore st24le ([9] ++ [0, 0, 0] ++ [7]) 1 (0xCDEF12 : BitVec 32) = .ok mem ∧ runLoad ld24le mem 1 5 = .ok (0xCDEF12 : BitVec 32) :=
  C27_load_store_little_endian_partial (n := 3) (by simp [loadsLe]) (by simp [storesLe]) (by decide) [9] [0, 0, 0] [7] rfl (0xCDEF12 : BitVec 32) 5 (by decide)

/-- C27. Storing what was loaded leaves the memory as it was, big-endian. -/
theorem C27_store_load_big_endian {w n : Nat} {ld : List LoadStep} {st : List (Nat × Nat)} (hl : (n, ld) ∈ loadsBe) (hs : (n, st) ∈ storesBe)
    (hw : 8 * n ≤ w) (pre data post : List Byte) (hd : data.length = n) (v0 : BitVec w) :
    ∃ v, runLoad ld (pre ++ data ++ post) pre.length v0 = .ok v ∧ runStore st (pre ++ data ++ post) pre.length v = .ok (pre ++ data ++ post) := by
  obtain ⟨v, e, hv⟩ := C27_load_big_endian hl hw pre data post hd v0
  obtain ⟨d, e', hd', hval⟩ := C27_store_big_endian hs hw pre data post hd v
  have hlt := beNat_lt data
  rw [hd] at hlt
  rw [hv, Nat.mod_eq_of_lt hlt] at hval
  rw [beNat_inj (hd'.trans hd.symm) hval] at e'
  exact ⟨v, e, e'⟩

example : ∃ v, runLoad ld48be ([9] ++ [1, 2, 3, 4, 5, 6] ++ [7]) 1 (0 : BitVec 64) = .ok v ∧ runStore st48be ([9] ++ [1, 2, 3, 4, 5, 6] ++ [7]) 1 v = .ok ([9] ++ [1, 2, 3, 4, 5, 6] ++ [7]) :=
  C27_store_load_big_endian (n := 6) (by simp [loadsBe]) (by simp [storesBe]) (by decide) [9] [1, 2, 3, 4, 5, 6] [7] rfl 0

/-- C27. Storing what was loaded leaves the memory as it was, little-endian (16, 24, 32, 64 bits). -/
theorem C27_store_load_little_endian_partial {w n : Nat} {ld : List LoadStep} {st : List (Nat × Nat)} (hl : (n, ld) ∈ loadsLe) (hs : (n, st) ∈ storesLe)
    (hw : 8 * n ≤ w) (pre data post : List Byte) (hd : data.length = n) (v0 : BitVec w) :
    ∃ v, runLoad ld (pre ++ data ++ post) pre.length v0 = .ok v ∧ runStore st (pre ++ data ++ post) pre.length v = .ok (pre ++ data ++ post) := by
  obtain ⟨v, e, hv⟩ := C27_load_little_endian_partial hl hw pre data post hd v0
  obtain ⟨d, e', hd', hval⟩ := C27_store_little_endian hs hw pre data post hd v
  have hlt := leNat_lt data
  rw [hd] at hlt
  rw [hv, Nat.mod_eq_of_lt hlt] at hval
  have : d = data := by rw [← leBytes_leNat d, ← leBytes_leNat data, hd', hd, hval]
  rw [this] at e'
  exact ⟨v, e, e'⟩

example : (8, ld1x64be) ∈ loadsBe ∧ (8, st64be) ∈ storesBe ∧ (2, ld16le) ∈ loadsLe ∧ (2, st16le) ∈ storesLe :=
  ⟨by simp [loadsBe], by simp [storesBe], by simp [loadsLe], by simp [storesLe]⟩

/-- C28. Rotating left by `n` (1 to width-1) is defined and moves bit `i` to position `i + n` modulo the width. -/
theorem C28_rotate_left {w : Nat} (x : BitVec w) (n : Nat) (h0 : 0 < n) (h1 : n < w) :
    ∃ y, cRotl x n = .ok y ∧ ∀ i, i < w → y.getLsbD ((i + n) % w) = x.getLsbD i := by
  refine ⟨_, cRotl_ok x h0 h1, fun i hi => ?_⟩
  rw [BitVec.getLsbD_rotateLeft, Nat.mod_eq_of_lt h1, cond_eq_ite]
  by_cases h : i + n < w
  · rw [Nat.mod_eq_of_lt h, if_neg (by rw [decide_eq_true_eq]; omega), Nat.add_sub_cancel]
    simp [h]
  · have : (i + n) % w = i + n - w := by
      rw [Nat.mod_eq_sub_mod (by omega), Nat.mod_eq_of_lt (by omega)]
    rw [this, if_pos (by rw [decide_eq_true_eq]; omega)]
    congr 1; omega

example : ∃ y, cRotl (0x80000001 : BitVec 32) 5 = .ok y ∧ ∀ i, i < 32 → y.getLsbD ((i + 5) % 32) = (0x80000001 : BitVec 32).getLsbD i := C28_rotate_left _ 5 (by decide) (by decide)

/-- C28. Rotating right by `n` (1 to width-1) is defined and moves bit `i + n` modulo the width to position `i`. -/
theorem C28_rotate_right {w : Nat} (x : BitVec w) (n : Nat) (h0 : 0 < n) (h1 : n < w) :
    ∃ y, cRotr x n = .ok y ∧ ∀ i, i < w → y.getLsbD i = x.getLsbD ((i + n) % w) := by
  refine ⟨_, cRotr_ok x h0 h1, fun i hi => ?_⟩
  rw [BitVec.getLsbD_rotateRight, Nat.mod_eq_of_lt h1, cond_eq_ite]
  by_cases h : i + n < w
  · rw [Nat.mod_eq_of_lt h, if_pos (by rw [decide_eq_true_eq]; omega)]
    congr 1; omega
  · have : (i + n) % w = i + n - w := by
      rw [Nat.mod_eq_sub_mod (by omega), Nat.mod_eq_of_lt (by omega)]
    rw [this, if_neg (by rw [decide_eq_true_eq]; omega)]
    simp only [hi, decide_true, Bool.true_and]
    congr 1; omega

example : ∃ y, cRotr (0x80000001 : BitVec 64) 14 = .ok y ∧ ∀ i, i < 64 → y.getLsbD i = (0x80000001 : BitVec 64).getLsbD ((i + 14) % 64) := C28_rotate_right _ 14 (by decide) (by decide)

/-- C28. Rotating left and then right by the same amount is the identity, and the other way round. -/
theorem C28_rotate_inverse {w : Nat} (x : BitVec w) (n : Nat) (h0 : 0 < n) (h1 : n < w) :
    (cRotl x n >>= fun y => cRotr y n) = .ok x ∧ (cRotr x n >>= fun y => cRotl y n) = .ok x := by
  constructor
  · obtain ⟨y, e, hy⟩ := C28_rotate_left x n h0 h1
    obtain ⟨z, e', hz⟩ := C28_rotate_right y n h0 h1
    rw [e, Res.ok_bind, e']
    congr 1
    apply BitVec.eq_of_getLsbD_eq
    intro i hi
    rw [hz i hi, hy i hi]
  · obtain ⟨y, e, hy⟩ := C28_rotate_right x n h0 h1
    obtain ⟨z, e', hz⟩ := C28_rotate_left y n h0 h1
    rw [e, Res.ok_bind, e']
    congr 1
    apply BitVec.eq_of_getLsbD_eq
    intro i hi
    have h2 : (i + (w - n)) % w < w := Nat.mod_lt _ (by omega)
    have h3 : ((i + (w - n)) % w + n) % w = i := by
      rw [Nat.mod_add_mod, show i + (w - n) + n = i + w by omega, Nat.add_mod_right, Nat.mod_eq_of_lt hi]
    have := hz _ h2
    rw [h3, hy _ h2, h3] at this
    exact this

example (x : BitVec 32) : (cRotl x 7 >>= fun y => cRotr y 7) = .ok x := (C28_rotate_inverse x 7 (by decide) (by decide)).1

/-- C28. For any other amount a rotate macro shifts by the full width or more, which C leaves undefined: 1 to width-1 are exactly the amounts
that may be used. -/
theorem C28_rotate_undefined {w : Nat} (x : BitVec w) (n : Nat) : (cRotl x n = .ub ↔ n = 0 ∨ w ≤ n) ∧ (cRotr x n = .ub ↔ n = 0 ∨ w ≤ n) := by
  constructor <;> (first | unfold cRotl | unfold cRotr) <;> split <;> simp only [reduceCtorEq, false_iff, true_iff] <;> omega

/-- The rotation amounts of a SHA-2 transform: message schedule, unrolled rounds, loop rounds. -/
def amounts {w} (P : Sha2P w) : List Nat :=
  [P.ext0.1, P.ext0.2.1, P.ext1.1, P.ext1.2.1, P.macroS0.1, P.macroS0.2.1, P.macroS0.2.2, P.macroS1.1, P.macroS1.2.1, P.macroS1.2.2,
   P.loopS0.1, P.loopS0.2.1, P.loopS0.2.2, P.loopS1.1, P.loopS1.2.1, P.loopS1.2.2]

/-- C28. All amounts taken from tables and parameters are in range: the MD5 rounds and the SHA-2 functions. (SHA-1 uses the constants 1, 5
and 30.) -/
theorem C28_amounts_in_range : (∀ s ∈ md5Shifts, 0 < s ∧ s < 32) ∧ (∀ a ∈ amounts sha224P, 0 < a ∧ a < 32) ∧ (∀ a ∈ amounts sha256P, 0 < a ∧ a < 32) ∧
    (∀ a ∈ amounts sha512P, 0 < a ∧ a < 64) := by
  refine ⟨by decide, by decide, by decide, by decide⟩

example : 0 < 13 ∧ 13 < 32 := by decide

end Props
