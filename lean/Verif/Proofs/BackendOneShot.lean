import Verif.Model.BackendOneShot
import Verif.Proofs.Backend
import Verif.Proofs.OneShot
/-! The one-shot functions in the builds with a crypto library. -/

set_option linter.unusedSimpArgs false

namespace Model

open Spec

/-- The library writes the digest area of the output only. -/
def Tame (L : Library) (hs : Nat) : Prop := ∀ n st o, hs ≤ o.length → ∃ d, d.length = hs ∧ (L.final n st o).2.2 = d ++ o.drop hs

/-- A library that meets its contract. -/
def Sound (L : Library) (k : Kind) : Prop := ∃ Rep, Contract L k Rep

/-- By its contract the state stands for the message. -/
def Says (L : Library) (k : Kind) (st : L.State) (m : List Byte) : Prop := ∀ Rep, Contract L k Rep → Rep st m

theorem std_digest_length (k : Kind) (m : List Byte) : (k.std.digest m).length = k.hashSize := by
  obtain ⟨enc, hL⟩ := lawful k
  have h : ∀ bs, (k.len64.output (k.len64.chain k.len64.iv bs)).length = k.hashSize := fun bs => by
    rw [← algOf_hashSize]
    exact hL.outLen _ (by rw [algOf_nHash]; exact chain_length_words k _ _ (iv_length k))
  have e1 : k.std.output = k.len64.output := by cases k <;> rfl
  have e2 : k.std.compress = k.len64.compress := by cases k <;> rfl
  unfold IterHash.digest IterHash.digestFrom
  rw [e1, std_iv]
  unfold IterHash.chain
  rw [e2]
  exact h _

theorem std_length (k : Kind) {m : List Byte} (_ : m.length < 2 ^ 61) : (k.std.digest m).length = k.hashSize := std_digest_length k m

variable {B : Backend} {L : Library} {k : Kind}

theorem oInitialize_ok (k : Kind) (B : Backend) (L : Library) (env : OEnv) (s : OSt L.State) :
    ∃ r slot c, oInitialize B L env none s = .ok (r, slot, { s with ctxs := c }) ∧ c.count = s.ctxs.count + 1 ∧
      (r = 1 ∧ env.allocOk s.ctxs.count = true ∧ (∃ p st, slot = some p ∧ Holds B s.ctxs.live p st c.live ∧ Says L k st []) ∨
        r = -1 ∧ slot = none ∧ c.live = s.ctxs.live ∧ (env.allocOk s.ctxs.count = false ∨ ¬ Reliable L)) := by
  obtain ⟨r, slot, c, e, hc, h⟩ := bInitialize_ok B L env.allocOk s.ctxs
  refine ⟨r, slot, c, by simp only [oInitialize, e, Res.ok_bind, Res.pure_eq], hc, ?_⟩
  rcases h with ⟨h1, h2, p, st, n, h3, h4, h5⟩ | h
  · exact .inl ⟨h1, h2, p, st, h3, h5, fun Rep hR => hR.init n st h4⟩
  · exact .inr h

theorem oUpdate_ok {base : List (Nat × BObj L.State)} {p : Nat} {st : L.State} {s : OSt L.State} (k : Kind) (h : Holds B base p st s.ctxs.live) (buf : Option (List Byte)) (size : Nat)
    (hv : (ApiCall.update buf size).Valid) :
    ∃ r c st', oUpdate B L (some p) buf size s = .ok (r, { s with ctxs := c }) ∧ c.count = s.ctxs.count ∧ Holds B base p st' c.live ∧
      (r = 1 ∧ (∃ b, buf = some b ∧ size ≤ B.maxUpdate ∧ ∀ m, (m ++ b.take size).length < 2 ^ 61 → Says L k st m → Says L k st' (m ++ b.take size)) ∨
        r = -1 ∧ (buf = none ∨ B.maxUpdate < size ∨ ¬ Reliable L)) := by
  obtain ⟨r, c, st', e, hc, hH, h⟩ := bUpdate_ok h buf size hv
  refine ⟨r, c, st', by simp only [oUpdate, e, Res.ok_bind, Res.pure_eq], hc, hH, ?_⟩
  rcases h with ⟨rfl, -, h | h⟩ | ⟨b, rfl, rfl, rfl, rfl⟩ | ⟨b, n, rfl, h0, hm, rfl, rfl⟩
  · exact .inr ⟨rfl, .inl h⟩
  · exact .inr ⟨rfl, .inr (.inl h)⟩
  · exact .inl ⟨rfl, b, rfl, Nat.zero_le _, fun m _ hs => by simpa using hs⟩
  · cases hb : (L.update n st (b.take size)).1 with
    | true => exact .inl ⟨by simp, b, rfl, hm, fun m hl hs Rep hR => hR.update n st m _ (hs Rep hR) hl hb⟩
    | false => exact .inr ⟨by simp, .inr (.inr fun hr => by simp [hr.update n st _] at hb)⟩

theorem oFinalize_ok {base : List (Nat × BObj L.State)} {p : Nat} {st : L.State} {s : OSt L.State} (k : Kind) (hT : Tame L k.hashSize) (h : Holds B base p st s.ctxs.live) (out : Option (List Byte)) (size : Nat)
    (hv : ∀ o, out = some o → size ≤ ssizeMax → size ≤ o.length) :
    ∃ r out' c st', oFinalize B L k.hashSize (some p) out size s = .ok (r, out', { s with ctxs := c }) ∧ c.count = s.ctxs.count ∧ Holds B base p st' c.live ∧
      (out' = out ∨ ∃ o d, out = some o ∧ k.hashSize ≤ size ∧ size ≤ B.maxOutput ∧ d.length = k.hashSize ∧ out' = some (d ++ o.drop k.hashSize)) ∧
      (r = 1 ∧ (∃ o, out = some o ∧ k.hashSize ≤ size ∧ size ≤ B.maxOutput ∧ ∀ m, m.length < 2 ^ 61 → Says L k st m → Sound L k → out' = some (k.std.digest m ++ o.drop k.hashSize)) ∨
        r = -1 ∧ (out' = out ∨ ¬ Reliable L) ∧ (out = none ∨ B.maxOutput < size ∨ size < k.hashSize ∨ ¬ Reliable L)) := by
  obtain ⟨r, out', c, st', e, hc, hH, h⟩ := bFinalize_ok h k.hashSize out size
  refine ⟨r, out', c, st', by simp only [oFinalize, e, Res.ok_bind, Res.pure_eq], hc, hH, ?_⟩
  rcases h with ⟨rfl, -, rfl, h⟩ | ⟨o, n, rfl, h1, h2, rfl, rfl⟩
  · refine ⟨.inl rfl, .inr ⟨rfl, .inl rfl, ?_⟩⟩
    rcases h with h | h | h
    · exact .inl h
    · exact .inr (.inl h)
    · exact .inr (.inr (.inl h))
  · have hl : size ≤ o.length := hv o rfl (Nat.le_trans h2 (maxOutput_le B))
    obtain ⟨d, hd, ed⟩ := hT n st o (by omega)
    refine ⟨.inr ⟨o, d, rfl, h1, h2, hd, by rw [ed]⟩, ?_⟩
    cases hb : (L.final n st o).1 with
    | true => exact .inl ⟨by simp, o, rfl, h1, h2, fun m hm hs ⟨Rep, hR⟩ => by rw [hR.final n st m o (hs Rep hR) hm (by omega) hb]⟩
    | false =>
      have hr : ¬ Reliable L := fun hr => by simp [hr.final n st o] at hb
      exact .inr ⟨by simp, .inr hr, .inr (.inr (.inr hr))⟩

theorem oFree_ok {base : List (Nat × BObj L.State)} {p : Nat} {st : L.State} {s : OSt L.State} (h : Holds B base p st s.ctxs.live) :
    ∃ c, oFree B L (some p) s = .ok (1, none, { s with ctxs := c }) ∧ c.count = s.ctxs.count ∧ c.live = base := by
  obtain ⟨c, e, h1, h2⟩ := bFree_ok h
  exact ⟨c, by simp only [oFree, e, Res.ok_bind, Res.pure_eq], h1, h2⟩

theorem oFreeOpt_ok {base : List (Nat × BObj L.State)} {slot : Option Nat} {s : OSt L.State} (h : SlotInv B base (fun _ => True) slot s.ctxs) :
    ∃ c, oFreeOpt B L slot s = .ok { s with ctxs := c } ∧ c.count = s.ctxs.count ∧ c.live = base := by
  cases slot with
  | none => exact ⟨s.ctxs, rfl, rfl, h⟩
  | some p =>
    obtain ⟨st, h, -⟩ := h
    obtain ⟨c, e, h1, h2⟩ := oFree_ok h
    exact ⟨c, by simp only [oFreeOpt, e, Res.ok_bind, Res.pure_eq], h1, h2⟩

theorem region_valid {mem : List Byte} {p : Option Nat} {n : Nat} (h : AreaOk mem p n) : (ApiCall.update (p.map fun o => (mem.drop o).take n) n).Valid := by
  cases p with
  | none => trivial
  | some o => exact fun hn => by rw [show ((mem.drop o).take n).length = n from slice_length (h o rfl hn)]

/-- What a finalize may do to the caller's memory. -/
def Touched (B : Backend) (k : Kind) (out : Option Nat) (size : Nat) (mem mem' : List Byte) : Prop :=
  mem' = mem ∨ ∃ o d, out = some o ∧ k.hashSize ≤ size ∧ size ≤ B.maxOutput ∧ d.length = k.hashSize ∧ mem' = overwrite mem o d

theorem Touched.length {out : Option Nat} {size : Nat} {mem mem' : List Byte} (h : Touched B k out size mem mem') (ha : AreaOk mem out size) : mem'.length = mem.length := by
  rcases h with rfl | ⟨o, d, h1, h2, h3, h4, rfl⟩
  · rfl
  · have := ha o h1 (Nat.le_trans h3 (maxOutput_le B))
    exact overwrite_length (by omega)

theorem Touched.trans {out : Option Nat} {size : Nat} {a b c : List Byte} (h : Touched B k out size a b) (h' : Touched B k out size b c) (ha : AreaOk a out size) : Touched B k out size a c := by
  rcases h with rfl | ⟨o, d, h1, h2, h3, h4, rfl⟩
  · exact h'
  · rcases h' with rfl | ⟨o', d', h1', -, -, h4', rfl⟩
    · exact .inr ⟨o, d, h1, h2, h3, h4, rfl⟩
    · obtain rfl : o = o' := by simpa [h1] using h1'
      have := ha o h1 (Nat.le_trans h3 (maxOutput_le B))
      exact .inr ⟨o, d', h1, h2, h3, h4', overwrite_overwrite (by omega) (by omega)⟩

/-- Finalize with an output area in the caller's memory. -/
theorem oFinalize_region {base : List (Nat × BObj L.State)} {p : Nat} {st : L.State} {s : OSt L.State} (k : Kind) (hT : Tame L k.hashSize) (h : Holds B base p st s.ctxs.live) (out : Option Nat) (size : Nat)
    (ha : AreaOk s.caller out size) :
    ∃ r out' c st' mem, oFinalize B L k.hashSize (some p) (oRegion s out size) size s = .ok (r, out', { s with ctxs := c }) ∧ c.count = s.ctxs.count ∧ Holds B base p st' c.live ∧
      oSetRegion { s with ctxs := c } out out' = { s with ctxs := c, caller := mem } ∧ Touched B k out size s.caller mem ∧
      (r = 1 ∧ (∃ o, out = some o ∧ k.hashSize ≤ size ∧ size ≤ B.maxOutput ∧ ∀ m, m.length < 2 ^ 61 → Says L k st m → Sound L k → mem = overwrite s.caller o (k.std.digest m)) ∨
        r = -1 ∧ (mem = s.caller ∨ ¬ Reliable L) ∧ (out = none ∨ B.maxOutput < size ∨ size < k.hashSize ∨ ¬ Reliable L)) := by
  obtain ⟨r, out', c, st', e, hc, hH, h1, h2⟩ := oFinalize_ok (B := B) k hT h (oRegion s out size) size (by
    intro o ho hn
    cases out with
    | none => cases ho
    | some i =>
      obtain rfl := Option.some.inj ho
      rw [show ((s.caller.drop i).take size).length = size from slice_length (ha i rfl hn)])
  cases out with
  | none =>
    refine ⟨r, out', c, st', s.caller, e, hc, hH, rfl, .inl rfl, ?_⟩
    rcases h2 with ⟨-, o, ho, -⟩ | ⟨h2, -⟩
    · cases ho
    · exact .inr ⟨h2, .inl rfl, .inl rfl⟩
  | some i =>
    have hreg : oRegion s (some i) size = some (slice s.caller i size) := rfl
    rw [hreg] at h1 h2
    obtain ⟨x, rfl⟩ : ∃ x, out' = some x := by
      rcases h1 with h1 | ⟨o, d, -, -, -, -, h1⟩ <;> exact ⟨_, h1⟩
    refine ⟨r, some x, c, st', overwrite s.caller i x, e, hc, hH, rfl, ?_, ?_⟩
    · rcases h1 with h1 | ⟨o, d, h1, h3, h4, h5, h6⟩
      · obtain rfl := Option.some.inj h1
        exact .inl (overwrite_slice _ _ _)
      · obtain rfl := Option.some.inj h1
        obtain rfl := Option.some.inj h6
        refine .inr ⟨i, d, rfl, h3, h4, h5, overwrite_digest d h5 h3 (ha i rfl (Nat.le_trans h4 (maxOutput_le B)))⟩
    · rcases h2 with ⟨h2, o, ho, h3, h4, h5⟩ | ⟨h2, h6, h3⟩
      · obtain rfl := Option.some.inj ho
        refine .inl ⟨h2, i, rfl, h3, h4, fun m hm hs hS => ?_⟩
        rw [Option.some.inj (h5 m hm hs hS)]
        exact overwrite_digest _ (std_length k hm) h3 (ha i rfl (Nat.le_trans h4 (maxOutput_le B)))
      · refine .inr ⟨h2, ?_, ?_⟩
        · rcases h6 with h6 | h6
          · rw [Option.some.inj h6]
            exact .inl (overwrite_slice _ _ _)
          · exact .inr h6
        · rcases h3 with h3 | h3
          · cases h3
          · exact .inr h3

/-- `calculate`: no undefined behaviour, nothing is kept, and the digest. -/
theorem oCalculate_ok (k : Kind) (hT : Tame L k.hashSize) (B : Backend) (env : OEnv) (buffer : Option Nat) (size : Nat) (hash : Option Nat) (n : Nat) (s : OSt L.State)
    (hb : AreaOk s.caller buffer size) (hh : AreaOk s.caller hash n) :
    ∃ r c mem, oCalculate B L k.hashSize env buffer size hash n s = .ok (r, { s with ctxs := c, caller := mem }) ∧ c.live = s.ctxs.live ∧ c.count = s.ctxs.count + 1 ∧ Touched B k hash n s.caller mem ∧
      (r = 1 ∧ env.allocOk s.ctxs.count = true ∧ (∃ i o, buffer = some i ∧ hash = some o ∧ size ≤ B.maxUpdate ∧ k.hashSize ≤ n ∧ n ≤ B.maxOutput ∧
          (Sound L k → size < 2 ^ 61 → mem = overwrite s.caller o (k.std.digest (slice s.caller i size)))) ∨
        r = -1 ∧ (mem = s.caller ∨ ¬ Reliable L) ∧ (env.allocOk s.ctxs.count = false ∨ ¬ Reliable L ∨ buffer = none ∨ B.maxUpdate < size ∨ hash = none ∨ B.maxOutput < n ∨ n < k.hashSize)) := by
  unfold oCalculate
  obtain ⟨r1, slot, c1, e1, n1, ⟨rfl, ha, p, st1, rfl, H1, S1⟩ | ⟨rfl, rfl, h1, h2⟩⟩ := oInitialize_ok k B L env s
  · rw [e1, Res.ok_bind]
    simp only [ne_eq, not_true_eq_false, if_false]
    obtain ⟨r2, c2, st2, e2, n2, H2, h2⟩ := oUpdate_ok (B := B) (s := { s with ctxs := c1 }) k H1 (oRegion { s with ctxs := c1 } buffer size) size (region_valid hb)
    rw [e2, Res.ok_bind]
    rcases h2 with ⟨rfl, b, h3, h4, h5⟩ | ⟨rfl, h3⟩
    · simp only [ne_eq, not_true_eq_false, if_false]
      cases buffer with
      | none => cases h3
      | some i =>
        obtain rfl := Option.some.inj h3
        obtain ⟨r3, out, c3, st3, mem, e3, n3, H3, hset, ht, h6⟩ := oFinalize_region (B := B) (s := { s with ctxs := c2 }) k hT H2 hash n hh
        rw [e3, Res.ok_bind]
        simp only
        rw [hset]
        obtain ⟨c4, e4, n4, l4⟩ := oFree_ok (s := { s with ctxs := c3, caller := mem }) H3
        simp only at n2 n3 n4 hset
        rcases h6 with ⟨rfl, o, h7, h8, h9, h10⟩ | ⟨rfl, h7', h7⟩
        · simp only [ne_eq, not_true_eq_false, if_false]
          rw [e4, Res.ok_bind]
          refine ⟨1, c4, mem, rfl, l4, by omega, ht, .inl ⟨rfl, ha, i, o, rfl, h7, h4, h8, h9, fun hS hlt => ?_⟩⟩
          have hi : i + size ≤ s.caller.length := hb i rfl (Nat.le_trans h4 (maxUpdate_le B))
          have hsl : List.take size (List.take size (List.drop i s.caller)) = slice s.caller i size := by simp [slice, List.take_take]
          have := h5 [] (by simp only [List.nil_append, hsl, slice_length hi]; exact hlt) S1
          simp only [List.nil_append, hsl] at this
          exact h10 _ (by rw [slice_length hi]; exact hlt) this hS
        · refine ⟨-1, c4, mem, ?_, l4, by omega, ht, .inr ⟨rfl, h7', ?_⟩⟩
          · simp only [show ((-1 : Int) = 1) = False from by simp, not_false_eq_true, ne_eq, if_true, oCalculateError, oFreeOpt, e4, Res.ok_bind, Res.pure_eq]
          · tauto
    · obtain ⟨c4, e4, n4, l4⟩ := oFree_ok (s := { s with ctxs := c2 }) H2
      simp only at n2 n4
      refine ⟨-1, c4, s.caller, ?_, l4, by omega, .inl rfl, .inr ⟨rfl, .inl rfl, ?_⟩⟩
      · simp only [show ((-1 : Int) = 1) = False from by simp, not_false_eq_true, ne_eq, if_true, oCalculateError, oFreeOpt, e4, Res.ok_bind, Res.pure_eq]
      · rcases h3 with h3 | h3 | h3
        · cases buffer with
          | none => tauto
          | some i => cases h3
        · tauto
        · tauto
  · rw [e1, Res.ok_bind]
    refine ⟨-1, c1, s.caller, rfl, h1, n1, .inl rfl, .inr ⟨rfl, .inl rfl, ?_⟩⟩
    tauto

/-- A pointer variable and the byte array it points to. -/
def optBlock (p : Option Nat) (d : List Byte) : List (Nat × List Byte) :=
  match p with
  | none => []
  | some p => [(p, d)]

theorem oAlloc_ok {σ : Type} (env : OEnv) (n : Nat) (s : OSt σ) (h : env.allocOk s.ctxs.count = true) :
    ∃ d, d.length = n ∧ oAlloc env n s = (some s.ctxs.count, { s with ctxs := { s.ctxs with count := s.ctxs.count + 1 }, blocks := (s.ctxs.count, d) :: s.blocks }) :=
  ⟨(List.range n).map (env.junkByte s.ctxs.count), by simp, by simp [oAlloc, h]⟩

theorem oAlloc_fail {σ : Type} (env : OEnv) (n : Nat) (s : OSt σ) (h : env.allocOk s.ctxs.count = false) :
    oAlloc env n s = (none, { s with ctxs := { s.ctxs with count := s.ctxs.count + 1 } }) := by simp [oAlloc, h]

/-- The number of allocations for the key. -/
def keyAllocs (k : Kind) (keySize : Nat) : Nat := if keySize ≤ k.blockSize then 1 else 2

theorem block_facts (k : Kind) : k.hashSize ≤ k.blockSize ∧ k.blockSize ≤ 128 ∧ k.hashSize < k.blockSize := by cases k <;> decide

theorem maxOutput_ge (B : Backend) : 128 ≤ B.maxOutput := by
  cases B with
  | direct b => show 128 ≤ ssizeMax; decide
  | _ => decide

theorem maxUpdate_ge (B : Backend) : 128 ≤ B.maxUpdate := by
  cases B with
  | direct b => cases b <;> decide
  | _ => show 128 ≤ ssizeMax; decide

theorem fill_key {bs hs : Nat} (d h : List Byte) (hd : d.length = bs) (hh : h.length = hs) (hlt : hs < bs) (hb : bs ≤ 128) :
    (do let x ← memSet d hs 0 (szSub bs hs); memCopy x 0 h 0 hs) = Res.ok (h ++ List.replicate (bs - hs) 0) := by
  rw [szSub_eq (by omega) (by omega), memSet_ok _ (by omega), Res.ok_bind, memCopy_ok (by simp; omega) (by omega)]
  congr 1
  have : (List.take hs d ++ (List.replicate (bs - hs) (0 : Byte) ++ List.drop (hs + (bs - hs)) d)).drop (0 + hs) = List.replicate (bs - hs) 0 := by
    rw [Nat.zero_add, List.drop_left' (by simp; omega), List.drop_eq_nil_of_le (by omega), List.append_nil]
  rw [this]
  simp [List.take_of_length_le (Nat.le_of_eq hh)]

theorem oKey_ok (k : Kind) (hT : Tame L k.hashSize) (B : Backend) (env : OEnv) (key keySize : Nat) (kh : List Byte) (hkh : kh.length = k.hashSize) (s : OSt L.State) (hb : key + keySize ≤ s.caller.length) :
    ∃ ok l' c bl, oKey B L k.hashSize k.blockSize env (some key) keySize ⟨none, none, none, none, kh⟩ s = .ok (ok, l', { s with ctxs := c, blocks := bl }) ∧ l'.inner = none ∧ l'.outer = none ∧
      (ok = true ∧ (∃ kd, bl = (s.ctxs.count, kd) :: s.blocks ∧ kd.length = k.blockSize ∧ l'.context = none ∧ l'.keyData = some s.ctxs.count ∧ c.live = s.ctxs.live ∧ c.count = s.ctxs.count + keyAllocs k keySize ∧
          (k.blockSize < keySize → keySize ≤ B.maxUpdate) ∧ (∀ j < keyAllocs k keySize, env.allocOk (s.ctxs.count + j) = true) ∧
          (Sound L k → keySize < 2 ^ 61 → kd = paddedKey k.blockSize k.std.digest (slice s.caller key keySize))) ∨
        ok = false ∧ (∃ d, bl = optBlock l'.keyData d ++ s.blocks ∧ d.length = k.blockSize ∧ SlotInv B s.ctxs.live (fun _ => True) l'.context c ∧
          ((∃ j < keyAllocs k keySize, env.allocOk (s.ctxs.count + j) = false) ∨ ¬ Reliable L ∨ (k.blockSize < keySize ∧ B.maxUpdate < keySize)))) := by
  obtain ⟨hk1, hk2, hk3⟩ := block_facts k
  have hl := slice_length hb
  unfold oKey
  by_cases ha : env.allocOk s.ctxs.count = true
  · obtain ⟨d, hd, e⟩ := oAlloc_ok env k.blockSize s ha
    rw [e]
    simp only
    by_cases hk : keySize ≤ k.blockSize
    · have hkA : keyAllocs k keySize = 1 := if_pos hk
      have hreg : oRegion ({ s with ctxs := { s.ctxs with count := s.ctxs.count + 1 }, blocks := (s.ctxs.count, d) :: s.blocks } : OSt L.State) (some key) keySize = some (slice s.caller key keySize) := rfl
      simp only [if_pos hk]
      rw [hreg]
      simp only [oLoad, getKey, if_true, Res.ok_bind]
      rw [memCopy_ok (by omega) (by omega), Res.ok_bind, szSub_eq hk (by omega), memSet_ok _ (by simp; omega), Res.ok_bind]
      simp only [oStore, setKey, if_true, Res.ok_bind, Res.pure_eq]
      have e1 : List.take 0 d ++ (List.take keySize (List.drop 0 (slice s.caller key keySize)) ++ List.drop (0 + keySize) d) = slice s.caller key keySize ++ d.drop keySize := by
        simp [List.take_of_length_le (Nat.le_of_eq hl)]
      rw [e1, List.take_left' hl, Nat.add_sub_cancel' hk, List.drop_eq_nil_of_le (by simp; omega), List.append_nil]
      refine ⟨true, _, { s.ctxs with count := s.ctxs.count + 1 }, _, rfl, rfl, rfl, .inl ⟨rfl, _, rfl, ?_, rfl, rfl, rfl, by rw [hkA], fun h => absurd hk (by omega), ?_, fun _ _ => ?_⟩⟩
      · simp only [List.length_append, hl, List.length_replicate]; omega
      · intro j hj
        obtain rfl : j = 0 := by omega
        exact ha
      · simp only [paddedKey, hl, if_pos hk]
    · have hkA : keyAllocs k keySize = 2 := if_neg hk
      simp only [if_neg hk]
      obtain ⟨r1, slot, c1, e1, n1, h1⟩ := oInitialize_ok k B L env { s with ctxs := { s.ctxs with count := s.ctxs.count + 1 }, blocks := (s.ctxs.count, d) :: s.blocks }
      rw [e1, Res.ok_bind]
      simp only at n1
      rcases h1 with ⟨rfl, ha1, p, st1, rfl, H1, S1⟩ | ⟨rfl, rfl, h1, h2⟩
      · simp only [ne_eq, not_true_eq_false, if_false]
        have harea : AreaOk s.caller (some key) keySize := by
          rintro _ ⟨⟩ -
          exact hb
        obtain ⟨r2, c2, st2, e2, n2, H2, h2⟩ := oUpdate_ok (B := B) (s := { s with ctxs := c1, blocks := (s.ctxs.count, d) :: s.blocks }) k H1 (some (slice s.caller key keySize)) keySize (region_valid harea)
        have hreg : oRegion ({ s with ctxs := c1, blocks := (s.ctxs.count, d) :: s.blocks } : OSt L.State) (some key) keySize = some (slice s.caller key keySize) := rfl
        simp only [hreg]
        rw [e2, Res.ok_bind]
        rcases h2 with ⟨rfl, b, h3, h4, h5⟩ | ⟨rfl, h3⟩
        · simp only [ne_eq, not_true_eq_false, if_false]
          obtain rfl := Option.some.inj h3
          obtain ⟨r3, out, c3, st3, e3, n3, H3, h6, h7⟩ := oFinalize_ok (B := B) (s := { s with ctxs := c2, blocks := (s.ctxs.count, d) :: s.blocks }) k hT H2 (some kh) k.hashSize (by
            intro o ho _
            obtain rfl := Option.some.inj ho
            omega)
          rw [e3, Res.ok_bind]
          obtain ⟨h, rfl, hh⟩ : ∃ h, out = some h ∧ h.length = k.hashSize := by
            rcases h6 with rfl | ⟨o, d', h6, -, -, h8, rfl⟩
            · exact ⟨kh, rfl, hkh⟩
            · obtain rfl := Option.some.inj h6
              exact ⟨_, rfl, by simp; omega⟩
          rcases h7 with ⟨rfl, o, h8, -, -, h9⟩ | ⟨rfl, -, h8⟩
          · obtain rfl := Option.some.inj h8
            simp only [ne_eq, not_true_eq_false, if_false]
            obtain ⟨c4, e4, n4, l4⟩ := oFree_ok (s := { s with ctxs := c3, blocks := (s.ctxs.count, d) :: s.blocks }) H3
            rw [e4, Res.ok_bind]
            simp only [not_true_eq_false, if_false, oLoad, getKey, if_true, Res.ok_bind]
            rw [if_pos hk3]
            have hf := fill_key d h hd hh hk3 hk2
            rw [szSub_eq hk1 (by omega), memSet_ok _ (by omega), Res.ok_bind] at hf
            rw [szSub_eq hk1 (by omega), memSet_ok _ (by omega), Res.ok_bind, hf]
            simp only [oStore, setKey, if_true, Res.ok_bind, Res.pure_eq]
            simp only at n2 n3 n4
            refine ⟨true, _, c4, _, rfl, rfl, rfl, .inl ⟨rfl, _, rfl, ?_, rfl, rfl, l4, by omega, fun _ => h4, ?_, fun hS hlt => ?_⟩⟩
            · simp only [List.length_append, hh, List.length_replicate]; omega
            · intro j hj
              obtain rfl | rfl : j = 0 ∨ j = 1 := by omega
              · exact ha
              · exact ha1
            · have ht : List.take keySize (slice s.caller key keySize) = slice s.caller key keySize := List.take_of_length_le (Nat.le_of_eq hl)
              have hS2 := h5 [] (by rw [ht]; simpa [hl] using hlt) S1
              rw [ht, List.nil_append] at hS2
              have := Option.some.inj (h9 _ (by rw [hl]; exact hlt) hS2 hS)
              rw [List.drop_eq_nil_of_le (by omega), List.append_nil] at this
              subst this
              simp only [paddedKey, hl, if_neg hk, hh]
          · refine ⟨false, _, c3, _, rfl, rfl, rfl, .inr ⟨rfl, d, rfl, hd, ⟨st3, H3, trivial⟩, ?_⟩⟩
            have := maxOutput_ge B
            rcases h8 with h8 | h8 | h8 | h8
            · cases h8
            · omega
            · omega
            · exact .inr (.inl h8)
        · refine ⟨false, _, c2, _, rfl, rfl, rfl, .inr ⟨rfl, d, rfl, hd, ⟨st2, H2, trivial⟩, ?_⟩⟩
          rcases h3 with h3 | h3 | h3
          · cases h3
          · exact .inr (.inr ⟨by omega, h3⟩)
          · exact .inr (.inl h3)
      · refine ⟨false, _, c1, _, rfl, rfl, rfl, .inr ⟨rfl, d, rfl, hd, h1, ?_⟩⟩
        rcases h2 with h2 | h2
        · exact .inl ⟨1, by omega, h2⟩
        · exact .inr (.inl h2)
  · have ha : env.allocOk s.ctxs.count = false := by simpa using ha
    rw [oAlloc_fail env _ s ha]
    refine ⟨false, _, { s.ctxs with count := s.ctxs.count + 1 }, s.blocks, rfl, rfl, rfl, .inr ⟨rfl, List.replicate k.blockSize 0, rfl, by simp, rfl, .inl ⟨0, ?_, ha⟩⟩⟩
    unfold keyAllocs
    split <;> omega

theorem oPads_ok {σ : Type} (bs : Nat) (env : OEnv) (l : Loc) (s : OSt σ) (a : Nat) (kd : List Byte) (rest : List (Nat × List Byte)) (ha : a < s.ctxs.count) (hl : s.blocks = (a, kd) :: rest) (hkd : kd.length = bs)
    (hla : l.keyData = some a) (ho : l.outer = none) :
    ∃ ok l' n bl, oPads bs env l s = .ok (ok, l', { s with ctxs := { s.ctxs with count := n }, blocks := bl }) ∧ l'.context = l.context ∧ l'.keyData = some a ∧
      (ok = true ∧ l'.inner = some s.ctxs.count ∧ l'.outer = some (s.ctxs.count + 1) ∧ n = s.ctxs.count + 2 ∧ env.allocOk s.ctxs.count = true ∧ env.allocOk (s.ctxs.count + 1) = true ∧
          bl = (s.ctxs.count + 1, kd.map (· ^^^ 0x5c#8)) :: (s.ctxs.count, kd.map (· ^^^ 0x36#8)) :: s.blocks ∨
        ok = false ∧ l'.outer = none ∧ (∃ d, d.length = bs ∧ bl = optBlock l'.inner d ++ s.blocks) ∧ ∃ j < 2, env.allocOk (s.ctxs.count + j) = false) := by
  unfold oPads
  by_cases h : env.allocOk s.ctxs.count = true
  · obtain ⟨d, hd, e⟩ := oAlloc_ok env bs s h
    rw [e]
    simp only [oLoad, getKey, if_true, Res.ok_bind]
    rw [memSet_ok _ (by omega), Res.ok_bind]
    simp only [oStore, setKey, if_true, Res.ok_bind]
    have hset : d.take 0 ++ (List.replicate bs (0x36 : Byte) ++ d.drop (0 + bs)) = List.replicate bs 0x36 := by
      simp [List.drop_eq_nil_of_le (Nat.le_of_eq hd)]
    rw [hset]
    by_cases h2 : env.allocOk (s.ctxs.count + 1) = true
    · obtain ⟨d2, hd2, e2⟩ := oAlloc_ok env bs ({ s with ctxs := { s.ctxs with count := s.ctxs.count + 1 }, blocks := (s.ctxs.count, List.replicate bs (0x36 : Byte)) :: s.blocks } : OSt σ) h2
      rw [e2]
      simp only [getKey, if_true, Res.ok_bind]
      rw [memSet_ok _ (by omega), Res.ok_bind]
      have n1 : s.ctxs.count + 1 ≠ s.ctxs.count := by omega
      have n2 : s.ctxs.count + 1 ≠ a := by omega
      have n3 : s.ctxs.count ≠ a := by omega
      simp only [hla, hl, getKey, n1, n2, n3, if_false, if_true, Res.ok_bind, List.take_zero, List.nil_append, Nat.zero_add, List.drop_eq_nil_of_le (Nat.le_of_eq hd2), List.append_nil, setKey]
      rw [xorPads_ok kd _ hkd]
      simp only [Res.ok_bind, Res.pure_eq]
      exact ⟨true, _, s.ctxs.count + 2, _, rfl, rfl, rfl, .inl ⟨rfl, rfl, rfl, rfl, h, h2, rfl⟩⟩
    · have h2 : env.allocOk (s.ctxs.count + 1) = false := by simpa using h2
      rw [oAlloc_fail env _ _ h2]
      exact ⟨false, _, s.ctxs.count + 2, _, rfl, rfl, hla, .inr ⟨rfl, rfl, ⟨List.replicate bs 0x36, by simp, rfl⟩, 1, by omega, h2⟩⟩
  · have h : env.allocOk s.ctxs.count = false := by simpa using h
    rw [oAlloc_fail env _ _ h]
    exact ⟨false, _, s.ctxs.count + 1, s.blocks, rfl, rfl, hla, .inr ⟨rfl, ho, ⟨List.replicate bs 0, by simp, rfl⟩, 0, by omega, h⟩⟩

theorem oPass_ok (k : Kind) (hT : Tame L k.hashSize) (B : Backend) (env : OEnv) (p : Nat) (pd : List Byte) (buffer : Option Nat) (size : Nat) (hmac : Option Nat) (n : Nat) (l : Loc) (s : OSt L.State)
    (hc : l.context = none) (hp : getKey p s.blocks = some pd) (hpd : pd.length = k.blockSize) (hb : AreaOk s.caller buffer size) (hh : AreaOk s.caller hmac n) :
    ∃ ok l' c mem, oPass B L k.hashSize k.blockSize env (some p) buffer size hmac n l s = .ok (ok, l', { s with ctxs := c, caller := mem }) ∧ l'.keyData = l.keyData ∧ l'.inner = l.inner ∧ l'.outer = l.outer ∧
      Touched B k hmac n s.caller mem ∧ c.count = s.ctxs.count + 1 ∧
      (ok = true ∧ l'.context = none ∧ c.live = s.ctxs.live ∧ env.allocOk s.ctxs.count = true ∧ (∃ i o, buffer = some i ∧ hmac = some o ∧ size ≤ B.maxUpdate ∧ k.hashSize ≤ n ∧ n ≤ B.maxOutput ∧
          (Sound L k → k.blockSize + size < 2 ^ 61 → mem = overwrite s.caller o (k.std.digest (pd ++ slice s.caller i size)))) ∨
        ok = false ∧ SlotInv B s.ctxs.live (fun _ => True) l'.context c ∧ (mem = s.caller ∨ ¬ Reliable L) ∧
          (env.allocOk s.ctxs.count = false ∨ ¬ Reliable L ∨ buffer = none ∨ B.maxUpdate < size ∨ hmac = none ∨ B.maxOutput < n ∨ n < k.hashSize)) := by
  obtain ⟨hk1, hk2, hk3⟩ := block_facts k
  obtain ⟨cx, kd, i0, o0, kh⟩ := l
  simp only at hc
  subst hc
  unfold oPass
  obtain ⟨r1, slot, c1, e1, n1, ⟨rfl, ha, q, st1, rfl, H1, S1⟩ | ⟨rfl, rfl, h1, h2⟩⟩ := oInitialize_ok k B L env s
  · rw [e1, Res.ok_bind]
    simp only [ne_eq, not_true_eq_false, if_false, oLoad, hp, Res.ok_bind]
    obtain ⟨r2, c2, st2, e2, n2, H2, h2⟩ := oUpdate_ok (B := B) (s := { s with ctxs := c1 }) k H1 (some pd) k.blockSize (fun _ => by omega)
    rw [e2, Res.ok_bind]
    simp only at n2
    rcases h2 with ⟨rfl, b, h3, h4, h5⟩ | ⟨rfl, h3⟩
    · obtain rfl := Option.some.inj h3
      simp only [ne_eq, not_true_eq_false, if_false]
      obtain ⟨r3, c3, st3, e3, n3, H3, h6⟩ := oUpdate_ok (B := B) (s := { s with ctxs := c2 }) k H2 (oRegion { s with ctxs := c2 } buffer size) size (region_valid hb)
      rw [e3, Res.ok_bind]
      simp only at n3
      rcases h6 with ⟨rfl, b, h6, h7, h8⟩ | ⟨rfl, h6⟩
      · simp only [ne_eq, not_true_eq_false, if_false]
        cases buffer with
        | none => cases h6
        | some i =>
          obtain rfl := Option.some.inj h6
          obtain ⟨r4, out, c4, st4, mem, e4, n4, H4, hset, ht, h9⟩ := oFinalize_region (B := B) (s := { s with ctxs := c3 }) k hT H3 hmac n hh
          rw [e4, Res.ok_bind]
          simp only
          rw [hset]
          obtain ⟨c5, e5, n5, l5⟩ := oFree_ok (s := { s with ctxs := c4, caller := mem }) H4
          simp only at n4 n5
          rcases h9 with ⟨rfl, o, h10, h11, h12, h13⟩ | ⟨rfl, h10', h10⟩
          · simp only [ne_eq, not_true_eq_false, if_false]
            rw [e5, Res.ok_bind]
            refine ⟨true, _, c5, mem, rfl, rfl, rfl, rfl, ht, by omega, .inl ⟨rfl, rfl, l5, ha, i, o, rfl, h10, h7, h11, h12, fun hS hlt => ?_⟩⟩
            have hi : i + size ≤ s.caller.length := hb i rfl (Nat.le_trans h7 (maxUpdate_le B))
            have hsl : List.take size (List.take size (List.drop i s.caller)) = slice s.caller i size := by simp [slice, List.take_take]
            have hpt : List.take k.blockSize pd = pd := List.take_of_length_le (Nat.le_of_eq hpd)
            rw [hpt] at h5
            have hs1 := h5 [] (by simp only [List.nil_append, hpd]; omega) S1
            rw [List.nil_append] at hs1
            have hs2 := h8 pd (by simp only [hsl, List.length_append, hpd, slice_length hi]; exact hlt) hs1
            rw [hsl] at hs2
            exact h13 _ (by simp only [List.length_append, hpd, slice_length hi]; exact hlt) hs2 hS
          · refine ⟨false, _, c4, mem, rfl, rfl, rfl, rfl, ht, by omega, .inr ⟨rfl, ⟨st4, H4, trivial⟩, h10', ?_⟩⟩
            tauto
      · refine ⟨false, _, c3, s.caller, rfl, rfl, rfl, rfl, .inl rfl, by omega, .inr ⟨rfl, ⟨st3, H3, trivial⟩, .inl rfl, ?_⟩⟩
        rcases h6 with h6 | h6 | h6
        · cases buffer with
          | none => tauto
          | some i => cases h6
        · tauto
        · tauto
    · refine ⟨false, _, c2, s.caller, rfl, rfl, rfl, rfl, .inl rfl, by omega, .inr ⟨rfl, ⟨st2, H2, trivial⟩, .inl rfl, ?_⟩⟩
      have := maxUpdate_ge B
      rcases h3 with h3 | h3 | h3
      · cases h3
      · omega
      · tauto
  · rw [e1, Res.ok_bind]
    exact ⟨false, _, c1, s.caller, rfl, rfl, rfl, rfl, .inl rfl, n1, .inr ⟨rfl, h1, .inl rfl, by tauto⟩⟩

theorem oWipe_ok {σ : Type} (bs p : Nat) (d : List Byte) (rest : List (Nat × List Byte)) (s : OSt σ) (hl : s.blocks = (p, d) :: rest) (hd : d.length = bs) :
    oWipe bs (some p) s = .ok { s with blocks := rest, freed := (p, List.replicate bs 0) :: s.freed } := by
  unfold oWipe
  simp only [oLoad, hl, getKey, if_true, Res.ok_bind]
  rw [memSet_ok _ (by omega), Res.ok_bind]
  simp only [oStore, hl, setKey, if_true, Res.ok_bind, oFreeBlock, getKey, eraseKey]
  simp [List.drop_eq_nil_of_le (Nat.le_of_eq hd)]

theorem oWipeOpt_ok {σ : Type} (bs : Nat) (p : Option Nat) (d : List Byte) (rest : List (Nat × List Byte)) (s : OSt σ) (hl : s.blocks = optBlock p d ++ rest) (hd : d.length = bs) :
    oWipeOpt bs p s = .ok { s with blocks := rest, freed := optBlock p (List.replicate bs 0) ++ s.freed } := by
  cases p with
  | none =>
    obtain ⟨caller, ctxs, blocks, freed⟩ := s
    simp only [optBlock, List.nil_append] at hl
    subst hl
    rfl
  | some p => exact oWipe_ok bs p d rest s hl hd

/-- The freed arrays of a call are cleared. -/
def Cleared (bs : Nat) (fl : List (Nat × List Byte)) : Prop := ∀ e ∈ fl, e.2 = List.replicate bs 0

theorem oHmacError_ok (B : Backend) (L : Library) (bs : Nat) (base : List (Nat × BObj L.State)) (l : Loc) (s : OSt L.State) (dO dI dK : List Byte) (rest : List (Nat × List Byte)) (hO : dO.length = bs) (hI : dI.length = bs) (hK : dK.length = bs)
    (hl : s.blocks = optBlock l.outer dO ++ (optBlock l.inner dI ++ (optBlock l.keyData dK ++ rest))) (hc : SlotInv B base (fun _ => True) l.context s.ctxs) :
    ∃ c fl, oHmacError B L bs l s = .ok (-1, { s with ctxs := c, blocks := rest, freed := fl ++ s.freed }) ∧ c.live = base ∧ c.count = s.ctxs.count ∧ Cleared bs fl := by
  obtain ⟨c, e, n1, l1⟩ := oFreeOpt_ok hc
  refine ⟨c, optBlock l.keyData (List.replicate bs 0) ++ (optBlock l.inner (List.replicate bs 0) ++ optBlock l.outer (List.replicate bs 0)), ?_, l1, n1, ?_⟩
  · unfold oHmacError
    rw [e, Res.ok_bind, oWipeOpt_ok bs _ dO _ { s with ctxs := c } hl hO, Res.ok_bind, oWipeOpt_ok bs _ dI _ _ rfl hI, Res.ok_bind, oWipeOpt_ok bs _ dK _ _ rfl hK, Res.ok_bind]
    simp
  · intro x hx
    simp only [List.mem_append] at hx
    rcases hx with hx | hx | hx
    all_goals
      generalize hq : (l.keyData, l.inner, l.outer) = q at *
      unfold optBlock at hx
      split at hx
      · cases hx
      · simp only [List.mem_singleton] at hx
        rw [hx]

/-- The number of allocations of a call that succeeds. -/
def oAllocs (k : Kind) (keySize : Nat) : Nat := keyAllocs k keySize + 4

/-- The reasons for a failure. -/
def OBad (B : Backend) (L : Library) (k : Kind) (env : OEnv) (c : Nat) (key : Option Nat) (keySize : Nat) (buffer : Option Nat) (size : Nat) (hmac : Option Nat) (n : Nat) : Prop :=
  (∃ j < oAllocs k keySize, env.allocOk (c + j) = false) ∨ ¬ Reliable L ∨ key = none ∨ ssizeMax < keySize ∨ (k.blockSize < keySize ∧ B.maxUpdate < keySize) ∨ buffer = none ∨ B.maxUpdate < size ∨
    hmac = none ∨ B.maxOutput < n ∨ n < k.hashSize

set_option maxHeartbeats 400000 in
/-- `calculate_hmac`: no undefined behaviour, nothing is kept, the arrays are cleared, and the HMAC. -/
theorem oCalculateHmac_ok (k : Kind) (hT : Tame L k.hashSize) (B : Backend) (env : OEnv) (kh : List Byte) (hkh : kh.length = k.hashSize) (key : Option Nat) (keySize : Nat) (buffer : Option Nat) (size : Nat) (hmac : Option Nat) (n : Nat)
    (s : OSt L.State) (hk : AreaOk s.caller key keySize) (hb : AreaOk s.caller buffer size) (hh : AreaOk s.caller hmac n) :
    ∃ r c mem fl, oCalculateHmac B L k.hashSize k.blockSize env kh key keySize buffer size hmac n s = .ok (r, { s with ctxs := c, caller := mem, freed := fl ++ s.freed }) ∧ c.live = s.ctxs.live ∧ Cleared k.blockSize fl ∧
      Touched B k hmac n s.caller mem ∧
      (r = 1 ∧ (∀ j < oAllocs k keySize, env.allocOk (s.ctxs.count + j) = true) ∧ fl.map (fun e => e.1) = [s.ctxs.count, s.ctxs.count + keyAllocs k keySize, s.ctxs.count + keyAllocs k keySize + 1] ∧
          (∃ q i o, key = some q ∧ buffer = some i ∧ hmac = some o ∧ keySize ≤ ssizeMax ∧ (k.blockSize < keySize → keySize ≤ B.maxUpdate) ∧ size ≤ B.maxUpdate ∧ k.hashSize ≤ n ∧ n ≤ B.maxOutput ∧
            (Sound L k → keySize < 2 ^ 61 → k.blockSize + size < 2 ^ 61 → mem = overwrite s.caller o (Spec.hmac k.blockSize k.std.digest (slice s.caller q keySize) (slice s.caller i size)))) ∨
        r = -1 ∧ (mem = s.caller ∨ ¬ Reliable L ∨ env.allocOk (s.ctxs.count + keyAllocs k keySize + 3) = false) ∧ OBad B L k env s.ctxs.count key keySize buffer size hmac n) := by
  obtain ⟨hk1, hk2, hk3⟩ := block_facts k
  have nil : Cleared k.blockSize [] := fun _ h => by simp at h
  unfold oCalculateHmac
  cases key with
  | none => exact ⟨-1, s.ctxs, s.caller, [], rfl, rfl, nil, .inl rfl, .inr ⟨rfl, .inl rfl, .inr (.inr (.inl rfl))⟩⟩
  | some q =>
    simp only
    by_cases h1 : ssizeMax < keySize
    · rw [if_pos h1]
      exact ⟨-1, s.ctxs, s.caller, [], rfl, rfl, nil, .inl rfl, .inr ⟨rfl, .inl rfl, .inr (.inr (.inr (.inl h1)))⟩⟩
    · rw [if_neg h1]
      by_cases h2 : n < k.hashSize
      · rw [if_pos h2]
        exact ⟨-1, s.ctxs, s.caller, [], rfl, rfl, nil, .inl rfl, .inr ⟨rfl, .inl rfl, .inr (.inr (.inr (.inr (.inr (.inr (.inr (.inr (.inr h2))))))))⟩⟩
      · rw [if_neg h2]
        have hq : q + keySize ≤ s.caller.length := hk q rfl (by unfold ssizeMax at h1; omega)
        obtain ⟨ok1, l1, c1, bl1, e1, hi1, ho1, h3⟩ := oKey_ok k hT B env q keySize kh hkh s hq
        rw [e1, Res.ok_bind]
        rcases h3 with ⟨rfl, kd, rfl, hkd, hc1, hd1, lv1, n1, hm1, al1, S1⟩ | ⟨rfl, d, rfl, hd, hsl, hbad⟩
        · simp only [Bool.not_true, Bool.false_eq_true, if_false]
          have hA : 1 ≤ keyAllocs k keySize := by unfold keyAllocs; split <;> omega
          obtain ⟨ok2, l2, n2, bl2, e2, hc2, hd2, h4⟩ := oPads_ok k.blockSize env l1 { s with ctxs := c1, blocks := (s.ctxs.count, kd) :: s.blocks } s.ctxs.count kd s.blocks (by simp only; omega) rfl hkd hd1 ho1
          rw [e2, Res.ok_bind]
          simp only [n1] at h4
          rcases h4 with ⟨rfl, hi2, ho2, hn2, al2, al3, rfl⟩ | ⟨rfl, ho2, ⟨d2, hdl2, rfl⟩, j, hj, hal⟩
          · simp only [Bool.not_true, Bool.false_eq_true, if_false, hi2]
            obtain ⟨ok3, l3, c3, mem3, e3, hd3, hi3, ho3, ht3, n3, h5⟩ := oPass_ok k hT B env (s.ctxs.count + keyAllocs k keySize) (kd.map (· ^^^ 0x36#8)) buffer size hmac n l2
              { s with ctxs := { c1 with count := n2 }, blocks := (s.ctxs.count + keyAllocs k keySize + 1, kd.map (· ^^^ 0x5c#8)) :: (s.ctxs.count + keyAllocs k keySize, kd.map (· ^^^ 0x36#8)) :: (s.ctxs.count, kd) :: s.blocks }
              (hc2.trans hc1) (by simp [getKey]) (by simp [hkd]) hb hh
            rw [e3, Res.ok_bind]
            simp only at ht3 n3 h5
            have hlen3 := ht3.length hh
            have herr : ∀ (l : Loc) (mem : List Byte) (c : BSt L.State), l.keyData = some s.ctxs.count → l.inner = some (s.ctxs.count + keyAllocs k keySize) → l.outer = some (s.ctxs.count + keyAllocs k keySize + 1) →
                SlotInv B s.ctxs.live (fun _ => True) l.context c → ∃ c' fl, oHmacError B L k.blockSize l { s with ctxs := c, caller := mem, blocks := (s.ctxs.count + keyAllocs k keySize + 1, kd.map (· ^^^ 0x5c#8)) :: (s.ctxs.count + keyAllocs k keySize, kd.map (· ^^^ 0x36#8)) :: (s.ctxs.count, kd) :: s.blocks } =
                    .ok (-1, { s with ctxs := c', caller := mem, freed := fl ++ s.freed }) ∧ c'.live = s.ctxs.live ∧ c'.count = c.count ∧ Cleared k.blockSize fl := by
              intro l mem c g1 g2 g3 g4
              exact oHmacError_ok B L k.blockSize s.ctxs.live l { s with ctxs := c, caller := mem, blocks := (s.ctxs.count + keyAllocs k keySize + 1, kd.map (· ^^^ 0x5c#8)) :: (s.ctxs.count + keyAllocs k keySize, kd.map (· ^^^ 0x36#8)) :: (s.ctxs.count, kd) :: s.blocks }
                (kd.map (· ^^^ 0x5c#8)) (kd.map (· ^^^ 0x36#8)) kd s.blocks (by simp [hkd]) (by simp [hkd]) hkd (by rw [g1, g2, g3]; rfl) g4
            rcases h5 with ⟨rfl, hc3, lv3, al4, i, o, hbi, hmo, hsz, hn1, hn2', S3⟩ | ⟨rfl, hsl3, hun, hbad⟩
            · simp only [Bool.not_true, Bool.false_eq_true, if_false, ho3, ho2]
              have hob : o + n ≤ s.caller.length := hh o hmo (Nat.le_trans hn2' (maxOutput_le B))
              obtain ⟨ok4, l4, c4, mem4, e4, hd4, hi4, ho4, ht4, n4, h6⟩ := oPass_ok k hT B env (s.ctxs.count + keyAllocs k keySize + 1) (kd.map (· ^^^ 0x5c#8)) hmac k.hashSize hmac n l3
                { s with ctxs := c3, caller := mem3, blocks := (s.ctxs.count + keyAllocs k keySize + 1, kd.map (· ^^^ 0x5c#8)) :: (s.ctxs.count + keyAllocs k keySize, kd.map (· ^^^ 0x36#8)) :: (s.ctxs.count, kd) :: s.blocks }
                hc3 (by simp [getKey]) (by simp [hkd]) (by
                  intro o' ho' _
                  obtain rfl : o = o' := by simpa [hmo] using ho'
                  simp only; omega) (by
                  intro o' ho' _
                  obtain rfl : o = o' := by simpa [hmo] using ho'
                  simp only; omega)
              rw [e4, Res.ok_bind]
              simp only at ht4 n4 h6
              have htt := ht3.trans ht4 hh
              rcases h6 with ⟨rfl, hc4, lv4, al5, i', o', hbi', hmo', -, -, -, S4⟩ | ⟨rfl, hsl4, -, hbad⟩
              · simp only [Bool.not_true, Bool.false_eq_true, if_false]
                refine ⟨1, c4, mem4, [(s.ctxs.count, List.replicate k.blockSize 0), (s.ctxs.count + keyAllocs k keySize, List.replicate k.blockSize 0), (s.ctxs.count + keyAllocs k keySize + 1, List.replicate k.blockSize 0)], ?_, ?_, ?_, htt, .inl ⟨rfl, ?_, rfl, q, i, o, rfl, hbi, hmo, by omega, hm1, hsz, hn1, hn2', ?_⟩⟩
                · unfold oHmacEnd
                  rw [ho4, ho3, ho2, hi4, hi3, hi2, hd4, hd3, hd2]
                  rw [oWipe_ok k.blockSize _ (kd.map (· ^^^ 0x5c#8)) _ _ rfl (by simp [hkd]), Res.ok_bind, oWipe_ok k.blockSize _ (kd.map (· ^^^ 0x36#8)) _ _ rfl (by simp [hkd]), Res.ok_bind, oWipe_ok k.blockSize _ kd _ _ rfl hkd, Res.ok_bind]
                  rfl
                · rw [lv4, lv3, lv1]
                · intro x hx
                  simp only [List.mem_cons, List.not_mem_nil, or_false] at hx
                  rcases hx with rfl | rfl | rfl <;> rfl
                · intro j hj
                  unfold oAllocs at hj
                  by_cases hj1 : j < keyAllocs k keySize
                  · exact al1 j hj1
                  · obtain rfl | rfl | rfl | rfl : j = keyAllocs k keySize ∨ j = keyAllocs k keySize + 1 ∨ j = keyAllocs k keySize + 2 ∨ j = keyAllocs k keySize + 3 := by omega
                    · exact al2
                    · exact al3
                    · rw [hn2] at al4; exact al4
                    · rw [n3, hn2] at al5; exact al5
                · intro hS hkl hml
                  obtain rfl : o = i' := by simpa [hmo] using hbi'
                  obtain rfl : o = o' := by simpa [hmo] using hmo'
                  have hkl' := S1 hS hkl
                  have hm3 := S3 hS hml
                  have hdl : (k.std.digest (kd.map (· ^^^ 0x36#8) ++ slice s.caller i size)).length = k.hashSize := std_length k (by
                    have := slice_length (hb i hbi (Nat.le_trans hsz (maxUpdate_le B)))
                    simp only [List.length_append, List.length_map, hkd, this]; exact hml)
                  have hm4 := S4 hS (by omega)
                  have hdl2 : ∀ m : List Byte, m.length = k.hashSize → (k.std.digest (kd.map (· ^^^ 0x5c#8) ++ m)).length = k.hashSize := fun m hm => std_length k (by
                    simp only [List.length_append, List.length_map, hkd, hm]; omega)
                  rw [hm4, hm3, slice_overwrite hdl (by omega), overwrite_overwrite (by rw [hdl, hdl2 _ hdl]) (by rw [hdl]; omega), hkl']
                  rfl
              · simp only [Bool.not_false, if_true]
                obtain ⟨c', fl, e5, g1, g2, g3⟩ := herr l4 mem4 c4 (by rw [hd4, hd3, hd2]) (by rw [hi4, hi3, hi2]) (by rw [ho4, ho3, ho2]) (by
                  rw [lv3] at hsl4
                  simpa [lv1] using hsl4)
                have hbad' : env.allocOk (s.ctxs.count + keyAllocs k keySize + 3) = false ∨ ¬ Reliable L := by
                  rcases hbad with hbad | hbad | hbad | hbad | hbad | hbad | hbad
                  · rw [n3, hn2] at hbad; exact .inl hbad
                  · exact .inr hbad
                  · rw [hmo] at hbad; cases hbad
                  · have := maxUpdate_ge B; omega
                  · rw [hmo] at hbad; cases hbad
                  · omega
                  · omega
                refine ⟨-1, c', mem4, fl, e5, g1, g3, htt, .inr ⟨rfl, .inr hbad'.symm, ?_⟩⟩
                rcases hbad' with hbad | hbad
                · exact .inl ⟨keyAllocs k keySize + 3, by unfold oAllocs; omega, hbad⟩
                · exact .inr (.inl hbad)
            · simp only [Bool.not_false, if_true]
              obtain ⟨c', fl, e5, g1, g2, g3⟩ := herr l3 mem3 c3 (by rw [hd3, hd2]) (by rw [hi3, hi2]) (by rw [ho3, ho2]) (by simpa [lv1] using hsl3)
              refine ⟨-1, c', mem3, fl, e5, g1, g3, ht3, .inr ⟨rfl, hun.elim .inl fun h => .inr (.inl h), ?_⟩⟩
              rcases hbad with hbad | hbad | hbad
              · exact .inl ⟨keyAllocs k keySize + 2, by unfold oAllocs; omega, by rw [hn2] at hbad; exact hbad⟩
              · exact .inr (.inl hbad)
              · exact .inr (.inr (.inr (.inr (.inr hbad))))
          · simp only [Bool.not_false, if_true]
            obtain ⟨c', fl, e5, g1, g2, g3⟩ := oHmacError_ok B L k.blockSize s.ctxs.live l2 { s with ctxs := { c1 with count := n2 }, blocks := optBlock l2.inner d2 ++ (s.ctxs.count, kd) :: s.blocks } (List.replicate k.blockSize 0) d2 kd s.blocks
              (by simp) hdl2 hkd (by rw [ho2, hd2]; rfl) (by rw [hc2, hc1]; exact lv1)
            refine ⟨-1, c', s.caller, fl, e5, g1, g3, .inl rfl, .inr ⟨rfl, .inl rfl, .inl ⟨keyAllocs k keySize + j, by unfold oAllocs; omega, ?_⟩⟩⟩
            rw [← Nat.add_assoc]
            exact hal
        · simp only [Bool.not_false, if_true]
          obtain ⟨c', fl, e5, g1, g2, g3⟩ := oHmacError_ok B L k.blockSize s.ctxs.live l1 { s with ctxs := c1, blocks := optBlock l1.keyData d ++ s.blocks } (List.replicate k.blockSize 0) (List.replicate k.blockSize 0) d s.blocks
            (by simp) (by simp) hd (by rw [hi1, ho1]; rfl) hsl
          refine ⟨-1, c', s.caller, fl, e5, g1, g3, .inl rfl, .inr ⟨rfl, .inl rfl, ?_⟩⟩
          rcases hbad with ⟨j, hj, hbad⟩ | hbad | hbad
          · exact .inl ⟨j, by unfold oAllocs; omega, hbad⟩
          · exact .inr (.inl hbad)
          · exact .inr (.inr (.inr (.inr (.inl hbad))))

end Model
