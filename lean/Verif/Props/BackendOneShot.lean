import Verif.Proofs.BackendOneShot
import Verif.Props.Backend
import Verif.Props.Hmac
/-! C52: `libhmac_*_calculate` and `libhmac_*_calculate_hmac` in the builds with a crypto library, for all five algorithms, every placement of the areas in the caller's memory, and all outcomes of allocations.
`B`: the build, `L`: the library, each call of which may fail. -/

namespace Props

open Model Spec

/-- The arguments with which the build can compute a digest. -/
def BDigestArgs (B : Backend) (k : Kind) (buffer : Option Nat) (size : Nat) (hash : Option Nat) (n : Nat) : Prop :=
  buffer ≠ none ∧ size ≤ B.maxUpdate ∧ hash ≠ none ∧ k.hashSize ≤ n ∧ n ≤ B.maxOutput

/-- The arguments with which the build can compute an HMAC. -/
def BHmacArgs (B : Backend) (k : Kind) (key : Option Nat) (keySize : Nat) (buffer : Option Nat) (size : Nat) (hmac : Option Nat) (n : Nat) : Prop :=
  key ≠ none ∧ keySize ≤ maxSize ∧ (k.blockSize < keySize → keySize ≤ B.maxUpdate) ∧ BDigestArgs B k buffer size hmac n

/-- Only the bytes of the digest at the output pointer may differ. -/
def OnlyDigest (k : Kind) (out : Option Nat) (mem mem' : List Byte) : Prop :=
  mem'.length = mem.length ∧ ∀ j, (∀ o, out = some o → j < o ∨ o + k.hashSize ≤ j) → mem'[j]? = mem[j]?

theorem onlyDigest_of_touched {B : Backend} {k : Kind} {out : Option Nat} {n : Nat} {mem mem' : List Byte} (h : Touched B k out n mem mem') (ha : AreaOk mem out n) : OnlyDigest k out mem mem' := by
  refine ⟨h.length ha, fun j hj => ?_⟩
  rcases h with rfl | ⟨o, d, rfl, h2, h3, h4, rfl⟩
  · rfl
  · have hb := ha o rfl (Nat.le_trans h3 (maxOutput_le B))
    have hl : (mem.take o).length = o := by simp; omega
    rcases hj o rfl with hj | hj
    · unfold overwrite
      rw [List.getElem?_append_left (by omega), List.getElem?_take_of_lt hj]
    · unfold overwrite
      rw [List.getElem?_append_right (by omega), List.getElem?_append_right (by omega), List.getElem?_drop]
      congr 1
      omega

/-- C52. `calculate` returns 1 exactly if the arguments are valid for the build and nothing fails (with a library whose calls may fail: only if the arguments are valid and the allocation succeeds); there is no undefined behaviour, all
contexts of the call (also those of the library) are released, at most the digest area of the output is written, and nothing is written with -1 unless a call of the library failed. -/
theorem C52_calculate_result (B : Backend) (k : Kind) (L : Library) (hT : Tame L k.hashSize) (env : OEnv) (buffer : Option Nat) (size : Nat) (hash : Option Nat) (n : Nat) (s : OSt L.State)
    (hb : AreaOk s.caller buffer size) (hh : AreaOk s.caller hash n) :
    ∃ r s', oCalculate B L k.hashSize env buffer size hash n s = .ok (r, s') ∧ (r = 1 ∨ r = -1) ∧ (r = 1 → BDigestArgs B k buffer size hash n ∧ env.allocOk s.ctxs.count = true) ∧
      (BDigestArgs B k buffer size hash n → env.allocOk s.ctxs.count = true → Reliable L → r = 1) ∧ (r = -1 → Reliable L → s'.caller = s.caller) ∧
      s'.ctxs.live = s.ctxs.live ∧ s'.blocks = s.blocks ∧ s'.freed = s.freed ∧ OnlyDigest k hash s.caller s'.caller := by
  obtain ⟨r, c, mem, e, hl, -, ht, h⟩ := oCalculate_ok k hT B env buffer size hash n s hb hh
  refine ⟨r, _, e, ?_, ?_, ?_, ?_, hl, rfl, rfl, onlyDigest_of_touched ht hh⟩
  · rcases h with h | h
    · exact .inl h.1
    · exact .inr h.1
  · intro hr
    rcases h with ⟨-, ha, i, o, rfl, rfl, h1, h2, h3, -⟩ | h
    · exact ⟨⟨by simp, h1, by simp, h2, h3⟩, ha⟩
    · omega
  · intro ⟨g1, g2, g3, g4, g5⟩ ha hR
    rcases h with h | ⟨-, -, h | h | h | h | h | h | h⟩
    · exact h.1
    · rw [ha] at h; cases h
    · exact absurd hR h
    · exact absurd h g1
    · omega
    · exact absurd h g3
    · omega
    · omega
  · intro hr hR
    rcases h with h | ⟨-, h | h, -⟩
    · omega
    · exact h
    · exact absurd hR h

/-- C52. Whatever calls of the library fail: if `calculate` returns 1, the standard digest of the buffer as it was at the call is stored, and nothing else is changed (buffers shorter than 2^61 bytes: of longer ones the contract says nothing). -/
theorem C52_calculate_digest (B : Backend) (k : Kind) (L : Library) (Rep : L.State → List Byte → Prop) (hL : Contract L k Rep) (hT : Tame L k.hashSize) (env : OEnv) (i size o n : Nat) (s s' : OSt L.State)
    (hb : AreaOk s.caller (some i) size) (hh : AreaOk s.caller (some o) n) (hlen : size < 2 ^ 61) (hrun : oCalculate B L k.hashSize env (some i) size (some o) n s = .ok (1, s')) :
    s'.caller = overwrite s.caller o (k.std.digest (slice s.caller i size)) := by
  obtain ⟨r, c, mem, e, -, -, -, h⟩ := oCalculate_ok k hT B env (some i) size (some o) n s hb hh
  rw [hrun] at e
  simp only [Res.ok.injEq, Prod.mk.injEq] at e
  obtain ⟨rfl, rfl⟩ := e
  rcases h with ⟨-, -, i', o', h1, h2, -, -, -, h3⟩ | h
  · cases h1; cases h2
    exact h3 ⟨Rep, hL⟩ hlen
  · exact absurd h.1 (by decide)

theorem exact_tame (k : Kind) : Tame (exactLibrary k) k.hashSize := fun _ st _ _ => ⟨k.std.digest st, std_digest_length k st, rfl⟩

/-- A library of which the call number `bad` fails: an update destroys the state, a final writes zeros. -/
def brokenLibrary (k : Kind) (bad : Nat) : Library where
  State := List Byte
  init n := if n = bad then none else some []
  update n m b := if n = bad then (false, []) else (true, m ++ b)
  final n m o := if n = bad then (false, [], List.replicate k.hashSize 0 ++ o.drop k.hashSize) else (true, [], k.std.digest m ++ o.drop k.hashSize)
  create n := n != bad
  cleanup _ := true

theorem broken_contract (k : Kind) (bad : Nat) : Contract (brokenLibrary k bad) k (fun st m => st = m) where
  init n st h := by
    simp only [brokenLibrary] at h
    split at h
    · cases h
    · exact (Option.some.inj h).symm
  update n st m b h _ hok := by
    subst h
    simp only [brokenLibrary] at hok ⊢
    split
    · rename_i hn; simp [hn] at hok
    · rfl
  final n st m o h _ _ hok := by
    subst h
    simp only [brokenLibrary] at hok ⊢
    split
    · rename_i hn; simp [hn] at hok
    · rfl

theorem broken_tame (k : Kind) (bad : Nat) : Tame (brokenLibrary k bad) k.hashSize := by
  intro n st o _
  simp only [brokenLibrary]
  split
  · exact ⟨List.replicate k.hashSize 0, by simp, rfl⟩
  · exact ⟨k.std.digest st, std_digest_length k st, rfl⟩

/-- A memory for the examples: a context and an array of someone else. -/
def ost1 (σ : Type) (st : σ) : OSt σ := ⟨List.replicate 300 7, ⟨5, 9, [(2, .ctx (some st) .null)]⟩, [(3, [1, 2])], []⟩

theorem ost1_area (σ : Type) (st : σ) (o n : Nat) (h : o + n ≤ 300) : AreaOk (ost1 σ st).caller (some o) n := by
  rintro _ ⟨⟩ -
  show o + n ≤ (List.replicate 300 7).length
  rw [List.length_replicate]
  exact h

/-- The arguments of the examples are valid in every build. -/
theorem bargs1 (B : Backend) (k : Kind) (keySize : Nat) (h : keySize ≤ 128) : BHmacArgs B k (some 10) keySize (some 120) 100 (some 60) 80 := by
  have h1 := maxUpdate_ge B
  have h2 := maxOutput_ge B
  have h3 : k.hashSize ≤ 80 := by cases k <;> decide
  exact ⟨by simp, by unfold maxSize; omega, fun _ => by omega, by simp, by omega, by simp, h3, by omega⟩

/-- With a good library the digest is stored; if the update fails (call 10 in the build with SHA256_Update) the result is -1. -/
example (B : Backend) (k : Kind) : ∃ s', oCalculate B (exactLibrary k) k.hashSize ⟨fun _ => true, fun _ _ => 1⟩ (some 120) 100 (some 60) 80 (ost1 _ []) = .ok (1, s') ∧
    s'.caller = overwrite (ost1 (List Byte) []).caller 60 (k.std.digest (slice (ost1 (List Byte) []).caller 120 100)) := by
  obtain ⟨r, s', e, -, -, h, -⟩ := C52_calculate_result B k (exactLibrary k) (exact_tame k) ⟨fun _ => true, fun _ _ => 1⟩ (some 120) 100 (some 60) 80 (ost1 _ []) (ost1_area _ _ _ _ (by omega)) (ost1_area _ _ _ _ (by omega))
  obtain rfl := h (bargs1 B k 0 (by omega)).2.2.2 rfl (exact_reliable k)
  exact ⟨s', e, C52_calculate_digest B k (exactLibrary k) _ (exact_contract k) (exact_tame k) _ _ _ _ _ _ s' (ost1_area _ _ _ _ (by omega)) (ost1_area _ _ _ _ (by omega)) (by omega) e⟩

example (k : Kind) : ∃ s', oCalculate (.direct false) (brokenLibrary k 10) k.hashSize ⟨fun _ => true, fun _ _ => 1⟩ (some 120) 100 (some 60) 80 (ost1 _ []) = .ok (-1, s') := by
  have key : ∀ (m : List Byte) (b f : List (Nat × List Byte)), 100 ≤ ((m.drop 120).take 100).length → oCalculate (.direct false) (brokenLibrary k 10) k.hashSize ⟨fun _ => true, fun _ _ => 1⟩ (some 120) 100 (some 60) 80
      ⟨m, ⟨5, 9, [(2, .ctx (some []) .null)]⟩, b, f⟩ = .ok (-1, ⟨m, ⟨6, 11, [(2, .ctx (some []) .null)]⟩, b, f⟩) := by
    intro m b f hl
    generalize hx : (m.drop 120).take 100 = x at hl
    simp [oCalculate, oInitialize, oUpdate, oRegion, oCalculateError, oFreeOpt, oFree, bInitialize, bUpdate, bFree, bState, bSetState, bTake, bErase, brokenLibrary, BSt.tick, getKey, setKey, eraseKey, Backend.maxUpdate, ssizeMax, hx, hl]
  exact ⟨_, key (List.replicate 300 7) [(3, [1, 2])] [] (by simp [-List.reduceReplicate])⟩

/-- C52. `calculate_hmac` returns 1 or -1 without undefined behaviour, whatever calls of the library and allocations fail; 1 exactly if the arguments are valid for the build and nothing fails; all contexts and arrays of the call are released, and
the arrays (padded key and paddings) were cleared before; at most the digest area of the output is written. -/
theorem C52_hmac_result (B : Backend) (k : Kind) (L : Library) (hT : Tame L k.hashSize) (env : OEnv) (kh : List Byte) (hkh : kh.length = k.hashSize) (key : Option Nat) (keySize : Nat) (buffer : Option Nat) (size : Nat) (hmac : Option Nat) (n : Nat)
    (s : OSt L.State) (hk : AreaOk s.caller key keySize) (hb : AreaOk s.caller buffer size) (hh : AreaOk s.caller hmac n) :
    ∃ r s' fl, oCalculateHmac B L k.hashSize k.blockSize env kh key keySize buffer size hmac n s = .ok (r, s') ∧ (r = 1 ∨ r = -1) ∧
      (r = 1 → BHmacArgs B k key keySize buffer size hmac n ∧ (∀ j < allocations k keySize, env.allocOk (s.ctxs.count + j) = true) ∧ fl.length = 3) ∧
      (BHmacArgs B k key keySize buffer size hmac n → (∀ j < allocations k keySize, env.allocOk (s.ctxs.count + j) = true) → Reliable L → r = 1) ∧
      s'.ctxs.live = s.ctxs.live ∧ s'.blocks = s.blocks ∧ s'.freed = fl ++ s.freed ∧ (∀ e ∈ fl, e.2 = List.replicate k.blockSize 0) ∧ OnlyDigest k hmac s.caller s'.caller := by
  have hal : oAllocs k keySize = allocations k keySize := by
    unfold oAllocs keyAllocs allocations
    split <;> rfl
  obtain ⟨r, c, mem, fl, e, hl, hcl, ht, h⟩ := oCalculateHmac_ok k hT B env kh hkh key keySize buffer size hmac n s hk hb hh
  rw [hal] at h
  refine ⟨r, _, fl, e, ?_, ?_, ?_, hl, rfl, rfl, hcl, onlyDigest_of_touched ht hh⟩
  · rcases h with h | h
    · exact .inl h.1
    · exact .inr h.1
  · intro hr
    rcases h with ⟨-, ha, hfl, q, i, o, rfl, rfl, rfl, h1, h2, h3, h4, h5, -⟩ | h
    · exact ⟨⟨by simp, h1, h2, by simp, h3, by simp, h4, h5⟩, ha, by rw [← List.length_map (f := fun e => e.1), hfl]; rfl⟩
    · omega
  · intro ⟨g1, g2, g3, g4, g5, g6, g7, g8⟩ ha hR
    rcases h with h | ⟨-, -, h⟩
    · exact h.1
    · unfold OBad at h
      rw [hal] at h
      rcases h with ⟨j, hj, h⟩ | h | h | h | ⟨h, h'⟩ | h | h | h | h | h
      · rw [ha j hj] at h; cases h
      · exact absurd hR h
      · exact absurd h g1
      · exact absurd h (by unfold ssizeMax; unfold maxSize at g2; omega)
      · have := g3 h; omega
      · exact absurd h g4
      · omega
      · exact absurd h g6
      · omega
      · omega

/-- C52. Whatever calls of the library fail: if `calculate_hmac` returns 1, the RFC 2104 HMAC over the standard hash function of the key and message bytes at call time is stored, and nothing else is changed (keys shorter than 2^61 bytes, and
messages that are so with the padding: of longer ones the contract says nothing). -/
theorem C52_hmac_value (B : Backend) (k : Kind) (L : Library) (Rep : L.State → List Byte → Prop) (hL : Contract L k Rep) (hT : Tame L k.hashSize) (env : OEnv) (kh : List Byte) (hkh : kh.length = k.hashSize) (key keySize i size o n : Nat)
    (s s' : OSt L.State) (hk : AreaOk s.caller (some key) keySize) (hb : AreaOk s.caller (some i) size) (hh : AreaOk s.caller (some o) n) (hkl : keySize < 2 ^ 61) (hml : size < 2 ^ 61 - 128)
    (hrun : oCalculateHmac B L k.hashSize k.blockSize env kh (some key) keySize (some i) size (some o) n s = .ok (1, s')) :
    s'.caller = overwrite s.caller o (Spec.hmac k.blockSize k.std.digest (slice s.caller key keySize) (slice s.caller i size)) := by
  obtain ⟨r, c, mem, fl, e, -, -, -, h⟩ := oCalculateHmac_ok k hT B env kh hkh (some key) keySize (some i) size (some o) n s hk hb hh
  rw [hrun] at e
  simp only [Res.ok.injEq, Prod.mk.injEq] at e
  obtain ⟨rfl, rfl⟩ := e
  rcases h with ⟨-, -, -, q, i', o', h1, h2, h3, -, -, -, -, -, h4⟩ | h
  · cases h1; cases h2; cases h3
    have := (block_facts k).2.1
    exact h4 ⟨Rep, hL⟩ hkl (by omega)
  · exact absurd h.1 (by decide)

/-- Both theorems of `calculate_hmac` apply to short and long keys. -/
example (B : Backend) (k : Kind) (keySize : Nat) (h : keySize ≤ 128) : ∃ s', oCalculateHmac B (exactLibrary k) k.hashSize k.blockSize ⟨fun _ => true, fun _ _ => 1⟩ (List.replicate k.hashSize 1) (some 10) keySize (some 120) 100 (some 60) 80 (ost1 _ []) = .ok (1, s') ∧
    s'.caller = overwrite (ost1 (List Byte) []).caller 60 (Spec.hmac k.blockSize k.std.digest (slice (ost1 (List Byte) []).caller 10 keySize) (slice (ost1 (List Byte) []).caller 120 100)) := by
  obtain ⟨r, s', fl, e, -, -, hs, -⟩ := C52_hmac_result B k (exactLibrary k) (exact_tame k) ⟨fun _ => true, fun _ _ => 1⟩ (List.replicate k.hashSize 1) (by simp) (some 10) keySize (some 120) 100 (some 60) 80 (ost1 _ [])
    (ost1_area _ _ _ _ (by omega)) (ost1_area _ _ _ _ (by omega)) (ost1_area _ _ _ _ (by omega))
  obtain rfl := hs (bargs1 B k keySize h) (fun _ _ => rfl) (exact_reliable k)
  exact ⟨s', e, C52_hmac_value B k (exactLibrary k) _ (exact_contract k) (exact_tame k) _ _ (by simp) _ _ _ _ _ _ _ s' (ost1_area _ _ _ _ (by omega)) (ost1_area _ _ _ _ (by omega)) (ost1_area _ _ _ _ (by omega)) (by omega) (by omega) e⟩

/-- C52. Same result as the built-in implementation (of either build variant `u`) with the same arguments, memory and allocation outcomes, and after success the same memory, with a good library and sizes that the build accepts: `calculate`. -/
theorem C52_calculate_same (B : Backend) (k : Kind) (L : Library) (Rep : L.State → List Byte → Prop) (hL : Contract L k Rep) (hr : Reliable L) (hT : Tame L k.hashSize) (u : Bool) (env : Env k.width) (hj : Kind.Junk k env.scr)
    (buffer : Option Nat) (size : Nat) (hash : Option Nat) (n : Nat) (s : St k.width) (t : OSt L.State) (hc : t.ctxs.count = s.count) (hm : t.caller = s.caller) (hb : AreaOk s.caller buffer size) (hh : AreaOk s.caller hash n)
    (h1 : size ≤ B.maxUpdate ∨ maxSize < size) (h2 : n ≤ B.maxOutput ∨ maxSize < n) (hlen : size < 2 ^ 61 ∨ maxSize < size) :
    ∃ r s' t', calculate (algOf k) u env buffer size hash n s = .ok (r, s') ∧ oCalculate B L k.hashSize ⟨env.allocOk, env.junkByte⟩ buffer size hash n t = .ok (r, t') ∧ t'.caller = s'.caller := by
  obtain ⟨r, s', e, hr1, hiff, hfail, -⟩ := C18_calculate_result k u env s buffer size hash n hj hb hh
  obtain ⟨r', t', e', hr2, himp, hsucc, hfail', -⟩ := C52_calculate_result B k L hT ⟨env.allocOk, env.junkByte⟩ buffer size hash n t (hm ▸ hb) (hm ▸ hh)
  have hmu := maxUpdate_le B
  have hmo := maxOutput_le B
  rw [show ssizeMax = maxSize from rfl] at hmu hmo
  have hargs : BDigestArgs B k buffer size hash n ↔ DigestArgs k buffer size hash n := by
    unfold BDigestArgs DigestArgs
    constructor
    · rintro ⟨g1, g2, g3, g4, g5⟩
      exact ⟨g1, by omega, g3, g4, by omega⟩
    · rintro ⟨g1, g2, g3, g4, g5⟩
      exact ⟨g1, by omega, g3, g4, by omega⟩
  simp only [hc] at himp hsucc
  rcases hr1 with rfl | rfl
  · obtain ⟨ha, hal⟩ := hiff.mp rfl
    obtain rfl : r' = 1 := hsucc (hargs.mpr ha) hal hr
    refine ⟨1, s', t', e, e', ?_⟩
    obtain ⟨g1, g2, g3, g4, g5⟩ := ha
    obtain ⟨i, rfl⟩ := Option.ne_none_iff_exists'.mp g1
    obtain ⟨o, rfl⟩ := Option.ne_none_iff_exists'.mp g3
    have hs : size < 2 ^ 61 := by omega
    rw [C52_calculate_digest B k L Rep hL hT _ i size o n t t' (hm ▸ hb) (hm ▸ hh) hs e', hm]
    obtain ⟨s2, e2, hs2⟩ := C08_calculate_standard_partial k u env s i size o n hj hal (hb i rfl g2) (hh o rfl g5) g2 ⟨g4, g5⟩ (fun _ => hs)
    rw [e] at e2
    simp only [Res.ok.injEq, Prod.mk.injEq, true_and] at e2
    rw [e2, hs2]
  · have hne : r' ≠ 1 := fun h => by
      obtain ⟨ha, hal⟩ := himp h
      exact absurd (hiff.mpr ⟨hargs.mp ha, hal⟩) (by decide)
    obtain rfl : r' = -1 := by omega
    exact ⟨-1, s', t', e, e', by rw [hfail' rfl hr, hfail rfl, hm]⟩

/-- C52. The same for `calculate_hmac`. -/
theorem C52_hmac_same (B : Backend) (k : Kind) (L : Library) (Rep : L.State → List Byte → Prop) (hL : Contract L k Rep) (hr : Reliable L) (hT : Tame L k.hashSize) (u : Bool) (env : Env k.width) (kh : List Byte)
    (key : Option Nat) (keySize : Nat) (buffer : Option Nat) (size : Nat) (hmac : Option Nat) (n : Nat) (s : St k.width) (t : OSt L.State) (hc : t.ctxs.count = s.count) (hm : t.caller = s.caller)
    (hcall : HmacCall k env kh s key keySize buffer size hmac n)
    (h0 : keySize ≤ B.maxUpdate ∨ maxSize < keySize) (h1 : size ≤ B.maxUpdate ∨ maxSize < size) (h2 : n ≤ B.maxOutput ∨ maxSize < n) (hkl : keySize < 2 ^ 61 ∨ maxSize < keySize) (hlen : size < 2 ^ 61 - 128 ∨ maxSize < size) :
    ∃ r l' s' t', calculateHmac (algOf k) u env kh key keySize buffer size hmac n s = .ok (r, l', s') ∧
      oCalculateHmac B L k.hashSize k.blockSize ⟨env.allocOk, env.junkByte⟩ kh key keySize buffer size hmac n t = .ok (r, t') ∧ (r = 1 → t'.caller = s'.caller) := by
  obtain ⟨r, l', s', e, hr1, hiff⟩ := C20_hmac_result k u env kh s key keySize buffer size hmac n hcall
  obtain ⟨r', t', fl, e', hr2, himp, hsucc, -⟩ := C52_hmac_result B k L hT ⟨env.allocOk, env.junkByte⟩ kh hcall.keyHash key keySize buffer size hmac n t (hm ▸ hcall.key) (hm ▸ hcall.buffer) (hm ▸ hcall.hmac)
  have hmu := maxUpdate_le B
  have hmo := maxOutput_le B
  rw [show ssizeMax = maxSize from rfl] at hmu hmo
  have hargs : BHmacArgs B k key keySize buffer size hmac n ↔ HmacArgs k key keySize buffer size hmac n := by
    unfold BHmacArgs HmacArgs BDigestArgs DigestArgs
    constructor
    · rintro ⟨f1, f2, -, g1, g2, g3, g4, g5⟩
      exact ⟨f1, f2, g1, by omega, g3, g4, by omega⟩
    · rintro ⟨f1, f2, g1, g2, g3, g4, g5⟩
      exact ⟨f1, f2, fun _ => by omega, g1, by omega, g3, g4, by omega⟩
  simp only [hc] at himp hsucc
  rcases hr1 with rfl | rfl
  · obtain ⟨ha, hal⟩ := hiff.mp rfl
    obtain rfl : r' = 1 := hsucc (hargs.mpr ha) hal hr
    refine ⟨1, l', s', t', e, e', fun _ => ?_⟩
    have ha' := ha
    obtain ⟨f1, f2, g1, g2, g3, g4, g5⟩ := ha
    obtain ⟨q, rfl⟩ := Option.ne_none_iff_exists'.mp f1
    obtain ⟨i, rfl⟩ := Option.ne_none_iff_exists'.mp g1
    obtain ⟨o, rfl⟩ := Option.ne_none_iff_exists'.mp g3
    rw [C52_hmac_value B k L Rep hL hT _ kh hcall.keyHash q keySize i size o n t t' (hm ▸ hcall.key) (hm ▸ hcall.buffer) (hm ▸ hcall.hmac) (by omega) (by omega) e', hm]
    obtain ⟨l2, s2, e2, hs2⟩ := C09_hmac_standard_partial k u env kh s q keySize i size o n hcall ha' hal (fun _ => ⟨by omega, by omega⟩)
    rw [e] at e2
    simp only [Res.ok.injEq, Prod.mk.injEq, true_and] at e2
    rw [e2.2, hs2]
  · have hne : r' ≠ 1 := fun h => by
      obtain ⟨ha, hal, -⟩ := himp h
      exact absurd (hiff.mpr ⟨hargs.mp ha, hal⟩) (by decide)
    obtain rfl : r' = -1 := by omega
    exact ⟨-1, l', s', t', e, e', fun h => absurd h (by decide)⟩

example (B : Backend) (k : Kind) (keySize : Nat) (h : keySize ≤ 128) : ∃ t : OSt (List Byte), t.ctxs.count = (st1 k.width).count ∧ t.caller = (st1 k.width).caller ∧
    HmacCall k (env0 k) (List.replicate k.hashSize 1) (st1 k.width) (some 10) keySize (some 120) 100 (some 60) 80 ∧ (keySize ≤ B.maxUpdate ∨ maxSize < keySize) ∧ (100 ≤ B.maxUpdate ∨ maxSize < 100) ∧ (80 ≤ B.maxOutput ∨ maxSize < 80) := by
  have h1 := maxUpdate_ge B
  have h2 := maxOutput_ge B
  exact ⟨ost1 _ [], rfl, rfl, call1 k _ keySize (by omega), .inl (by omega), .inl (by omega), .inl (by omega)⟩

/-- C52_calculate_same applies to every backend with an exact library. -/
example (B : Backend) (k : Kind) (u : Bool) : ∃ r s' t', calculate (algOf k) u (env0 k) (some 120) 100 (some 60) 80 (st1 k.width) = .ok (r, s') ∧
    oCalculate B (exactLibrary k) k.hashSize ⟨(env0 k).allocOk, (env0 k).junkByte⟩ (some 120) 100 (some 60) 80 (ost1 _ []) = .ok (r, t') ∧ t'.caller = s'.caller := by
  have h1 := maxUpdate_ge B
  have h2 := maxOutput_ge B
  have c := call1 k (fun _ => true) 20 (by omega)
  exact C52_calculate_same B k (exactLibrary k) _ (exact_contract k) (exact_reliable k) (exact_tame k) u (env0 k) c.junk (some 120) 100 (some 60) 80 (st1 k.width) (ost1 _ []) rfl rfl c.buffer c.hmac (.inl (by omega)) (.inl (by omega))
    (.inl (by omega))

end Props
