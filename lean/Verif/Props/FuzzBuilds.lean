import Verif.Model.FuzzBuilds
import Verif.Props.Fuzz
import Verif.Props.Host
import Verif.Props.BackendOneShot
/-! C82: the fuzz targets in every build and on hosts of other widths. -/

namespace Props

open Model Spec

/-- An input of the engine: NULL, or an area in its memory; the local array has its size. -/
def FuzzInputB (k : Kind) (memory : Nat) (x : (Option Nat × Nat) × OEnv × List Byte) : Prop := (∀ p, x.1.1 = some p → p + x.1.2 ≤ memory) ∧ x.2.2.length = k.hashSize

theorem take_of_prefix {mem hash mem' : List Byte} (h : ∀ j, j < mem.length → mem'[j]? = (mem ++ hash)[j]?) : mem'.take mem.length = mem := by
  apply List.ext_getElem?
  intro j
  rw [List.getElem?_take]
  split
  · rename_i hj
    rw [h j hj]
    exact List.getElem?_append_left hj
  · rw [List.getElem?_eq_none (by omega)]

theorem fuzz_areas {mem hash : List Byte} {k : Kind} {data : Option Nat} {size : Nat} (h1 : ∀ p, data = some p → p + size ≤ mem.length) (h3 : hash.length = k.hashSize) :
    AreaOk (mem ++ hash) data size ∧ AreaOk (mem ++ hash) (some mem.length) k.hashSize := by
  constructor
  · rintro p rfl -
    have := h1 p rfl
    rw [List.length_append]
    omega
  · rintro p ⟨⟩ -
    rw [List.length_append, h3]

theorem bFuzzOne_ok (B : Backend) (k : Kind) (L : Library) (hT : Tame L k.hashSize) (x : (Option Nat × Nat) × OEnv × List Byte) (s : OSt L.State) (h : FuzzInputB k s.caller.length x) :
    ∃ s', bFuzzOne B k L x.2.1 x.2.2 x.1.1 x.1.2 s = .ok (0, s') ∧ s'.caller = s.caller ∧ s'.ctxs.live = s.ctxs.live ∧ s'.blocks = s.blocks := by
  obtain ⟨⟨data, size⟩, env, hash⟩ := x
  obtain ⟨h1, h3⟩ := h
  dsimp only at h1 h3 ⊢
  obtain ⟨hb, hh⟩ := fuzz_areas h1 h3
  obtain ⟨r, s', e, -, -, -, -, hl, hbl, -, -, w⟩ := C52_calculate_result B k L hT env data size (some s.caller.length) k.hashSize { s with caller := s.caller ++ hash } hb hh
  unfold bFuzzOne
  rw [e]
  exact ⟨_, rfl, take_of_prefix fun j hj => w j (by rintro o ⟨⟩; exact .inl hj), hl, hbl⟩

/-- C82. In every build over a crypto library whose calls may fail: for every sequence of inputs of any sizes (also NULL), every outcome of allocations and every content of uninitialised memory a fuzz target has no
undefined behaviour, ends, returns 0 each time as the engine requires, does not change the inputs or other memory of the engine, and leaves nothing allocated, neither of its own nor of the library. -/
theorem C82_fuzz_target (B : Backend) (k : Kind) (L : Library) (hT : Tame L k.hashSize) : ∀ (inputs : List ((Option Nat × Nat) × OEnv × List Byte)) (s : OSt L.State),
    (∀ x ∈ inputs, FuzzInputB k s.caller.length x) →
    ∃ s', bFuzzRun B k L inputs s = .ok (List.replicate inputs.length 0, s') ∧ s'.caller = s.caller ∧ s'.ctxs.live = s.ctxs.live ∧ s'.blocks = s.blocks
  | [], s, _ => ⟨s, rfl, rfl, rfl, rfl⟩
  | x :: t, s, h => by
    obtain ⟨s₁, e₁, c₁, l₁, n₁⟩ := bFuzzOne_ok B k L hT x s (h x (List.mem_cons_self ..))
    obtain ⟨s₂, e₂, c₂, l₂, n₂⟩ := C82_fuzz_target B k L hT t s₁ (fun y hy => c₁ ▸ h y (List.mem_cons_of_mem _ hy))
    refine ⟨s₂, ?_, c₂.trans c₁, l₂.trans l₁, n₂.trans n₁⟩
    obtain ⟨⟨data, size⟩, env, hash⟩ := x
    unfold bFuzzRun
    dsimp only at e₁
    rw [e₁]
    show (bFuzzRun B k L t s₁).bind _ = _
    rw [e₂]
    rfl

/-- C82. What the target computes is the real thing: with a library that is right and whose calls succeed, an input of a size that the build accepts is hashed completely (the digest stays in the local array). -/
theorem C82_fuzz_hashes (B : Backend) (k : Kind) (L : Library) (Rep : L.State → List Byte → Prop) (hL : Contract L k Rep) (hr : Reliable L) (hT : Tame L k.hashSize) (env : OEnv) (hash : List Byte) (s : OSt L.State)
    (p size : Nat) (hh : hash.length = k.hashSize) (hp : p + size ≤ s.caller.length) (hs : size ≤ B.maxUpdate) (hlen : size < 2 ^ 61) (hal : env.allocOk s.ctxs.count = true) :
    ∃ s', oCalculate B L k.hashSize env (some p) size (some s.caller.length) k.hashSize { s with caller := s.caller ++ hash } = .ok (1, s') ∧
      s'.caller = s.caller ++ k.std.digest (slice s.caller p size) := by
  obtain ⟨a1, a2⟩ := fuzz_areas (mem := s.caller) (data := some p) (by rintro q ⟨⟩; exact hp) hh
  obtain ⟨r, s', e, -, -, h1, -⟩ := C52_calculate_result B k L hT env (some p) size (some s.caller.length) k.hashSize { s with caller := s.caller ++ hash } a1 a2
  have hm : k.hashSize ≤ B.maxOutput := Nat.le_trans (by cases k <;> decide) (maxOutput_ge B)
  obtain rfl := h1 ⟨by simp, hs, by simp, Nat.le_refl _, hm⟩ hal hr
  refine ⟨s', e, ?_⟩
  rw [C52_calculate_digest B k L Rep hL hT env p size s.caller.length k.hashSize _ s' a1 a2 hlen e]
  have hsl : slice (s.caller ++ hash) p size = slice s.caller p size := by
    unfold slice
    rw [List.drop_append_of_le_length (by omega), List.take_append_of_le_length (by rw [List.length_drop]; omega)]
  dsimp only
  rw [hsl]
  unfold overwrite
  simp [hh, std_digest_length]

theorem hostFuzzOne_ok {hb : Nat} (w1 : 16 ≤ hb) (w2 : hb ≤ 64) (k : Kind) (u : Bool) (x : (Option Nat × Nat) × Env k.width × List Byte) (s : St k.width) (h : FuzzInput k s.caller.length x) :
    ∃ s', hostFuzzOne hb k u x.2.1 x.2.2 x.1.1 x.1.2 s = .ok (0, s') ∧ s'.caller = s.caller ∧ s'.live = s.live ∧ s'.count = s.count + 1 := by
  obtain ⟨⟨data, size⟩, env, hash⟩ := x
  obtain ⟨h1, h2, h3⟩ := h
  dsimp only at h1 h2 h3 ⊢
  obtain ⟨enc, Lw⟩ := lawful k
  have hb' : AreaOk (s.caller ++ hash) data (clip hb size) := hostArea_clip w1 w2 (by
    rintro p rfl -
    have := h1 p rfl
    rw [List.length_append]
    omega)
  have hh : AreaOk (s.caller ++ hash) (some s.caller.length) (clip hb k.hashSize) := hostArea_clip w1 w2 (by
    rintro p ⟨⟩ -
    rw [List.length_append, h3])
  obtain ⟨r, s', e, hr, -, hf, hl, hc, -⟩ := C18_calculate_result k u env { s with caller := s.caller ++ hash } data (clip hb size) (some s.caller.length) (clip hb k.hashSize) h2 hb' hh
  unfold hostFuzzOne
  rw [algOf_hashSize, hostCalculate_eq w1 w2 Lw u env (scrOk_of_junk h2) data size _ _ _ hb', e]
  refine ⟨_, rfl, ?_, hl, hc⟩
  rcases hr with rfl | rfl
  · obtain ⟨l, w⟩ := C11_calculate_writes_digest_only k u env _ s' data (clip hb size) s.caller.length (clip hb k.hashSize) h2 hb' hh e
    exact take_of_prefix fun j hj => w j (.inl hj)
  · dsimp only
    rw [hf rfl]
    simp

/-- C82. The same with the built-in code on hosts whose `size_t` has 16 to 64 bits. -/
theorem C82_fuzz_target_host {hb : Nat} (w1 : 16 ≤ hb) (w2 : hb ≤ 64) (k : Kind) (u : Bool) : ∀ (inputs : List ((Option Nat × Nat) × Env k.width × List Byte)) (s : St k.width),
    (∀ x ∈ inputs, FuzzInput k s.caller.length x) →
    ∃ s', hostFuzzRun hb k u inputs s = .ok (List.replicate inputs.length 0, s') ∧ s'.caller = s.caller ∧ s'.live = s.live ∧ s'.count = s.count + inputs.length
  | [], s, _ => ⟨s, rfl, rfl, rfl, rfl⟩
  | x :: t, s, h => by
    obtain ⟨s₁, e₁, c₁, l₁, n₁⟩ := hostFuzzOne_ok w1 w2 k u x s (h x (List.mem_cons_self ..))
    obtain ⟨s₂, e₂, c₂, l₂, n₂⟩ := C82_fuzz_target_host w1 w2 k u t s₁ (fun y hy => c₁ ▸ h y (List.mem_cons_of_mem _ hy))
    refine ⟨s₂, ?_, c₂.trans c₁, l₂.trans l₁, by rw [n₂, n₁, List.length_cons]; omega⟩
    obtain ⟨⟨data, size⟩, env, hash⟩ := x
    unfold hostFuzzRun
    dsimp only at e₁
    rw [e₁]
    show (hostFuzzRun hb k u t s₁).bind _ = _
    rw [e₂]
    rfl

/-! ### Examples -/

/-- Three inputs: NULL, an empty one, and one of 90 bytes for which the allocation fails; with a library that fails. -/
example (B : Backend) (k : Kind) := C82_fuzz_target B k (brokenLibrary k 10) (broken_tame k 10)
  [((none, 0), ⟨fun _ => true, fun _ _ => 1⟩, List.replicate k.hashSize 1), ((some 4, 0), ⟨fun _ => true, fun _ _ => 1⟩, List.replicate k.hashSize 2),
    ((some 10, 90), ⟨fun _ => false, fun _ _ => 1⟩, List.replicate k.hashSize 3)] (ost1 _ []) (by
  intro x hx
  simp only [List.mem_cons, List.not_mem_nil, or_false] at hx
  rcases hx with rfl | rfl | rfl <;> refine ⟨?_, by simp⟩ <;> rintro p ⟨⟩ <;> simp [ost1, -List.reduceReplicate])

example (B : Backend) (k : Kind) := C82_fuzz_hashes B k (exactLibrary k) _ (exact_contract k) (exact_reliable k) (exact_tame k) ⟨fun _ => true, fun _ _ => 1⟩ (List.replicate k.hashSize 1) (ost1 _ []) 10 90 (by simp)
  (by simp [ost1, -List.reduceReplicate]) (Nat.le_trans (by decide) (maxUpdate_ge B)) (by decide) rfl

example (k : Kind) := C82_fuzz_target_host (hb := 32) (by decide) (by decide) k true [((none, 0), env0 k, List.replicate k.hashSize 1), ((some 10, 90), { env0 k with allocOk := fun _ => false }, List.replicate k.hashSize 3)]
  (st0 k.width) (by
  intro x hx
  simp only [List.mem_cons, List.not_mem_nil, or_false] at hx
  rcases hx with rfl | rfl <;> refine ⟨?_, junk0_ok k, by simp⟩ <;> rintro p ⟨⟩ <;> simp [st0])

end Props
