import Verif.Model.Fuzz
import Verif.Props.OneShot
/-! C65: the fuzz targets. -/

namespace Props

open Model Spec

/-- An input of the engine: NULL, or an area in its memory; the local array has its size. -/
def FuzzInput (k : Kind) (memory : Nat) (x : (Option Nat × Nat) × Env k.width × List Byte) : Prop :=
  (∀ p, x.1.1 = some p → p + x.1.2 ≤ memory) ∧ Kind.Junk k x.2.1.scr ∧ x.2.2.length = k.hashSize

theorem fuzzOne_ok (k : Kind) (u : Bool) (x : (Option Nat × Nat) × Env k.width × List Byte) (s : St k.width) (h : FuzzInput k s.caller.length x) :
    ∃ s', fuzzOne k u x.2.1 x.2.2 x.1.1 x.1.2 s = .ok (0, s') ∧ s'.caller = s.caller ∧ s'.live = s.live ∧ s'.count = s.count + 1 := by
  obtain ⟨⟨data, size⟩, env, hash⟩ := x
  obtain ⟨h1, h2, h3⟩ := h
  dsimp only at h1 h2 h3 ⊢
  have hb : AreaOk (s.caller ++ hash) data size := by
    rintro p rfl -
    have := h1 p rfl
    rw [List.length_append]
    omega
  have hh : AreaOk (s.caller ++ hash) (some s.caller.length) k.hashSize := by
    rintro p ⟨⟩ -
    rw [List.length_append, h3]
  obtain ⟨r, s', e, hr, -, hf, hl, hc, -⟩ := C18_calculate_result k u env { s with caller := s.caller ++ hash } data size (some s.caller.length) k.hashSize h2 hb hh
  unfold fuzzOne
  rw [algOf_hashSize, e]
  refine ⟨_, rfl, ?_, hl, hc⟩
  rcases hr with rfl | rfl
  · obtain ⟨l, w⟩ := C11_calculate_writes_digest_only k u env _ s' data size s.caller.length k.hashSize h2 hb hh e
    apply List.ext_getElem?
    intro j
    dsimp only
    rw [List.getElem?_take]
    split
    · rename_i hj
      rw [w j (.inl hj)]
      exact List.getElem?_append_left hj
    · rw [List.getElem?_eq_none (by omega)]
  · dsimp only
    rw [hf rfl]
    simp

/-- C65. For every sequence of inputs of any sizes (also NULL), every outcome of allocations and every content of uninitialised memory: a fuzz target has no undefined behaviour, ends, returns 0 each time as the engine requires,
does not change the inputs or other memory of the engine, and leaves nothing allocated. -/
theorem C65_fuzz_target (k : Kind) (u : Bool) : ∀ (inputs : List ((Option Nat × Nat) × Env k.width × List Byte)) (s : St k.width),
    (∀ x ∈ inputs, FuzzInput k s.caller.length x) →
    ∃ s', fuzzRun k u inputs s = .ok (List.replicate inputs.length 0, s') ∧ s'.caller = s.caller ∧ s'.live = s.live ∧ s'.count = s.count + inputs.length
  | [], s, _ => ⟨s, rfl, rfl, rfl, rfl⟩
  | x :: t, s, h => by
    obtain ⟨s₁, e₁, c₁, l₁, n₁⟩ := fuzzOne_ok k u x s (h x (List.mem_cons_self ..))
    obtain ⟨s₂, e₂, c₂, l₂, n₂⟩ := C65_fuzz_target k u t s₁ (fun y hy => c₁ ▸ h y (List.mem_cons_of_mem _ hy))
    refine ⟨s₂, ?_, c₂.trans c₁, l₂.trans l₁, by rw [n₂, n₁, List.length_cons]; omega⟩
    obtain ⟨⟨data, size⟩, env, hash⟩ := x
    unfold fuzzRun
    dsimp only at e₁
    rw [e₁]
    show (fuzzRun k u t s₁).bind _ = _
    rw [e₂]
    rfl

/-- Three inputs: NULL, an empty one, and one of 90 bytes for which the allocation fails. -/
example (k : Kind) : ∀ x ∈ ([((none, 0), env0 k, List.replicate k.hashSize 1), ((some 4, 0), env0 k, List.replicate k.hashSize 2),
    ((some 10, 90), { env0 k with allocOk := fun _ => false }, List.replicate k.hashSize 3)] : List ((Option Nat × Nat) × Env k.width × List Byte)),
    FuzzInput k (st0 k.width).caller.length x := by
  intro x hx
  simp only [List.mem_cons, List.not_mem_nil, or_false] at hx
  rcases hx with rfl | rfl | rfl <;> refine ⟨?_, junk0_ok k, by simp⟩ <;> rintro p ⟨⟩ <;> simp [st0]

/-- C65. What the target computes is the real thing: a single input of at most the largest size, with a successful allocation, is hashed completely (the digest is the one of the input; it stays in the local array). -/
theorem C65_fuzz_hashes (k : Kind) (u : Bool) (env : Env k.width) (hash : List Byte) (s : St k.width) (p size : Nat) (hj : Kind.Junk k env.scr) (hh : hash.length = k.hashSize)
    (hp : p + size ≤ s.caller.length) (hs : size ≤ maxSize) (hal : env.allocOk s.count = true) :
    ∃ s', calculate (algOf k) u env (some p) size (some s.caller.length) (algOf k).hashSize { s with caller := s.caller ++ hash } = .ok (1, s') ∧
      s'.caller = s.caller ++ k.len64.digest (slice s.caller p size) := by
  obtain ⟨s', e, c⟩ := C08_calculate k u env { s with caller := s.caller ++ hash } p size s.caller.length k.hashSize hj hal
    (by rw [List.length_append]; omega) (by rw [List.length_append, hh]) hs ⟨Nat.le_refl _, by cases k <;> decide⟩
  rw [algOf_hashSize]
  refine ⟨s', e, ?_⟩
  rw [c]
  have hsl : slice (s.caller ++ hash) p size = slice s.caller p size := by
    unfold slice
    rw [List.drop_append_of_le_length (by omega), List.take_append_of_le_length (by rw [List.length_drop]; omega)]
  dsimp only
  rw [hsl]
  unfold overwrite
  simp [digest_length, hh]

example (k : Kind) := C65_fuzz_hashes k true (env0 k) (List.replicate k.hashSize 1) (st0 k.width) 10 90 (junk0_ok k) (by simp) (by simp [st0]) (by decide) rfl

end Props
