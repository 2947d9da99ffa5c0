import Verif.Proofs.Api
import Verif.Model.Kinds
/-! The refinement for all five hash functions. -/

namespace Model

open Spec (Kind)

theorem lawful : (k : Kind) → ∃ enc, Lawful (algOf k) k.len64 enc
  | .md5 => ⟨_, md5Lawful⟩
  | .sha1 => ⟨_, sha1Lawful⟩
  | .sha224 => ⟨_, sha224Lawful⟩
  | .sha256 => ⟨_, sha256Lawful⟩
  | .sha512 => ⟨_, sha512Lawful⟩

theorem algOf_hashSize (k : Kind) : (algOf k).hashSize = k.hashSize := by cases k <;> rfl
theorem algOf_blockSize (k : Kind) : (algOf k).blockSize = k.blockSize := by cases k <;> rfl
theorem algOf_nHash (k : Kind) : (algOf k).nHash = k.words := by cases k <;> rfl
theorem std_iv (k : Kind) : k.std.iv = k.len64.iv := by cases k <;> rfl
theorem len64_bs (k : Kind) : k.len64.blockBytes = k.blockSize := by cases k <;> rfl

theorem scrOk_of_junk {k : Kind} {scr : Scr k.width} (h : Kind.Junk k scr) : ScrOk (algOf k) scr := by
  cases k <;> exact h

theorem digestFrom_lenField {w} (H : Spec.IterHash w) (f : Nat → List Byte) (h0 : List (BitVec w)) (m : List Byte)
    (h : f (8 * m.length) = H.lenField (8 * m.length)) :
    ({ H with lenField := f } : Spec.IterHash w).digestFrom h0 m = H.digestFrom h0 m := by
  simp only [Spec.IterHash.digestFrom, Spec.pad, h, Spec.IterHash.chain]

/-- Within the length limit the implementation's hash is the standard one. -/
theorem len64_digestFrom (k : Kind) (h0 : List (BitVec k.width)) (m : List Byte) (h : k.LengthOk m.length) :
    k.len64.digestFrom h0 m = k.std.digestFrom h0 m := by
  cases k with
  | sha512 =>
    have h : m.length < 2 ^ 61 := h
    refine digestFrom_lenField Spec.sha512 _ h0 m ?_
    show Spec.beBytes 16 (8 * m.length % 2 ^ 64) = Spec.beBytes 16 (8 * m.length)
    rw [Nat.mod_eq_of_lt (by omega)]
  | _ => rfl

theorem len64_digest (k : Kind) (m : List Byte) (h : k.LengthOk m.length) : k.len64.digest m = k.std.digest m := by
  rw [Spec.IterHash.digest, Spec.IterHash.digest, len64_digestFrom k _ m h, std_iv]

theorem chain_length_words (k : Kind) (h0 : List (BitVec k.width)) (bs : List (List Byte)) (h : h0.length = k.words) :
    (k.len64.chain h0 bs).length = k.words := by
  obtain ⟨enc, L⟩ := lawful k
  rw [← algOf_nHash] at *
  exact chain_len L _ _ h

theorem digestFrom_length (k : Kind) (h0 : List (BitVec k.width)) (m : List Byte) (h : h0.length = k.words) : (k.len64.digestFrom h0 m).length = k.hashSize := by
  obtain ⟨enc, L⟩ := lawful k
  rw [← algOf_hashSize]
  exact L.outLen _ (by rw [algOf_nHash]; exact chain_length_words k _ _ h)

theorem iv_length (k : Kind) : k.len64.iv.length = k.words := by cases k <;> rfl

theorem digest_length (k : Kind) (m : List Byte) : (k.len64.digest m).length = k.hashSize := digestFrom_length k _ m (iv_length k)

/-- The abstract machine of a hash function as implemented. -/
abbrev specRun (k : Kind) := Spec.apiRun k.len64 k.hashSize (List.replicate k.words 0)

/-- `run_ok` from a NULL context variable, for every hash function. -/
theorem run_kind (k : Kind) (u : Bool) (env : Env k.width) (calls : List (Spec.ApiCall × Scr k.width)) (s : St k.width)
    (hv : ∀ c ∈ calls, c.1.Valid ∧ Kind.Junk k c.2) :
    ∃ slot' s', run (algOf k) u env calls none s = .ok ((specRun k env.allocOk (calls.map (·.1)) ⟨none, s.count⟩).1, slot', s') ∧
      ApiRel (algOf k) k.len64 s.live slot' s' (specRun k env.allocOk (calls.map (·.1)) ⟨none, s.count⟩).2 ∧ s'.caller = s.caller ∧
      s'.freed.length + slot'.isSome.toNat = s.freed.length +
          created ((calls.map (·.1)).zip (specRun k env.allocOk (calls.map (·.1)) ⟨none, s.count⟩).1) := by
  obtain ⟨enc, L⟩ := lawful k
  have := run_ok L u env s.live calls none s ⟨none, s.count⟩ (fun c hc => ⟨(hv c hc).1, scrOk_of_junk (hv c hc).2⟩) ⟨rfl, rfl⟩
  rw [algOf_hashSize, algOf_nHash] at this
  simp only [Option.isSome_none, Bool.toNat_false, Nat.add_zero] at this
  exact this

theorem apiRun_append {w} (H : Spec.IterHash w) (n z al) (a b : List Spec.ApiCall) (st : Spec.ApiState w) :
    Spec.apiRun H n z al (a ++ b) st =
      ((Spec.apiRun H n z al a st).1 ++ (Spec.apiRun H n z al b (Spec.apiRun H n z al a st).2).1,
        (Spec.apiRun H n z al b (Spec.apiRun H n z al a st).2).2) := by
  induction a generalizing st with
  | nil => rfl
  | cons c a ih => simp only [List.cons_append, Spec.apiRun, ih]

/-- Successful updates accumulate the message. -/
theorem apiRun_updates {w} (H : Spec.IterHash w) (n z al) (h0 : List (BitVec w)) (att : Nat) :
    ∀ (chunks : List (List Byte)) (m : List Byte), (∀ c ∈ chunks, c.length ≤ Spec.maxSize) →
      Spec.apiRun H n z al (chunks.map fun c => .update (some c) c.length) ⟨some (h0, m), att⟩ =
        (List.replicate chunks.length ⟨1, none⟩, ⟨some (h0, m ++ chunks.flatten), att⟩)
  | [], m, _ => by simp [Spec.apiRun]
  | c :: cs, m, h => by
    simp only [List.map_cons, Spec.apiRun, Spec.apiStep, h c (by simp), if_true, List.take_length]
    rw [apiRun_updates H n z al h0 att cs (m ++ c) fun x hx => h x (by simp [hx])]
    simp [List.replicate_succ]

theorem run_append {w} (A : Alg w) (u : Bool) (env : Env w) (a b : List (Spec.ApiCall × Scr w)) (slot : Option Nat) (s : St w) :
    run A u env (a ++ b) slot s = run A u env a slot s >>= fun x => run A u env b x.2.1 x.2.2 >>= fun y => .ok (x.1 ++ y.1, y.2) := by
  induction a generalizing slot s with
  | nil =>
    simp only [List.nil_append, run, Res.ok_bind]
    cases run A u env b slot s <;> rfl
  | cons c a ih =>
    obtain ⟨c, scr⟩ := c
    simp only [List.cons_append, run]
    cases step A u env c scr slot s with
    | ub => rfl
    | diverge => rfl
    | ok x =>
      simp only [Res.ok_bind, ih]
      cases run A u env a x.2.1 x.2.2 with
      | ub => rfl
      | diverge => rfl
      | ok y =>
        simp only [Res.ok_bind, Res.pure_eq]
        cases run A u env b y.2.1 y.2.2 <;> rfl

end Model
