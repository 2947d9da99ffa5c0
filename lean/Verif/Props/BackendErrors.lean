import Verif.Proofs.BackendErrors
import Verif.Props.Backend
/-! C55: the errors given to a caller in the builds over a crypto library, with a library of which nothing is assumed. -/

namespace Props

open Model Spec

/-- C55, the full claim for a build and a library: in every history that has a result each call gives an error exactly if it returns -1, and otherwise returns 1. -/
def C55Statement (B : Backend) (L : Library) : Prop :=
  ∀ (hashSize : Nat) (allocOk : Nat → Bool) (calls : List ApiCall) (slot slot' : Option Nat) (s s' : BSt L.State) (rs : List (Reply × List Err)),
    ebRun B L hashSize allocOk calls slot s = .ok (rs, slot', s') → ∀ y ∈ rs, y.1.code = 1 ∧ y.2 = [] ∨ y.1.code = -1 ∧ y.2 ≠ []

/-- C55. The error output changes nothing else: replies, context variable and memory are those of the model without it, for every history from every state. -/
theorem C55_same_behaviour (B : Backend) (L : Library) (hashSize : Nat) (allocOk : Nat → Bool) (calls : List ApiCall) (slot slot' : Option Nat) (s s' : BSt L.State) (rs : List (Reply × List Err))
    (h : ebRun B L hashSize allocOk calls slot s = .ok (rs, slot', s')) : bRun B L hashSize allocOk calls slot s = .ok (rs.map (·.1), slot', s') ∧ rs.length = calls.length := by
  obtain ⟨f, g, e⟩ := ebRun_eq B L hashSize allocOk calls slot s
  rw [e] at h
  cases hm : bRun B L hashSize allocOk calls slot s with
  | ub => rw [hm] at h; cases h
  | diverge => rw [hm] at h; cases h
  | ok x =>
    rw [hm] at h
    obtain ⟨g1, g2, -⟩ := g x hm
    cases h
    refine ⟨?_, by simp [g1, g2]⟩
    rw [show (fun x : Reply × List Err => x.1) = Prod.fst from rfl, List.map_fst_zip (by omega)]

/-- C55. Every valid history has a result. -/
theorem C55_defined (B : Backend) (L : Library) (hashSize : Nat) (allocOk : Nat → Bool) (calls : List ApiCall) (hv : ∀ c ∈ calls, c.Valid) (t : BSt L.State) :
    ∃ rs q t', ebRun B L hashSize allocOk calls none t = .ok (rs, q, t') ∧ rs.length = calls.length := by
  obtain ⟨rs, q, t', e, hl, -⟩ := C48_released B L hashSize allocOk calls hv t
  obtain ⟨f, g, e2⟩ := ebRun_eq B L hashSize allocOk calls none t
  rw [e] at e2
  obtain ⟨g1, g2, -⟩ := g _ e
  exact ⟨_, q, t', e2, by simp [g1, hl]⟩

/-- The limits of the builds: ULONG_MAX bytes of input in the direct build with a 32-bit long, UINT_MAX bytes of output (and one test of its size) in the EVP builds. -/
def buildLimits : Backend → Limits
  | .direct true => ⟨2 ^ 32 - 1, maxSize, false⟩
  | .direct false => ⟨maxSize, maxSize, false⟩
  | .evpEmbedded => ⟨maxSize, 2 ^ 32 - 1, true⟩
  | .evpAllocated => ⟨maxSize, 2 ^ 32 - 1, true⟩

theorem limits_eq (B : Backend) : B.limits = buildLimits B := by
  cases B with
  | direct b => cases b <;> rfl
  | _ => rfl

/-- C55. Every error is explained, in every history that has a result: a call whose arguments are refused, or whose allocation fails, returns -1 with the error of that cause; any other call succeeds without error, or returns -1 with
the one error of the function (the library failed); only free in the build with an embedded EVP context may return 1 with an error, if the library's clean up fails. -/
theorem C55_explained (B : Backend) (L : Library) (hashSize : Nat) (allocOk : Nat → Bool) (calls : List ApiCall) (slot slot' : Option Nat) (s s' : BSt L.State) (rs : List (Reply × List Err))
    (h : ebRun B L hashSize allocOk calls slot s = .ok (rs, slot', s')) :
    Explained (B = .evpEmbedded ∧ ∃ n, L.cleanup n = false) (buildLimits B) hashSize allocOk slot.isSome s.count (calls.zip rs) := by
  obtain ⟨f, g, e⟩ := ebRun_eq B L hashSize allocOk calls slot s
  rw [e] at h
  cases hm : bRun B L hashSize allocOk calls slot s with
  | ub => rw [hm] at h; cases h
  | diverge => rw [hm] at h; cases h
  | ok x =>
    rw [hm] at h
    have := (g x hm).2.2
    rw [limits_eq] at this
    cases h
    exact this

example (B : Backend) (k : Kind) : ∃ rs q t', ebRun B (failingLibrary k) k.hashSize (fun n => n != 1) failCalls none ⟨0, 0, []⟩ = .ok (rs, q, t') ∧
    bRun B (failingLibrary k) k.hashSize (fun n => n != 1) failCalls none ⟨0, 0, []⟩ = .ok (rs.map (·.1), q, t') ∧
    Explained (B = .evpEmbedded ∧ ∃ n, (failingLibrary k).cleanup n = false) (buildLimits B) k.hashSize (fun n => n != 1) false 0 (failCalls.zip rs) := by
  obtain ⟨rs, q, t', h, -⟩ := C55_defined B (failingLibrary k) k.hashSize (fun n => n != 1) failCalls (by
    intro c hc
    simp only [failCalls, List.mem_cons, List.not_mem_nil, or_false] at hc
    rcases hc with rfl | rfl | rfl | rfl | rfl | rfl | rfl | rfl <;> simp [ApiCall.Valid]) ⟨0, 0, []⟩
  exact ⟨rs, q, t', h, (C55_same_behaviour _ _ _ _ _ _ _ _ _ _ h).1, C55_explained _ _ _ _ _ _ _ _ _ _ h⟩

theorem explained_codes {dirty : Prop} (hd : ¬ dirty) {m : Limits} {n : Nat} {al : Nat → Bool} : ∀ {l : List (ApiCall × Reply × List Err)} {present : Bool} {i : Nat}, Explained dirty m n al present i l →
    ∀ y ∈ l, y.2.1.code = 1 ∧ y.2.2 = [] ∨ y.2.1.code = -1 ∧ y.2.2 ≠ []
  | [], _, _, _, y, hy => by simp at hy
  | (c, r, es) :: t, present, i, h, y, hy => by
    rcases List.mem_cons.mp hy with rfl | hy
    · rcases h.1 with ⟨h1, h2, h3⟩ | ⟨-, h2, h3⟩ | ⟨-, -, h2, h3⟩ | ⟨h1, -⟩
      · exact .inr ⟨h2, by rw [h3]; exact h1⟩
      · exact .inl ⟨h2, h3⟩
      · exact .inr ⟨h2, by rw [h3]; simp⟩
      · exact (hd h1).elim
    · exact explained_codes hd h.2 y hy

/-- C55. The claim holds for every build and library, except the build with an embedded EVP context and a library whose clean up fails. -/
theorem C55_failures_partial (B : Backend) (L : Library) (hL : B = .evpEmbedded → ∀ n, L.cleanup n = true) : C55Statement B L := by
  intro hashSize allocOk calls slot slot' s s' rs h y hy
  have hx := C55_explained B L hashSize allocOk calls slot slot' s s' rs h
  obtain ⟨-, hl⟩ := C55_same_behaviour B L hashSize allocOk calls slot slot' s s' rs h
  obtain ⟨i, hi, rfl⟩ := List.getElem_of_mem hy
  refine explained_codes (fun hd => ?_) hx (calls[i]'(by omega), rs[i]) ?_
  · obtain ⟨hb, n, hn⟩ := hd
    rw [hL hb n] at hn
    cases hn
  · rw [← List.getElem_zip (h := by simp; omega)]
    exact List.getElem_mem _

/-- The conditions of `C55_failures_partial` hold of a library with failing updates, and it applies to histories with failures. -/
example (B : Backend) (k : Kind) : (B = .evpEmbedded → ∀ n, (failingLibrary k).cleanup n = true) ∧ ∃ rs q t', ebRun B (failingLibrary k) k.hashSize (fun n => n != 1) failCalls none ⟨0, 0, []⟩ = .ok (rs, q, t') ∧ rs.length = 8 := by
  refine ⟨fun _ _ => rfl, C55_defined B _ _ _ _ ?_ _⟩
  intro c hc
  simp only [failCalls, List.mem_cons, List.not_mem_nil, or_false] at hc
  rcases hc with rfl | rfl | rfl | rfl | rfl | rfl | rfl | rfl <;> simp [ApiCall.Valid]

/-- The errors of that history in one build: the second update fails in the library, and the second allocation fails. -/
example (k : Kind) : ∃ rs q t', ebRun (.direct false) (failingLibrary k) k.hashSize (fun n => n != 1) failCalls none ⟨0, 0, []⟩ = .ok (rs, q, t') ∧
    rs.map (·.2) = [[], [], [.rtSetFailed], [], [], [.memInsufficient], [.argInvalid], [.argInvalid]] := by
  have hk : ¬ 64 < k.hashSize := by cases k <;> decide
  simp [failCalls, ebRun, ebStep, ebInitialize, ebUpdate, ebFinalize, ebFree, bState, bSetState, bTake, bErase, failingLibrary, BSt.tick, getKey, setKey, eraseKey, Backend.maxUpdate, Backend.maxOutput, ssizeMax, hk,
    -List.reduceReplicate]

/-- A library whose clean up fails. -/
def uncleanLibrary (k : Kind) : Library := { exactLibrary k with cleanup := fun _ => false }

/-- C55. With an embedded EVP context a failing clean up gives an error, though free returns 1 and released the context. -/
theorem C55_free_error_with_success (L : Library) (allocOk : Nat → Bool) (hashSize : Nat) (t : BSt L.State) (st : L.State) (hal : allocOk t.count = true) (hi : L.init t.calls = some st) (hcl : L.cleanup (t.calls + 1) = false) :
    ∃ t', ebRun .evpEmbedded L hashSize allocOk [.init, .free] none t = .ok ([(⟨1, none⟩, []), (⟨1, none⟩, [.rtFinalizeFailed])], none, t') ∧ t'.live = t.live := by
  obtain ⟨count, calls, live⟩ := t
  simp only at hal hi hcl
  refine ⟨⟨count + 1, calls + 2, live⟩, ?_, rfl⟩
  simp [ebRun, ebStep, ebInitialize, ebDigestInit, ebFree, hal, hi, hcl, BSt.tick, bErase, getKey, setKey, eraseKey]

example (k : Kind) : (fun _ => true : Nat → Bool) 0 = true ∧ (uncleanLibrary k).init 0 = some [] ∧ (uncleanLibrary k).cleanup (0 + 1) = false := ⟨rfl, rfl, rfl⟩

/-- C55. So the full claim is false for that build. -/
theorem C55_statement_false (k : Kind) : ¬ C55Statement .evpEmbedded (uncleanLibrary k) := by
  intro h
  obtain ⟨t', e, -⟩ := C55_free_error_with_success (uncleanLibrary k) (fun _ => true) k.hashSize ⟨0, 0, []⟩ [] rfl rfl rfl
  rcases h _ _ _ _ _ _ _ _ e (⟨1, none⟩, [.rtFinalizeFailed]) (by simp) with ⟨-, h⟩ | ⟨h, -⟩
  · cases h
  · exact absurd h (by decide)

/-- C55. The error of an output area that is too small is not the same in all builds: the EVP builds say "value out of bounds", the direct build and the built-in code "value too small". -/
theorem C55_small_output (B : Backend) (k : Kind) (L : Library) (p : Nat) (o : List Byte) (size : Nat) (s : BSt L.State) (h : size < k.hashSize) :
    ebFinalize B L k.hashSize (some p) (some o) size s [] = .ok (-1, some o, s, [if (buildLimits B).oneTest then .argOutOfBounds else .argTooSmall]) ∧
      callErrors k.hashSize true true (.finalize (some o) size) = [.argTooSmall] := by
  have h64 : k.hashSize ≤ 64 := by cases k <;> decide
  have hm : ¬ B.maxOutput < size := by
    cases B with
    | direct b => show ¬ 2 ^ 63 - 1 < size; omega
    | _ => show ¬ 2 ^ 32 - 1 < size; omega
  constructor
  · simp only [ebFinalize, if_neg hm, if_pos h, List.nil_append]
    cases B with
    | direct b => cases b <;> rfl
    | _ => rfl
  · simp [callErrors, firstErrors, outputErrors, h]

example (k : Kind) : 15 < k.hashSize := by cases k <;> decide

end Props
