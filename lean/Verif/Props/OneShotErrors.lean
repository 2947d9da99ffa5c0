import Verif.Proofs.OneShotErrors
import Verif.Props.BackendOneShot
import Verif.Props.BackendErrors
import Verif.Props.Errors
/-! C61: the errors given to a caller of `libhmac_*_calculate` and `libhmac_*_calculate_hmac` in the builds over a crypto library. -/

namespace Props

open Model Spec

/-- C61, the full claim for a build and a library: a one-shot call that has a result returns 1 and adds no error, or returns -1 and adds an error. -/
def C61Statement (B : Backend) (L : Library) : Prop :=
  (∀ (k : Kind) (env : OEnv) (buffer : Option Nat) (size : Nat) (hash : Option Nat) (n : Nat) (s s' : OSt L.State) (r : Int) (es es' : List Err),
    eoCalculate B L k.hashSize env buffer size hash n s es = .ok ((r, s'), es') → ∃ new, es' = es ++ new ∧ (r = 1 ∧ new = [] ∨ r = -1 ∧ new ≠ [])) ∧
  ∀ (k : Kind) (env : OEnv) (kh : List Byte) (key : Option Nat) (keySize : Nat) (buffer : Option Nat) (size : Nat) (hmac : Option Nat) (n : Nat) (s s' : OSt L.State) (r : Int) (es es' : List Err),
    eoCalculateHmac B L k.hashSize k.blockSize env kh key keySize buffer size hmac n s es = .ok ((r, s'), es') → ∃ new, es' = es ++ new ∧ (r = 1 ∧ new = [] ∨ r = -1 ∧ new ≠ [])

theorem not_reliable {L : Library} (h : Unreliable L) : ¬ Reliable L := by
  intro hr
  rcases h with ⟨n, h⟩ | ⟨n, h⟩ | ⟨n, st, b, h⟩ | ⟨n, st, b, h⟩
  · exact hr.init n h
  · rw [hr.create] at h; cases h
  · rw [hr.update] at h; cases h
  · rw [hr.final] at h; cases h

theorem stops_imp {p q : Prop} (h : p → q) : ∀ {l : List Stage} {es : List Err}, Stops p l es → Stops q l es
  | _ :: _, _, .inl g => .inl g
  | _ :: _, _, .inr ⟨g, .inl ⟨g1, g2, g3⟩⟩ => .inr ⟨g, .inl ⟨g1, h g2, g3⟩⟩
  | _ :: _, _, .inr ⟨g, .inr g1⟩ => .inr ⟨g, .inr (stops_imp h g1)⟩

theorem outcome_imp {d p q : Prop} (h : p → q) {l : List Stage} {r : Int} {es : List Err} (g : OneShotOutcome d p l r es) : OneShotOutcome d q l r es := by
  obtain ⟨u, c, h1, h2, h3, h4⟩ := g
  exact ⟨u, c, h1, h2, h3, h4.imp_right fun g => ⟨g.1, stops_imp h g.2⟩⟩

theorem adds_result {α} {m : Res α} {em : List Err → Res (α × List Err)} {P : α → List Err → Prop} (h : Adds m em P) {x : α} {es es' : List Err} (hx : em es = .ok (x, es')) : m = .ok x ∧ ∃ new, es' = es ++ new ∧ P x new := by
  obtain ⟨f, g, e⟩ := h
  rw [e] at hx
  cases hm : m with
  | ub => rw [hm] at hx; cases hx
  | diverge => rw [hm] at hx; cases hx
  | ok y =>
    rw [hm] at hx
    cases hx
    exact ⟨rfl, _, rfl, g _ hm⟩

theorem adds_of {α} {m : Res α} {em : List Err → Res (α × List Err)} {P : α → List Err → Prop} (h : Adds m em P) {x : α} (hx : m = .ok x) : ∃ new, P x new ∧ ∀ es, em es = .ok (x, es ++ new) := by
  obtain ⟨f, g, e⟩ := h
  refine ⟨f x, g x hx, fun es => ?_⟩
  rw [e, hx]
  rfl

theorem block_ok (B : Backend) (k : Kind) : k.hashSize ≤ B.maxOutput ∧ k.blockSize ≠ 0 ∧ k.blockSize ≤ B.maxUpdate := by
  have h1 := maxUpdate_ge B
  have h2 := maxOutput_ge B
  have h3 : k.hashSize ≤ 64 := by cases k <;> decide
  have h4 : k.blockSize ≤ 128 := by cases k <;> decide
  exact ⟨by omega, by cases k <;> decide, by omega⟩

/-- The library's clean up may fail (the embedded EVP context is the only build that looks at it). -/
def Unclean (B : Backend) (L : Library) : Prop := B = .evpEmbedded ∧ ∃ n, L.cleanup n = false

/-- C61. `calculate`, in every run that has a result: asking for errors changes neither the result nor memory; errors there before are kept; the new ones are those of the first check that fails (then the result is -1), or those of the
function in which the library failed (-1), or none (1), preceded only by errors of failing clean ups. -/
theorem C61_calculate (B : Backend) (k : Kind) (L : Library) (env : OEnv) (buffer : Option Nat) (size : Nat) (hash : Option Nat) (n : Nat) (s s' : OSt L.State) (r : Int) (es es' : List Err)
    (h : eoCalculate B L k.hashSize env buffer size hash n s es = .ok ((r, s'), es')) :
    oCalculate B L k.hashSize env buffer size hash n s = .ok (r, s') ∧ ∃ new, es' = es ++ new ∧
      OneShotOutcome (Unclean B L) (¬ Reliable L) (calculateStages (buildLimits B) k.hashSize (fun i => env.allocOk (s.ctxs.count + i)) buffer.isSome size hash.isSome n) r new := by
  obtain ⟨h1, new, h2, h3⟩ := adds_result (eoCalculate_adds k.hashSize env buffer size hash n s) h
  rw [limits_eq] at h3
  exact ⟨h1, new, h2, outcome_imp not_reliable h3⟩

/-- C61. The same for `calculate_hmac`. -/
theorem C61_hmac (B : Backend) (k : Kind) (L : Library) (env : OEnv) (kh : List Byte) (key : Option Nat) (keySize : Nat) (buffer : Option Nat) (size : Nat) (hmac : Option Nat) (n : Nat) (s s' : OSt L.State) (r : Int) (es es' : List Err)
    (h : eoCalculateHmac B L k.hashSize k.blockSize env kh key keySize buffer size hmac n s es = .ok ((r, s'), es')) :
    oCalculateHmac B L k.hashSize k.blockSize env kh key keySize buffer size hmac n s = .ok (r, s') ∧ ∃ new, es' = es ++ new ∧
      OneShotOutcome (Unclean B L) (¬ Reliable L) (hmacStages (buildLimits B) k.hashSize k.blockSize (fun i => env.allocOk (s.ctxs.count + i)) key.isSome keySize buffer.isSome size hmac.isSome n) r new := by
  obtain ⟨b1, b2, b3⟩ := block_ok B k
  obtain ⟨h1, new, h2, h3⟩ := adds_result (eoCalculateHmac_adds k.hashSize k.blockSize b1 b2 b3 env kh key keySize buffer size hmac n s) h
  rw [limits_eq] at h3
  exact ⟨h1, new, h2, outcome_imp not_reliable h3⟩

/-- C61. Both have a result for every area that is there, whatever the library does (it stores at most a digest in the output area). -/
theorem C61_defined (B : Backend) (k : Kind) (L : Library) (hT : Tame L k.hashSize) (env : OEnv) (kh : List Byte) (hkh : kh.length = k.hashSize) (key : Option Nat) (keySize : Nat) (buffer : Option Nat) (size : Nat) (out : Option Nat) (n : Nat)
    (s : OSt L.State) (es : List Err) (hk : AreaOk s.caller key keySize) (hb : AreaOk s.caller buffer size) (hh : AreaOk s.caller out n) :
    (∃ r s' es', eoCalculate B L k.hashSize env buffer size out n s es = .ok ((r, s'), es')) ∧
      ∃ r s' es', eoCalculateHmac B L k.hashSize k.blockSize env kh key keySize buffer size out n s es = .ok ((r, s'), es') := by
  obtain ⟨b1, b2, b3⟩ := block_ok B k
  constructor
  · obtain ⟨r, s', e, -⟩ := C52_calculate_result B k L hT env buffer size out n s hb hh
    obtain ⟨new, -, h⟩ := adds_of (eoCalculate_adds k.hashSize env buffer size out n s) e
    exact ⟨r, s', _, h es⟩
  · obtain ⟨r, s', fl, e, -⟩ := C52_hmac_result B k L hT env kh hkh key keySize buffer size out n s hk hb hh
    obtain ⟨new, -, h⟩ := adds_of (eoCalculateHmac_adds k.hashSize k.blockSize b1 b2 b3 env kh key keySize buffer size out n s) e
    exact ⟨r, s', _, h es⟩

/-- The conditions hold of a library of which a call fails. -/
example (B : Backend) (k : Kind) (bad keySize : Nat) (h : keySize ≤ 128) : Tame (brokenLibrary k bad) k.hashSize ∧ AreaOk (ost1 (List Byte) []).caller (some 10) keySize ∧ AreaOk (ost1 (List Byte) []).caller (some 120) 100 ∧
    AreaOk (ost1 (List Byte) []).caller (some 60) 80 :=
  ⟨broken_tame k bad, ost1_area _ _ _ _ (by omega), ost1_area _ _ _ _ (by omega), ost1_area _ _ _ _ (by omega)⟩

theorem stops_ne {p : Prop} : ∀ {l : List Stage} {es : List Err}, Stops p l es → es ≠ []
  | _ :: _, _, .inl ⟨g, h⟩ => h ▸ g
  | _ :: _, _, .inr ⟨_, .inl ⟨g, _, h⟩⟩ => h ▸ g
  | _ :: _, _, .inr ⟨_, .inr g⟩ => stops_ne g

theorem outcome_clean {d p : Prop} (hd : ¬ d) {l : List Stage} {r : Int} {es : List Err} (g : OneShotOutcome d p l r es) : r = 1 ∧ es = [] ∧ (∀ s ∈ l, s.checks = []) ∨ r = -1 ∧ Stops p l es := by
  obtain ⟨u, c, rfl, -, h3, h4⟩ := g
  have hu : u = [] := by
    by_contra hu
    exact hd (h3 hu)
  subst hu
  simpa using h4

/-- C61. The claim holds for every build and library, except the build with an embedded EVP context and a library whose clean up fails. -/
theorem C61_failures_partial (B : Backend) (L : Library) (hL : B = .evpEmbedded → ∀ n, L.cleanup n = true) : C61Statement B L := by
  have hd : ¬ Unclean B L := by
    rintro ⟨hb, n, hn⟩
    rw [hL hb n] at hn
    cases hn
  constructor
  · intro k env buffer size hash n s s' r es es' h
    obtain ⟨-, new, h1, h2⟩ := C61_calculate B k L env buffer size hash n s s' r es es' h
    refine ⟨new, h1, ?_⟩
    rcases outcome_clean hd h2 with ⟨h3, h4, -⟩ | ⟨h3, h4⟩
    · exact .inl ⟨h3, h4⟩
    · exact .inr ⟨h3, stops_ne h4⟩
  · intro k env kh key keySize buffer size hmac n s s' r es es' h
    obtain ⟨-, new, h1, h2⟩ := C61_hmac B k L env kh key keySize buffer size hmac n s s' r es es' h
    refine ⟨new, h1, ?_⟩
    rcases outcome_clean hd h2 with ⟨h3, h4, -⟩ | ⟨h3, h4⟩
    · exact .inl ⟨h3, h4⟩
    · exact .inr ⟨h3, stops_ne h4⟩

example (B : Backend) (k : Kind) (bad : Nat) : B = .evpEmbedded → ∀ n, (brokenLibrary k bad).cleanup n = true := fun _ _ => rfl

/-- C61. The full claim is false with an embedded EVP context and a library whose clean up fails: a digest is calculated, the result is 1, and there is an error. -/
theorem C61_statement_false (k : Kind) : ¬ C61Statement .evpEmbedded (uncleanLibrary k) := by
  rintro ⟨h, -⟩
  have key : ∀ (m : List Byte), m.length = 64 → ∃ s', eoCalculate .evpEmbedded (uncleanLibrary k) k.hashSize ⟨fun _ => true, fun _ _ => 1⟩ (some 0) 0 (some 0) 64 ⟨m, ⟨0, 0, []⟩, [], []⟩ [] = .ok ((1, s'), [.rtFinalizeFailed]) := by
    intro m hm
    have hk : ¬ 64 < k.hashSize := by cases k <;> decide
    simp [eoCalculate, eoInitialize, eoUpdate, eoFinalize, eoFree, oRegion, ebInitialize, ebDigestInit, ebUpdate, ebFinalize, ebFree, bState, bSetState, bErase, uncleanLibrary, exactLibrary, BSt.tick, getKey, setKey, eraseKey, failed,
      Backend.maxUpdate, Backend.maxOutput, ssizeMax, hk, oSetRegion]
  obtain ⟨s', e⟩ := key (List.replicate 64 0) (by simp)
  obtain ⟨new, h1, h2⟩ := h _ _ _ _ _ _ _ _ _ _ _ e
  rw [List.nil_append] at h1
  subst h1
  rcases h2 with ⟨-, h2⟩ | ⟨h2, -⟩
  · cases h2
  · exact absurd h2 (by decide)

theorem stops_reliable {p : Prop} (hp : ¬ p) : ∀ {l : List Stage} {es : List Err}, Stops p l es → es = firstErrors (l.map (·.checks))
  | ⟨e :: t, lib⟩ :: rest, _, .inl ⟨_, h⟩ => by rw [h]; rfl
  | ⟨[], lib⟩ :: rest, _, .inl ⟨g, _⟩ => absurd rfl g
  | _ :: _, _, .inr ⟨_, .inl ⟨_, g, _⟩⟩ => absurd g hp
  | ⟨[], lib⟩ :: rest, _, .inr ⟨_, .inr g⟩ => by
    rw [stops_reliable hp g]
    rfl
  | ⟨e :: t, lib⟩ :: rest, _, .inr ⟨g, _⟩ => by cases g

theorem firstErrors_cons (x : List Err) (l : List (List Err)) : firstErrors (x :: l) = if x = [] then firstErrors l else x := by
  cases x with
  | nil => rfl
  | cons e es => rfl

theorem firstErrors_step {x : List Err} {l l' : List (List Err)} (h : x = [] → firstErrors l = firstErrors l') : firstErrors (x :: l) = firstErrors (x :: l') := by
  rw [firstErrors_cons, firstErrors_cons]
  split
  · exact h ‹_›
  · rfl

theorem firstErrors_none {l : List (List Err)} (h : ∀ x ∈ l, x = []) : firstErrors l = [] := by
  induction l with
  | nil => rfl
  | cons x t ih => rw [firstErrors_cons, if_pos (h x (by simp)), ih fun y hy => h y (by simp [hy])]

theorem outcome_reliable {d p : Prop} (hd : ¬ d) (hp : ¬ p) {l : List Stage} {r : Int} {es : List Err} (g : OneShotOutcome d p l r es) : es = firstErrors (l.map (·.checks)) := by
  rcases outcome_clean hd g with ⟨-, rfl, h⟩ | ⟨-, h⟩
  · rw [firstErrors_none]
    intro x hx
    obtain ⟨s, hs, rfl⟩ := List.mem_map.mp hx
    exact h s hs
  · exact stops_reliable hp h

theorem inputStage_builtin (given : Bool) (size : Nat) : (inputStage (buildLimits (.direct false)) given size).checks = within .rtSetFailed (inputErrors given size) := by
  unfold inputStage inputErrors
  cases given
  · rfl
  · by_cases h : 2 ^ 63 - 1 < size
    · rw [if_pos (show (buildLimits (.direct false)).maxInput < size from h), if_pos h]; rfl
    · rw [if_neg (show ¬ (buildLimits (.direct false)).maxInput < size from h), if_neg h]; rfl

theorem outputStage_builtin (k : Kind) (given : Bool) (n : Nat) : (outputStage (buildLimits (.direct false)) k.hashSize given n).checks = within .rtFinalizeFailed (outputErrors k.hashSize given n) := by
  have hk : k.hashSize ≤ 64 := by cases k <;> decide
  unfold outputStage outputErrors
  cases given
  · rfl
  · by_cases h : n < k.hashSize
    · have h2 : ¬ 2 ^ 63 - 1 < n := by omega
      rw [if_neg (show ¬ (buildLimits (.direct false)).maxOutput < n from h2), if_pos h, if_pos h]; rfl
    · rw [if_neg h, if_neg h]
      by_cases h2 : 2 ^ 63 - 1 < n
      · rw [if_pos (show (buildLimits (.direct false)).maxOutput < n from h2), if_pos h2]; rfl
      · rw [if_neg (show ¬ (buildLimits (.direct false)).maxOutput < n from h2), if_neg h2]; rfl

/-- C61. With a library that does not fail, the build with the functions of libcrypto (and a 64-bit long) gives exactly the errors of the built-in code (C54), for all arguments and allocation failures: `calculate`. -/
theorem C61_calculate_builtin (k : Kind) (L : Library) (hR : Reliable L) (env : OEnv) (buffer : Option Nat) (size : Nat) (hash : Option Nat) (n : Nat) (s s' : OSt L.State) (r : Int) (es es' : List Err)
    (h : eoCalculate (.direct false) L k.hashSize env buffer size hash n s es = .ok ((r, s'), es')) :
    es' = es ++ calculateErrors k.hashSize (fun i => env.allocOk (s.ctxs.count + i)) buffer.isSome size hash.isSome n := by
  obtain ⟨-, new, rfl, h2⟩ := C61_calculate _ k L env buffer size hash n s s' r es es' h
  rw [outcome_reliable (by rintro ⟨h, -⟩; cases h) (fun h => h hR) h2]
  simp only [calculateStages, List.map, inputStage_builtin, outputStage_builtin]
  rfl

/-- C61. The same for `calculate_hmac`. -/
theorem C61_hmac_builtin (k : Kind) (L : Library) (hR : Reliable L) (env : OEnv) (kh : List Byte) (key : Option Nat) (keySize : Nat) (buffer : Option Nat) (size : Nat) (hmac : Option Nat) (n : Nat) (s s' : OSt L.State) (r : Int)
    (es es' : List Err) (h : eoCalculateHmac (.direct false) L k.hashSize k.blockSize env kh key keySize buffer size hmac n s es = .ok ((r, s'), es')) :
    es' = es ++ hmacErrors k.hashSize k.blockSize (fun i => env.allocOk (s.ctxs.count + i)) key.isSome keySize buffer.isSome size hmac.isSome n := by
  obtain ⟨-, new, rfl, h2⟩ := C61_hmac _ k L env kh key keySize buffer size hmac n s s' r es es' h
  rw [outcome_reliable (by rintro ⟨h, -⟩; cases h) (fun h => h hR) h2]
  congr 1
  have hk : k.hashSize ≤ 64 := by cases k <;> decide
  have w0 : ∀ e, within e [] = [] := fun _ => rfl
  simp only [hmacStages, hmacErrors, memoryStage, contextStage, longKeyStages, passStages, List.map_append, List.map, inputStage_builtin, outputStage_builtin, List.cons_append, List.nil_append]
  have tail : ∀ c, firstErrors [memoryErrors (env.allocOk (s.ctxs.count + c)), memoryErrors (env.allocOk (s.ctxs.count + (c + 1))), within .rtInitializeFailed (memoryErrors (env.allocOk (s.ctxs.count + (c + 2)))), [],
      within .rtSetFailed (inputErrors buffer.isSome size), within .rtFinalizeFailed (outputErrors k.hashSize hmac.isSome n), within .rtInitializeFailed (memoryErrors (env.allocOk (s.ctxs.count + (c + 3)))), [],
      within .rtSetFailed (inputErrors hmac.isSome k.hashSize), within .rtFinalizeFailed (outputErrors k.hashSize hmac.isSome n)] =
    firstErrors [memoryErrors (env.allocOk (s.ctxs.count + c)), memoryErrors (env.allocOk (s.ctxs.count + (c + 1))), within .rtInitializeFailed (memoryErrors (env.allocOk (s.ctxs.count + (c + 2)))),
      within .rtSetFailed (inputErrors buffer.isSome size), within .rtFinalizeFailed (outputErrors k.hashSize hmac.isSome n), within .rtInitializeFailed (memoryErrors (env.allocOk (s.ctxs.count + (c + 3))))] := by
    intro c
    simp only [firstErrors_cons, if_true]
    by_cases ho : within .rtFinalizeFailed (outputErrors k.hashSize hmac.isSome n) = []
    · have hg : inputErrors hmac.isSome k.hashSize = [] := by
        cases hmac with
        | none => simp [outputErrors, within] at ho
        | some o =>
          have : ¬ 2 ^ 63 - 1 < k.hashSize := by omega
          simp only [inputErrors, Option.isSome_some, Bool.not_true, Bool.false_eq_true, if_false, if_neg this]
      simp only [ho, hg, w0, if_true]
    · simp only [if_neg ho]
  by_cases hs : keySize ≤ k.blockSize
  · simp only [if_pos hs, List.map_nil, List.nil_append, List.append_nil, List.cons_append]
    exact firstErrors_step fun _ => firstErrors_step fun _ => firstErrors_step fun _ => tail 1
  · simp only [if_neg hs, List.map, List.cons_append, List.nil_append, inputStage_builtin]
    refine firstErrors_step fun hi => firstErrors_step fun _ => firstErrors_step fun _ => firstErrors_step fun _ => ?_
    have hi' : inputErrors true keySize = [] := by
      cases key with
      | none => simp [inputErrors] at hi
      | some k => exact hi
    rw [hi']
    exact tail 2

/-- C61. In every build: an HMAC call with arguments that the build accepts and a library that does not fail, that returns -1, reports lack of memory first, and an allocation failed. -/
theorem C61_hmac_cause (B : Backend) (k : Kind) (L : Library) (hR : Reliable L) (hc : B = .evpEmbedded → ∀ n, L.cleanup n = true) (env : OEnv) (kh : List Byte) (key : Option Nat) (keySize : Nat) (buffer : Option Nat) (size : Nat)
    (hmac : Option Nat) (n : Nat) (s s' : OSt L.State) (es es' : List Err) (ha : BHmacArgs B k key keySize buffer size hmac n)
    (h : eoCalculateHmac B L k.hashSize k.blockSize env kh key keySize buffer size hmac n s es = .ok ((-1, s'), es')) :
    (∃ rest, es' = es ++ .memInsufficient :: rest) ∧ ∃ j < allocations k keySize, env.allocOk (s.ctxs.count + j) = false := by
  have hd : ¬ Unclean B L := by
    rintro ⟨hb, n, hn⟩
    rw [hc hb n] at hn
    cases hn
  obtain ⟨-, new, rfl, h2⟩ := C61_hmac B k L env kh key keySize buffer size hmac n s s' _ es es' h
  have hne : new ≠ [] := by
    rcases outcome_clean hd h2 with ⟨h3, -⟩ | ⟨-, h3⟩
    · exact absurd h3 (by decide)
    · exact stops_ne h3
  have hx := outcome_reliable hd (fun h => h hR) h2
  obtain ⟨f1, f2, f3, g1, g2, g3, g4, g5⟩ := ha
  obtain ⟨q, rfl⟩ := Option.ne_none_iff_exists'.mp f1
  obtain ⟨i, rfl⟩ := Option.ne_none_iff_exists'.mp g1
  obtain ⟨o, rfl⟩ := Option.ne_none_iff_exists'.mp g3
  cases new with
  | nil => exact absurd rfl hne
  | cons cause rest =>
  have hh : (firstErrors ((hmacStages (buildLimits B) k.hashSize k.blockSize (fun i => env.allocOk (s.ctxs.count + i)) true keySize true size true n).map (·.checks))).head? = some cause := by
    rw [Option.isSome_some, Option.isSome_some, Option.isSome_some] at hx
    rw [← hx]
    rfl
  obtain ⟨x, hxm, hx2⟩ := firstErrors_mem hh
  rw [← limits_eq] at hxm
  have hin : ∀ z, z ≤ B.maxUpdate → (inputStage B.limits true z).checks = [] := by
    intro z hz
    have h1 : B.limits.maxInput = B.maxUpdate := rfl
    have h2 : ¬ B.maxUpdate < z := by omega
    simp only [inputStage, h1, if_neg h2]
    rfl
  have hout : (outputStage B.limits k.hashSize true n).checks = [] := by
    have h1 : B.limits.maxOutput = B.maxOutput := rfl
    have h2 : ¬ B.maxOutput < n := by omega
    have h3 : ¬ n < k.hashSize := by omega
    simp only [outputStage, h1, if_neg h2, if_neg h3]
    rfl
  have hkb := (block_ok B k)
  have hks : k.hashSize ≤ B.maxUpdate := by
    have h1 := maxUpdate_ge B
    have h3 : k.hashSize ≤ 64 := by cases k <;> decide
    omega
  have hie : inputErrors true keySize = [] := by
    have : ¬ 2 ^ 63 - 1 < keySize := by unfold maxSize at f2; omega
    simp only [inputErrors, Bool.not_true, Bool.false_eq_true, if_false, if_neg this]
  have h3 : ¬ n < k.hashSize := by omega
  have mem : ∀ j, j < allocations k keySize → (memoryErrors (env.allocOk (s.ctxs.count + j))).head? = some cause ∨ (within .rtInitializeFailed (memoryErrors (env.allocOk (s.ctxs.count + j)))).head? = some cause →
      (∃ rest', es ++ cause :: rest = es ++ Err.memInsufficient :: rest') ∧ ∃ j < allocations k keySize, env.allocOk (s.ctxs.count + j) = false := by
    intro j hj hcs
    cases ha : env.allocOk (s.ctxs.count + j) with
    | true =>
      rw [ha] at hcs
      rcases hcs with hcs | hcs <;> cases hcs
    | false =>
      rw [ha] at hcs
      have : cause = .memInsufficient := by rcases hcs with hcs | hcs <;> exact (Option.some.inj hcs).symm
      exact ⟨⟨rest, by rw [this]⟩, j, hj, ha⟩
  by_cases hs : keySize ≤ k.blockSize
  · have hal : allocations k keySize = 5 := by unfold allocations; rw [if_pos hs]
    simp only [hmacStages, if_pos hs, passStages, List.map_append, List.map, List.cons_append, List.nil_append, hin _ g2, hin _ hks, hout, hie, if_neg h3, memoryStage, contextStage] at hxm
    simp only [List.mem_cons, List.not_mem_nil, or_false] at hxm
    rcases hxm with rfl | rfl | rfl | rfl | rfl | rfl | rfl | rfl | rfl | rfl | rfl | rfl | rfl
    all_goals first
      | (cases hx2; done)
      | exact mem 0 (by omega) (by first | exact .inl hx2 | exact .inr hx2)
      | exact mem 1 (by omega) (by first | exact .inl hx2 | exact .inr hx2)
      | exact mem 2 (by omega) (by first | exact .inl hx2 | exact .inr hx2)
      | exact mem 3 (by omega) (by first | exact .inl hx2 | exact .inr hx2)
      | exact mem 4 (by omega) (by first | exact .inl hx2 | exact .inr hx2)
  · have hal : allocations k keySize = 6 := by unfold allocations; rw [if_neg hs]
    simp only [hmacStages, if_neg hs, passStages, longKeyStages, List.map_append, List.map, List.cons_append, List.nil_append, hin _ g2, hin _ hks, hin _ (f3 (by omega)), hout, hie, if_neg h3, memoryStage, contextStage] at hxm
    simp only [List.mem_cons, List.not_mem_nil, or_false] at hxm
    rcases hxm with rfl | rfl | rfl | rfl | rfl | rfl | rfl | rfl | rfl | rfl | rfl | rfl | rfl | rfl | rfl | rfl
    all_goals first
      | (cases hx2; done)
      | exact mem 0 (by omega) (by first | exact .inl hx2 | exact .inr hx2)
      | exact mem 1 (by omega) (by first | exact .inl hx2 | exact .inr hx2)
      | exact mem 2 (by omega) (by first | exact .inl hx2 | exact .inr hx2)
      | exact mem 3 (by omega) (by first | exact .inl hx2 | exact .inr hx2)
      | exact mem 4 (by omega) (by first | exact .inl hx2 | exact .inr hx2)
      | exact mem 5 (by omega) (by first | exact .inl hx2 | exact .inr hx2)

/-- Such a call, in every build: the second allocation fails. -/
example (B : Backend) (k : Kind) (es : List Err) : Reliable (exactLibrary k) ∧ BHmacArgs B k (some 10) 20 (some 120) 100 (some 60) 80 ∧ ∃ s' es',
    eoCalculateHmac B (exactLibrary k) k.hashSize k.blockSize ⟨fun n => n != 6, fun _ _ => 1⟩ (List.replicate k.hashSize 1) (some 10) 20 (some 120) 100 (some 60) 80 (ost1 _ []) es = .ok ((-1, s'), es') := by
  refine ⟨exact_reliable k, bargs1 B k 20 (by omega), ?_⟩
  have a1 := ost1_area (List Byte) [] 10 20 (by omega)
  have a2 := ost1_area (List Byte) [] 120 100 (by omega)
  have a3 := ost1_area (List Byte) [] 60 80 (by omega)
  obtain ⟨-, r, s', es', e⟩ := C61_defined B k (exactLibrary k) (exact_tame k) ⟨fun n => n != 6, fun _ _ => 1⟩ (List.replicate k.hashSize 1) (by simp) (some 10) 20 (some 120) 100 (some 60) 80 (ost1 _ []) es a1 a2 a3
  obtain ⟨h1, -⟩ := C61_hmac B k _ _ _ _ _ _ _ _ _ _ _ _ _ _ e
  obtain ⟨r', s1, fl, e', hr, h2, -⟩ := C52_hmac_result B k (exactLibrary k) (exact_tame k) ⟨fun n => n != 6, fun _ _ => 1⟩ (List.replicate k.hashSize 1) (by simp) (some 10) 20 (some 120) 100 (some 60) 80 (ost1 _ []) a1 a2 a3
  rw [h1] at e'
  cases e'
  rcases hr with rfl | rfl
  · have h3 := (h2 rfl).2.1 1 (by unfold allocations; split <;> omega)
    cases h3
  · exact ⟨s', es', e⟩

/-- A call in which the update of the library fails (call 10). -/
example (k : Kind) : ∃ s', eoCalculate (.direct false) (brokenLibrary k 10) k.hashSize ⟨fun _ => true, fun _ _ => 1⟩ (some 120) 100 (some 60) 80 (ost1 _ []) [] = .ok ((-1, s'), [.rtSetFailed, .rtSetFailed]) := by
  have key : ∀ (m : List Byte) (b f : List (Nat × List Byte)), 100 ≤ ((m.drop 120).take 100).length → eoCalculate (.direct false) (brokenLibrary k 10) k.hashSize ⟨fun _ => true, fun _ _ => 1⟩ (some 120) 100 (some 60) 80
      ⟨m, ⟨5, 9, [(2, .ctx (some []) .null)]⟩, b, f⟩ [] = .ok ((-1, ⟨m, ⟨6, 11, [(2, .ctx (some []) .null)]⟩, b, f⟩), [.rtSetFailed, .rtSetFailed]) := by
    intro m b f hl
    generalize hx : (m.drop 120).take 100 = x at hl
    simp [eoCalculate, eoInitialize, eoUpdate, ebInitialize, ebUpdate, eoCalculateError, failed, oRegion, oCalculateError, oFreeOpt, oFree, bFree, bState, bSetState, bTake, bErase, brokenLibrary, BSt.tick, getKey, setKey, eraseKey,
      Backend.maxUpdate, ssizeMax, hx, hl]
  exact ⟨_, key (List.replicate 300 7) [(3, [1, 2])] [] (by simp [-List.reduceReplicate])⟩

/-- One-shot calls over a library that fails once: C61_calculate applies. -/
example (B : Backend) (k : Kind) (bad : Nat) (es : List Err) : ∃ r s' new, eoCalculate B (brokenLibrary k bad) k.hashSize ⟨fun _ => true, fun _ _ => 1⟩ (some 120) 100 (some 60) 80 (ost1 _ []) es = .ok ((r, s'), es ++ new) ∧
    OneShotOutcome (Unclean B (brokenLibrary k bad)) (¬ Reliable (brokenLibrary k bad)) (calculateStages (buildLimits B) k.hashSize (fun _ => true) true 100 true 80) r new := by
  obtain ⟨⟨r, s', es', h⟩, -⟩ := C61_defined B k (brokenLibrary k bad) (broken_tame k bad) ⟨fun _ => true, fun _ _ => 1⟩ (List.replicate k.hashSize 1) (by simp) (some 10) 20 (some 120) 100 (some 60) 80 (ost1 _ []) es
    (ost1_area _ _ _ _ (by omega)) (ost1_area _ _ _ _ (by omega)) (ost1_area _ _ _ _ (by omega))
  obtain ⟨-, new, rfl, g⟩ := C61_calculate _ _ _ _ _ _ _ _ _ _ _ _ _ h
  exact ⟨r, s', new, h, g⟩

/-- The built-in algorithms with an output area of 15 bytes: C61_calculate_builtin and C61_hmac_builtin apply, and errors are left. -/
example (k : Kind) (es : List Err) : (∃ r s', eoCalculate (.direct false) (exactLibrary k) k.hashSize ⟨fun _ => true, fun _ _ => 1⟩ (some 120) 100 (some 60) 15 (ost1 _ []) es =
      .ok ((r, s'), es ++ calculateErrors k.hashSize (fun _ => true) true 100 true 15)) ∧
    (∃ r s', eoCalculateHmac (.direct false) (exactLibrary k) k.hashSize k.blockSize ⟨fun _ => true, fun _ _ => 1⟩ (List.replicate k.hashSize 1) (some 10) 20 (some 120) 100 (some 60) 15 (ost1 _ []) es =
      .ok ((r, s'), es ++ hmacErrors k.hashSize k.blockSize (fun _ => true) true 20 true 100 true 15)) ∧
    calculateErrors k.hashSize (fun _ => true) true 100 true 15 ≠ [] ∧ hmacErrors k.hashSize k.blockSize (fun _ => true) true 20 true 100 true 15 ≠ [] := by
  obtain ⟨⟨r, s', es', h⟩, r2, s2, es2, h2⟩ := C61_defined (.direct false) k (exactLibrary k) (exact_tame k) ⟨fun _ => true, fun _ _ => 1⟩ (List.replicate k.hashSize 1) (by simp) (some 10) 20 (some 120) 100 (some 60) 15 (ost1 _ []) es
    (ost1_area _ _ _ _ (by omega)) (ost1_area _ _ _ _ (by omega)) (ost1_area _ _ _ _ (by omega))
  exact ⟨⟨r, s', by rw [h, C61_calculate_builtin k _ (exact_reliable k) _ _ _ _ _ _ _ _ _ _ h]; rfl⟩, ⟨r2, s2, by rw [h2, C61_hmac_builtin k _ (exact_reliable k) _ _ _ _ _ _ _ _ _ _ _ _ _ h2]; rfl⟩,
    by cases k <;> decide, by cases k <;> decide⟩

end Props
