import Verif.Proofs.BackendNoteErrors
import Verif.Props.OneShotErrors
import Verif.Props.Notes
/-! C80: the messages given to a caller in the builds over a crypto library, with a library of which nothing is assumed, for all five algorithms and both sets of functions. -/

namespace Props

open Model Spec

/-- How the library fails, in a build: only the build with an allocated EVP context creates one, and only the build with an embedded one looks at the result of its clean up. -/
def LibraryFault (B : Backend) (L : Library) : Fault → Prop
  | .initialize => ∃ n, L.init n = none
  | .create => B = .evpAllocated ∧ ∃ n, L.create n = false
  | .update => ∃ n st b, (L.update n st b).1 = false
  | .finalize => ∃ n st o, (L.final n st o).1 = false
  | .cleanUp => B = .evpEmbedded ∧ ∃ n, L.cleanup n = false

theorem libraryFault_eq (B : Backend) (L : Library) : Faults B L = LibraryFault B L := by
  funext f
  cases f <;> rfl

/-- C80. For every history, even an invalid one, through any mix of the two sets of functions and from any state: if it has a result, then the messages change nothing (replies, context variable and memory are those
of the model without them), and each call gives exactly the messages of the check that failed, or none and success, or the message about what the library failed to do; only free, in the build with an embedded EVP
context, may return 1 with a message, if the library's clean up fails. A function of the deprecated set that fails adds its own message at the end. -/
theorem C80_histories (B : Backend) (L : Library) (hashSize : Nat) (allocOk : Nat → Bool) (calls : List (Bool × ApiCall)) (slot slot' : Option Nat) (s s' : BSt L.State) (rs : List (Reply × List Note))
    (h : nbRun B L hashSize allocOk calls slot s = .ok (rs, slot', s')) :
    bRun B L hashSize allocOk (calls.map (·.2)) slot s = .ok (rs.map (·.1), slot', s') ∧ rs.length = calls.length ∧
      NotesExplained (LibraryFault B L) (buildLimits B) hashSize allocOk slot.isSome s.count (calls.zip rs) := by
  obtain ⟨f, g, e⟩ := nbRun_eq B L hashSize allocOk calls slot s
  rw [e] at h
  cases hm : bRun B L hashSize allocOk (calls.map (·.2)) slot s with
  | ub => rw [hm] at h; cases h
  | diverge => rw [hm] at h; cases h
  | ok x =>
    rw [hm] at h
    obtain ⟨g1, g2, g3⟩ := g x hm
    rw [limits_eq, libraryFault_eq] at g3
    cases h
    refine ⟨?_, by simp [g1, g2], g3⟩
    rw [show (fun x : Reply × List Note => x.1) = Prod.fst from rfl, List.map_fst_zip (by omega)]

/-- C80. Every valid history has a result. -/
theorem C80_defined (B : Backend) (L : Library) (hashSize : Nat) (allocOk : Nat → Bool) (calls : List (Bool × ApiCall)) (hv : ∀ c ∈ calls, c.2.Valid) (t : BSt L.State) :
    ∃ rs q t', nbRun B L hashSize allocOk calls none t = .ok (rs, q, t') ∧ rs.length = calls.length := by
  obtain ⟨rs, q, t', e, hl, -⟩ := C48_released B L hashSize allocOk (calls.map (·.2)) (fun c hc => by obtain ⟨d, hd, rfl⟩ := List.mem_map.mp hc; exact hv d hd) t
  obtain ⟨f, g, e2⟩ := nbRun_eq B L hashSize allocOk calls none t
  rw [e] at e2
  obtain ⟨g1, g2, -⟩ := g _ e
  exact ⟨_, q, t', e2, by simp [g1] at g2 ⊢; exact g2⟩

/-- C80. Domain and code of each message are those of the model of the errors (C55). -/
theorem C80_errors (B : Backend) (L : Library) (hashSize : Nat) (allocOk : Nat → Bool) (calls : List ApiCall) (slot : Option Nat) (s : BSt L.State) :
    ebRun B L hashSize allocOk calls slot s = nbRun B L hashSize allocOk (calls.map fun c => (false, c)) slot s >>= fun x => .ok (x.1.map fun y => (y.1, y.2.map (·.err)), x.2.1, x.2.2) :=
  nbRun_err B L hashSize allocOk calls slot s

/-- The history of C48 with a failing library, through the functions of the deprecated set. -/
def failNoteCalls : List (Bool × ApiCall) := failCalls.map fun c => (true, c)

theorem failNoteCalls_valid : ∀ c ∈ failNoteCalls, c.2.Valid := by
  intro c hc
  simp only [failNoteCalls, failCalls, List.map, List.mem_cons, List.not_mem_nil, or_false] at hc
  rcases hc with rfl | rfl | rfl | rfl | rfl | rfl | rfl | rfl <;> simp [ApiCall.Valid]

/-- It has a result, in every build. -/
example (B : Backend) (k : Kind) : ∃ rs q t', nbRun B (failingLibrary k) k.hashSize (fun n => n != 1) failNoteCalls none ⟨0, 0, []⟩ = .ok (rs, q, t') ∧ rs.length = 8 :=
  C80_defined B _ _ _ _ failNoteCalls_valid _

/-- The messages of that history in one build: the second update fails in the library, and the second allocation fails. -/
example : ∃ rs q t', nbRun (.direct false) (failingLibrary .sha256) Kind.sha256.hashSize (fun n => n != 1) failNoteCalls none ⟨0, 0, []⟩ = .ok (rs, q, t') ∧
    rs.map (fun y => y.2.map (libraryNoteText (.direct false) .sha256)) =
      [[], [], ["libhmac_sha256_context_update: unable to update context.", "libhmac_sha256_update: unable to update context."], [], [],
        ["libhmac_sha256_context_initialize: unable to create context.", "libhmac_sha256_initialize: unable to initialize context."],
        ["libhmac_sha256_context_update: invalid context.", "libhmac_sha256_update: unable to update context."],
        ["libhmac_sha256_context_finalize: invalid context.", "libhmac_sha256_finalize: unable to finalize context."]] := by
  simp [failNoteCalls, failCalls, nbRun, nbDepStep, nbDeprecated, nbStep, nbInitialize, nbUpdate, nbFinalize, nbFree, bState, bSetState, bTake, bErase, failingLibrary, BSt.tick, getKey, setKey, eraseKey, Backend.maxUpdate,
    Backend.maxOutput, ssizeMax, Kind.hashSize, -List.reduceReplicate, libraryNoteText, libraryText, functionName, algorithmName, fnName, txtText]

theorem note_adds_result {α} {m : Res α} {em : List Note → Res (α × List Note)} {P : α → List Note → Prop} (h : Notes m em P) {x : α} {ns ns' : List Note} (hx : em ns = .ok (x, ns')) : m = .ok x ∧ ∃ new, ns' = ns ++ new ∧ P x new := by
  obtain ⟨f, g, e⟩ := h
  rw [e] at hx
  cases hm : m with
  | ub => rw [hm] at hx; cases hx
  | diverge => rw [hm] at hx; cases hx
  | ok y =>
    rw [hm] at hx
    cases hx
    exact ⟨rfl, _, rfl, g _ hm⟩

theorem note_adds_of {α} {m : Res α} {em : List Note → Res (α × List Note)} {P : α → List Note → Prop} (h : Notes m em P) {x : α} (hx : m = .ok x) : ∃ new, P x new ∧ ∀ ns, em ns = .ok (x, ns ++ new) := by
  obtain ⟨f, g, e⟩ := h
  refine ⟨f x, g x hx, fun ns => ?_⟩
  rw [e, hx]
  rfl

/-- C80. `calculate`, in every run that has a result: asking for messages changes neither the result nor memory; messages there before are kept; the new ones are those of the first check that fails, or that about what
the library failed to do followed by that of this function (in both cases the result is -1), or none (1), preceded only by messages of failing clean ups. Domain and code of each are those of the model of the errors. -/
theorem C80_calculate (B : Backend) (k : Kind) (L : Library) (env : OEnv) (buffer : Option Nat) (size : Nat) (hash : Option Nat) (n : Nat) (s s' : OSt L.State) (r : Int) (ns ns' : List Note)
    (h : noCalculate B L k.hashSize env buffer size hash n s ns = .ok ((r, s'), ns')) :
    oCalculate B L k.hashSize env buffer size hash n s = .ok (r, s') ∧ eoCalculate B L k.hashSize env buffer size hash n s (ns.map (·.err)) = .ok ((r, s'), ns'.map (·.err)) ∧ ∃ new, ns' = ns ++ new ∧
      NoteOneShotOutcome (LibraryFault B L) (noteCalculateStages (buildLimits B) k.hashSize (fun i => env.allocOk (s.ctxs.count + i)) buffer.isSome size hash.isSome n) r new := by
  obtain ⟨h1, new, h2, h3⟩ := note_adds_result (noCalculate_adds k.hashSize env buffer size hash n s) h
  rw [limits_eq, libraryFault_eq] at h3
  refine ⟨h1, ?_, new, h2, h3⟩
  have he := noCalculate_err (B := B) (L := L) k.hashSize env buffer size hash n s ns
  rw [h, Res.ok_bind] at he
  exact he

/-- C80. The same for `calculate_hmac`. -/
theorem C80_hmac (B : Backend) (k : Kind) (L : Library) (env : OEnv) (kh : List Byte) (key : Option Nat) (keySize : Nat) (buffer : Option Nat) (size : Nat) (hmac : Option Nat) (n : Nat) (s s' : OSt L.State) (r : Int) (ns ns' : List Note)
    (h : noCalculateHmac B L k.hashSize k.blockSize env kh key keySize buffer size hmac n s ns = .ok ((r, s'), ns')) :
    oCalculateHmac B L k.hashSize k.blockSize env kh key keySize buffer size hmac n s = .ok (r, s') ∧
      eoCalculateHmac B L k.hashSize k.blockSize env kh key keySize buffer size hmac n s (ns.map (·.err)) = .ok ((r, s'), ns'.map (·.err)) ∧ ∃ new, ns' = ns ++ new ∧
      NoteOneShotOutcome (LibraryFault B L) (noteHmacStages (buildLimits B) k.hashSize k.blockSize (fun i => env.allocOk (s.ctxs.count + i)) key.isSome keySize buffer.isSome size hmac.isSome n) r new := by
  obtain ⟨b1, b2, b3⟩ := block_ok B k
  obtain ⟨h1, new, h2, h3⟩ := note_adds_result (noCalculateHmac_adds k.hashSize k.blockSize b1 b2 b3 env kh key keySize buffer size hmac n s) h
  rw [limits_eq, libraryFault_eq] at h3
  refine ⟨h1, ?_, new, h2, h3⟩
  have he := noCalculateHmac_err (B := B) (L := L) k.hashSize k.blockSize env kh key keySize buffer size hmac n s ns
  rw [h, Res.ok_bind] at he
  exact he

/-- C80. Both have a result for every area that is there, whatever the library does (it stores at most a digest in the output area). -/
theorem C80_one_shot_defined (B : Backend) (k : Kind) (L : Library) (hT : Tame L k.hashSize) (env : OEnv) (kh : List Byte) (hkh : kh.length = k.hashSize) (key : Option Nat) (keySize : Nat) (buffer : Option Nat) (size : Nat)
    (out : Option Nat) (n : Nat) (s : OSt L.State) (ns : List Note) (hk : AreaOk s.caller key keySize) (hb : AreaOk s.caller buffer size) (hh : AreaOk s.caller out n) :
    (∃ r s' ns', noCalculate B L k.hashSize env buffer size out n s ns = .ok ((r, s'), ns')) ∧
      ∃ r s' ns', noCalculateHmac B L k.hashSize k.blockSize env kh key keySize buffer size out n s ns = .ok ((r, s'), ns') := by
  obtain ⟨b1, b2, b3⟩ := block_ok B k
  constructor
  · obtain ⟨r, s', e, -⟩ := C52_calculate_result B k L hT env buffer size out n s hb hh
    obtain ⟨new, -, h⟩ := note_adds_of (noCalculate_adds k.hashSize env buffer size out n s) e
    exact ⟨r, s', _, h ns⟩
  · obtain ⟨r, s', fl, e, -⟩ := C52_hmac_result B k L hT env kh hkh key keySize buffer size out n s hk hb hh
    obtain ⟨new, -, h⟩ := note_adds_of (noCalculateHmac_adds k.hashSize k.blockSize b1 b2 b3 env kh key keySize buffer size out n s) e
    exact ⟨r, s', _, h ns⟩

/-- The conditions hold of a library of which a call fails. -/
example (k : Kind) (bad keySize : Nat) (h : keySize ≤ 128) : Tame (brokenLibrary k bad) k.hashSize ∧ AreaOk (ost1 (List Byte) []).caller (some 10) keySize ∧ AreaOk (ost1 (List Byte) []).caller (some 120) 100 ∧
    AreaOk (ost1 (List Byte) []).caller (some 60) 80 :=
  ⟨broken_tame k bad, ost1_area _ _ _ _ (by omega), ost1_area _ _ _ _ (by omega), ost1_area _ _ _ _ (by omega)⟩

theorem note_stops_reliable {fault : Fault → Prop} (hp : ∀ f, ¬ fault f) : ∀ {l : List NStage} {ns : List Note}, NStops fault l ns → ns = firstNotes (l.map (·.checks))
  | ⟨e :: t, fs, a⟩ :: rest, _, .inl ⟨_, h⟩ => by rw [h]; rfl
  | ⟨[], fs, a⟩ :: rest, _, .inl ⟨g, _⟩ => absurd rfl g
  | _ :: _, _, .inr ⟨_, .inl ⟨f, _, g, _⟩⟩ => absurd g (hp f)
  | ⟨[], fs, a⟩ :: rest, _, .inr ⟨_, .inr g⟩ => by
    rw [note_stops_reliable hp g]
    rfl
  | ⟨e :: t, fs, a⟩ :: rest, _, .inr ⟨g, _⟩ => by cases g

theorem firstNotes_cons (x : List Note) (l : List (List Note)) : firstNotes (x :: l) = if x = [] then firstNotes l else x := by
  cases x with
  | nil => rfl
  | cons e es => rfl

theorem firstNotes_step {x : List Note} {l l' : List (List Note)} (h : x = [] → firstNotes l = firstNotes l') : firstNotes (x :: l) = firstNotes (x :: l') := by
  rw [firstNotes_cons, firstNotes_cons]
  split
  · exact h ‹_›
  · rfl

theorem firstNotes_none {l : List (List Note)} (h : ∀ x ∈ l, x = []) : firstNotes l = [] := by
  induction l with
  | nil => rfl
  | cons x t ih => rw [firstNotes_cons, if_pos (h x (by simp)), ih fun y hy => h y (by simp [hy])]

theorem note_outcome_reliable {fault : Fault → Prop} (hp : ∀ f, ¬ fault f) {l : List NStage} {r : Int} {ns : List Note} (g : NoteOneShotOutcome fault l r ns) : ns = firstNotes (l.map (·.checks)) := by
  obtain ⟨u, c, rfl, -, h3, h4⟩ := g
  have hu : u = [] := by
    by_contra hu
    exact hp _ (h3 hu)
  subst hu
  rcases h4 with ⟨-, rfl, h⟩ | ⟨-, h⟩
  · rw [firstNotes_none]
    · rfl
    · intro x hx
      obtain ⟨s, hs, rfl⟩ := List.mem_map.mp hx
      exact h s hs
  · exact note_stops_reliable hp h

theorem reliable_no_fault {L : Library} (hR : Reliable L) (b : Bool) (f : Fault) : ¬ LibraryFault (.direct b) L f := by
  cases f with
  | «initialize» => rintro ⟨n, h⟩; exact hR.init n h
  | create => rintro ⟨h, -⟩; cases h
  | update => rintro ⟨n, st, b, h⟩; rw [hR.update] at h; cases h
  | finalize => rintro ⟨n, st, b, h⟩; rw [hR.final] at h; cases h
  | cleanUp => rintro ⟨h, -⟩; cases h

theorem givenNotes_builtin (given : Bool) (size : Nat) : givenNotes (buildLimits (.direct false)) given size = inputNotes given size := by
  unfold givenNotes inputNotes
  rfl

theorem areaNotes_builtin (k : Kind) (given : Bool) (n : Nat) : areaNotes (buildLimits (.direct false)) k.hashSize given n = outputNotes k.hashSize given n := by
  have hk : k.hashSize ≤ 64 := by cases k <;> decide
  unfold areaNotes outputNotes
  cases given
  · rfl
  · by_cases h : n < k.hashSize
    · have h2 : ¬ 2 ^ 63 - 1 < n := by omega
      rw [if_neg (show ¬ (buildLimits (.direct false)).maxOutput < n from h2), if_pos h, if_pos h]; rfl
    · rw [if_neg h, if_neg h]
      rfl

/-- C80. With a library that does not fail, the build with the functions of libcrypto (and a 64-bit long) gives exactly the messages of the built-in code (C79), for all arguments and allocation failures: `calculate`. -/
theorem C80_calculate_builtin (k : Kind) (L : Library) (hR : Reliable L) (env : OEnv) (buffer : Option Nat) (size : Nat) (hash : Option Nat) (n : Nat) (s s' : OSt L.State) (r : Int) (ns ns' : List Note)
    (h : noCalculate (.direct false) L k.hashSize env buffer size hash n s ns = .ok ((r, s'), ns')) :
    ns' = ns ++ calculateNotes k.hashSize (fun i => env.allocOk (s.ctxs.count + i)) buffer.isSome size hash.isSome n := by
  obtain ⟨-, -, new, rfl, h2⟩ := C80_calculate _ k L env buffer size hash n s s' r ns ns' h
  rw [note_outcome_reliable (reliable_no_fault hR false) h2]
  simp only [noteCalculateStages, noteContextStage, noteInputStage, noteOutputStage, List.map, givenNotes_builtin, areaNotes_builtin]
  rfl

/-- C80. The same for `calculate_hmac`. -/
theorem C80_hmac_builtin (k : Kind) (L : Library) (hR : Reliable L) (env : OEnv) (kh : List Byte) (key : Option Nat) (keySize : Nat) (buffer : Option Nat) (size : Nat) (hmac : Option Nat) (n : Nat) (s s' : OSt L.State) (r : Int)
    (ns ns' : List Note) (h : noCalculateHmac (.direct false) L k.hashSize k.blockSize env kh key keySize buffer size hmac n s ns = .ok ((r, s'), ns')) :
    ns' = ns ++ hmacNotes k.hashSize k.blockSize (fun i => env.allocOk (s.ctxs.count + i)) key.isSome keySize buffer.isSome size hmac.isSome n := by
  obtain ⟨-, -, new, rfl, h2⟩ := C80_hmac _ k L env kh key keySize buffer size hmac n s s' r ns ns' h
  rw [note_outcome_reliable (reliable_no_fault hR false) h2]
  congr 1
  have hk : k.hashSize ≤ 64 := by cases k <;> decide
  have w0 : ∀ e, withinNote e [] = [] := fun _ => rfl
  simp only [noteHmacStages, hmacNotes, noteCheckStage, noteMemoryStage, noteContextStage, noteInputStage, noteOutputStage, noteLongKeyStages, notePassStages, List.map_append, List.map, givenNotes_builtin, areaNotes_builtin,
    List.cons_append, List.nil_append]
  have tail : ∀ c, firstNotes [memoryNotes ⟨.calculateHmac, .memInsufficient, .createInner⟩ (env.allocOk (s.ctxs.count + c)), memoryNotes ⟨.calculateHmac, .memInsufficient, .createOuter⟩ (env.allocOk (s.ctxs.count + (c + 1))),
      withinNote (initializeNote .calculateHmac) (contextNotes (env.allocOk (s.ctxs.count + (c + 2)))), [], withinNote (updateNote .calculateHmac) (inputNotes buffer.isSome size),
      withinNote (finalizeNote .calculateHmac) (outputNotes k.hashSize hmac.isSome n), withinNote (initializeNote .calculateHmac) (contextNotes (env.allocOk (s.ctxs.count + (c + 3)))), [],
      withinNote (updateNote .calculateHmac) (inputNotes hmac.isSome k.hashSize), withinNote (finalizeNote .calculateHmac) (outputNotes k.hashSize hmac.isSome n)] =
    firstNotes [memoryNotes ⟨.calculateHmac, .memInsufficient, .createInner⟩ (env.allocOk (s.ctxs.count + c)), memoryNotes ⟨.calculateHmac, .memInsufficient, .createOuter⟩ (env.allocOk (s.ctxs.count + (c + 1))),
      withinNote (initializeNote .calculateHmac) (contextNotes (env.allocOk (s.ctxs.count + (c + 2)))), withinNote (updateNote .calculateHmac) (inputNotes buffer.isSome size),
      withinNote (finalizeNote .calculateHmac) (outputNotes k.hashSize hmac.isSome n), withinNote (initializeNote .calculateHmac) (contextNotes (env.allocOk (s.ctxs.count + (c + 3))))] := by
    intro c
    simp only [firstNotes_cons, if_true]
    by_cases ho : withinNote (finalizeNote .calculateHmac) (outputNotes k.hashSize hmac.isSome n) = []
    · have hg : inputNotes hmac.isSome k.hashSize = [] := by
        cases hmac with
        | none => simp [outputNotes, withinNote] at ho
        | some o =>
          have : ¬ 2 ^ 63 - 1 < k.hashSize := by omega
          simp only [inputNotes, Option.isSome_some, Bool.not_true, Bool.false_eq_true, if_false, if_neg this]
      simp only [ho, hg, w0, if_true]
    · simp only [if_neg ho]
  by_cases hs : keySize ≤ k.blockSize
  · simp only [if_pos hs, List.map_nil, List.nil_append, List.cons_append]
    exact firstNotes_step fun _ => firstNotes_step fun _ => firstNotes_step fun _ => tail 1
  · simp only [if_neg hs, List.map, List.cons_append, List.nil_append]
    refine firstNotes_step fun hi => firstNotes_step fun _ => firstNotes_step fun _ => firstNotes_step fun _ => ?_
    have hi' : inputNotes true keySize = [] := by
      cases key with
      | none => simp [keyNotes] at hi
      | some k =>
        by_cases hm : 2 ^ 63 - 1 < keySize
        · simp only [keyNotes, Option.isSome_some, Bool.not_true, Bool.false_eq_true, if_false, if_pos hm] at hi
          cases hi
        · simp only [inputNotes, Bool.not_true, Bool.false_eq_true, if_false, if_neg hm]
    rw [hi']
    exact tail 2

/-- The conditions: the library of C48 without failures. -/
example (k : Kind) : Reliable (exactLibrary k) ∧ Tame (exactLibrary k) k.hashSize := ⟨exact_reliable k, exact_tame k⟩

theorem faultNote_inj {f f' : Fault} (h : faultNote f = faultNote f') : f = f' := by cases f <;> cases f' <;> first | rfl | cases h

theorem checkNotes_fault {m : Limits} {n : Nat} {present ok : Bool} {c : ApiCall} {f : Fault} : faultNote f ∉ checkNotes m n present ok c := by
  cases c with
  | init => cases present <;> cases ok <;> cases f <;> simp [checkNotes, contextNotes, memoryNotes, faultNote]
  | initNull => cases f <;> simp [checkNotes, faultNote]
  | free => simp [checkNotes]
  | freeNull => cases f <;> simp [checkNotes, faultNote]
  | update b z =>
    simp only [checkNotes, givenNotes]
    split
    · cases f <;> simp [faultNote]
    · split
      · cases f <;> simp [faultNote]
      · split <;> cases f <;> simp [faultNote]
  | finalize o z =>
    simp only [checkNotes, areaNotes]
    split
    · cases f <;> simp [faultNote]
    · split
      · cases f <;> simp [faultNote]
      · split
        · split <;> cases f <;> simp [faultNote]
        · split
          · split <;> cases f <;> simp [faultNote]
          · simp

theorem addedNotes_fault {dep : Bool} {code : Int} {c : ApiCall} {f : Fault} : faultNote f ∉ addedNotes dep code c := by
  unfold addedNotes
  split
  · cases c <;> cases f <;> simp [functionNote, faultNote]
  · simp

theorem explained_blames {fault : Fault → Prop} {m : Limits} {n : Nat} {al : Nat → Bool} : ∀ {l : List ((Bool × ApiCall) × Reply × List Note)} {present : Bool} {i : Nat}, NotesExplained fault m n al present i l →
    ∀ y ∈ l, ∀ f, faultNote f ∈ y.2.2 → fault f ∧ (y.2.1.code = -1 ∨ f = .cleanUp)
  | [], _, _, _, y, hy, _, _ => by simp at hy
  | ((dep, c), r, ns) :: t, present, i, h, y, hy, f, hf => by
    rcases List.mem_cons.mp hy with rfl | hy
    · obtain ⟨own, h1, h2⟩ := h.1
      have hf : faultNote f ∈ ns := hf
      rw [h2] at hf
      rcases List.mem_append.mp hf with hf | hf
      · rcases h1 with ⟨-, -, rfl⟩ | ⟨-, -, rfl⟩ | ⟨-, hc, f', -, h3, rfl⟩ | ⟨h3, -, -, rfl⟩
        · exact absurd hf checkNotes_fault
        · cases hf
        · obtain rfl := faultNote_inj (List.mem_singleton.mp hf)
          exact ⟨h3, .inl hc⟩
        · obtain rfl := faultNote_inj (List.mem_singleton.mp hf)
          exact ⟨h3, .inr rfl⟩
      · exact absurd hf addedNotes_fault
    · exact explained_blames h.2 y hy f hf

/-- C80. A message that blames the crypto library is true: whatever the history, if a call gives the message about a fault then the library can fail so in this build, and the call returned -1 (or it is the fault of the clean up). -/
theorem C80_blames (B : Backend) (L : Library) (hashSize : Nat) (allocOk : Nat → Bool) (calls : List (Bool × ApiCall)) (slot slot' : Option Nat) (s s' : BSt L.State) (rs : List (Reply × List Note))
    (h : nbRun B L hashSize allocOk calls slot s = .ok (rs, slot', s')) (y : Reply × List Note) (hy : y ∈ rs) (f : Fault) (hf : faultNote f ∈ y.2) : LibraryFault B L f ∧ (y.1.code = -1 ∨ f = .cleanUp) := by
  obtain ⟨-, hl, hx⟩ := C80_histories B L hashSize allocOk calls slot slot' s s' rs h
  obtain ⟨i, hi, rfl⟩ := List.getElem_of_mem hy
  refine explained_blames hx (calls[i]'(by omega), rs[i]) ?_ f hf
  rw [← List.getElem_zip (h := by simp; omega)]
  exact List.getElem_mem _

/-- So a library that fails in no way is never blamed; and the failing library of the example above is blamed for its update. -/
example (k : Kind) (b : Bool) (f : Fault) : ¬ LibraryFault (.direct b) (exactLibrary k) f := reliable_no_fault (exact_reliable k) b f

example (k : Kind) (B : Backend) : LibraryFault B (failingLibrary k) .update := ⟨2, [], [], rfl⟩

/-- C80. In each build a message tells which function of which algorithm it comes from, and which text it has. -/
theorem C80_tells (B : Backend) (k k' : Kind) (n n' : Note) (h : libraryNoteText B k n = libraryNoteText B k' n') : k = k' ∧ n.fn = n'.fn ∧ n.txt = n'.txt := by
  have h := congrArg String.toList h
  simp only [libraryNoteText, String.toList_append, List.append_assoc] at h
  obtain ⟨h1, h2⟩ := split_at (c := ':') (functionName_colon k n.fn) (functionName_colon k' n'.fn) h
  obtain ⟨rfl, hf⟩ := functionName_inj (String.toList_inj.mp h1)
  refine ⟨rfl, hf, ?_⟩
  rw [← hf] at h2
  exact libraryText_inj (B := B) (k := k) (fn := n.fn) (String.toList_inj.mp (by simpa using h2))

/-- C80. The message about an output area that is too small, by finalize in every build, and by the built-in code. -/
theorem C80_small_output (B : Backend) (k : Kind) (L : Library) (p : Nat) (o : List Byte) (size : Nat) (s : BSt L.State) (h : size < k.hashSize) :
    ∃ n, nbFinalize B L k.hashSize (some p) (some o) size s [] = .ok (-1, some o, s, [n]) ∧ libraryNoteText B k n =
      functionName k .ctxFinalize ++ ": " ++ (if (buildLimits B).oneTest then "invalid hash size value out of bounds." else "invalid hash size value too small.") := by
  have h64 : k.hashSize ≤ 64 := by cases k <;> decide
  have hm : ¬ B.maxOutput < size := by
    cases B with
    | direct b => show ¬ 2 ^ 63 - 1 < size; omega
    | _ => show ¬ 2 ^ 32 - 1 < size; omega
  simp only [nbFinalize, if_neg hm, if_pos h, List.nil_append]
  cases B with
  | direct b => cases b <;> exact ⟨_, rfl, rfl⟩
  | _ => exact ⟨_, rfl, by cases k <;> rfl⟩

example (k : Kind) : 15 < k.hashSize := by cases k <;> decide

/-- C80. The EVP builds give the same message for an area that is too large (of 4 GiB or more) as for one that is too small; the others tell them apart. -/
theorem C80_large_output (B : Backend) (k : Kind) (L : Library) (p : Nat) (o : List Byte) (size small : Nat) (s : BSt L.State) (h : (buildLimits B).maxOutput < size) (hs : small < k.hashSize) :
    ∃ n m, nbFinalize B L k.hashSize (some p) (some o) size s [] = .ok (-1, some o, s, [n]) ∧ nbFinalize B L k.hashSize (some p) (some o) small s [] = .ok (-1, some o, s, [m]) ∧
      (libraryNoteText B k n = libraryNoteText B k m ↔ (buildLimits B).oneTest = true) := by
  have h64 : k.hashSize ≤ 64 := by cases k <;> decide
  have hm : ¬ B.maxOutput < small := by
    cases B with
    | direct b => show ¬ 2 ^ 63 - 1 < small; omega
    | _ => show ¬ 2 ^ 32 - 1 < small; omega
  have hl : B.maxOutput < size := by rw [← limits_eq] at h; exact h
  simp only [nbFinalize, if_pos hl, if_neg hm, if_pos hs, List.nil_append]
  cases B with
  | direct b =>
    cases b
    all_goals
      refine ⟨_, _, rfl, rfl, ⟨fun h => ?_, fun h => by cases h⟩⟩
      obtain ⟨-, -, h⟩ := C80_tells _ _ _ _ _ h
      cases h
  | _ => exact ⟨_, _, rfl, rfl, ⟨fun _ => rfl, fun _ => rfl⟩⟩

example (B : Backend) : (buildLimits B).maxOutput < 2 ^ 63 := by
  cases B with
  | direct b => cases b <;> decide
  | _ => decide

/-- A library that fails, and an allocation that fails: C80_histories applies. -/
example (B : Backend) (k : Kind) : ∃ rs q t', nbRun B (failingLibrary k) k.hashSize (fun n => n != 1) failNoteCalls none ⟨0, 0, []⟩ = .ok (rs, q, t') ∧
    NotesExplained (LibraryFault B (failingLibrary k)) (buildLimits B) k.hashSize (fun n => n != 1) false 0 (failNoteCalls.zip rs) := by
  obtain ⟨rs, q, t', h, -⟩ := C80_defined B (failingLibrary k) k.hashSize (fun n => n != 1) failNoteCalls failNoteCalls_valid ⟨0, 0, []⟩
  exact ⟨rs, q, t', h, (C80_histories _ _ _ _ _ _ _ _ _ _ h).2.2⟩

/-- One-shot calls over a library that fails once: C80_calculate and C80_hmac apply. -/
example (B : Backend) (k : Kind) (bad : Nat) (ns : List Note) : (∃ r s' new, noCalculate B (brokenLibrary k bad) k.hashSize ⟨fun _ => true, fun _ _ => 1⟩ (some 120) 100 (some 60) 80 (ost1 _ []) ns = .ok ((r, s'), ns ++ new) ∧
      NoteOneShotOutcome (LibraryFault B (brokenLibrary k bad)) (noteCalculateStages (buildLimits B) k.hashSize (fun _ => true) true 100 true 80) r new) ∧
    ∃ r s' new, noCalculateHmac B (brokenLibrary k bad) k.hashSize k.blockSize ⟨fun _ => true, fun _ _ => 1⟩ (List.replicate k.hashSize 1) (some 10) 20 (some 120) 100 (some 60) 80 (ost1 _ []) ns = .ok ((r, s'), ns ++ new) ∧
      NoteOneShotOutcome (LibraryFault B (brokenLibrary k bad)) (noteHmacStages (buildLimits B) k.hashSize k.blockSize (fun _ => true) true 20 true 100 true 80) r new := by
  obtain ⟨⟨r, s', ns', h⟩, r2, s2, ns2, h2⟩ := C80_one_shot_defined B k (brokenLibrary k bad) (broken_tame k bad) ⟨fun _ => true, fun _ _ => 1⟩ (List.replicate k.hashSize 1) (by simp) (some 10) 20 (some 120) 100 (some 60) 80
    (ost1 _ []) ns (ost1_area _ _ _ _ (by omega)) (ost1_area _ _ _ _ (by omega)) (ost1_area _ _ _ _ (by omega))
  obtain ⟨-, -, new, rfl, g⟩ := C80_calculate _ _ _ _ _ _ _ _ _ _ _ _ _ h
  obtain ⟨-, -, new2, rfl, g2⟩ := C80_hmac _ _ _ _ _ _ _ _ _ _ _ _ _ _ _ _ h2
  exact ⟨⟨r, s', new, h, g⟩, r2, s2, new2, h2, g2⟩

/-- The built-in algorithms with the allocation of the context failing: C80_calculate_builtin applies, and notes are left. -/
example (k : Kind) (ns : List Note) : (∃ r s', noCalculate (.direct false) (exactLibrary k) k.hashSize ⟨fun n => n != 5, fun _ _ => 1⟩ (some 120) 100 (some 60) 80 (ost1 _ []) ns =
      .ok ((r, s'), ns ++ calculateNotes k.hashSize (fun i => 5 + i != 5) true 100 true 80)) ∧ calculateNotes k.hashSize (fun i => 5 + i != 5) true 100 true 80 ≠ [] := by
  obtain ⟨⟨r, s', ns', h⟩, -⟩ := C80_one_shot_defined (.direct false) k (exactLibrary k) (exact_tame k) ⟨fun n => n != 5, fun _ _ => 1⟩ (List.replicate k.hashSize 1) (by simp) (some 10) 20 (some 120) 100 (some 60) 80
    (ost1 _ []) ns (ost1_area _ _ _ _ (by omega)) (ost1_area _ _ _ _ (by omega)) (ost1_area _ _ _ _ (by omega))
  exact ⟨⟨r, s', by rw [h, C80_calculate_builtin k _ (exact_reliable k) _ _ _ _ _ _ _ _ _ _ h]; rfl⟩, by cases k <;> decide⟩

/-- C80_tells: the same note of two algorithms has two texts. -/
example (B : Backend) (n : Note) : libraryNoteText B .md5 n ≠ libraryNoteText B .sha1 n := fun h => nomatch (C80_tells B _ _ _ _ h).1

end Props
