import Verif.Model.BackendNotes
import Verif.Spec.BackendNotes
import Verif.Proofs.BackendErrors
import Verif.Proofs.OneShotErrors
import Verif.Proofs.NoteErrors
/-! The context functions with messages over a crypto library do what the models without them do, and which messages they add. -/

set_option linter.unusedSimpArgs false

namespace Model

open Spec (Err Note Fn Txt Fault faultNote callFaults ApiCall Reply checkNotes givenNotes areaNotes contextNotes NoteOutcome holdsAfter NotesExplained addedNotes functionNote Limits)

/-- How the library fails. -/
def Faults (B : Backend) (L : Library) : Fault → Prop
  | .initialize => ∃ n, L.init n = none
  | .create => B = .evpAllocated ∧ ∃ n, L.create n = false
  | .update => ∃ n st b, (L.update n st b).1 = false
  | .finalize => ∃ n st o, (L.final n st o).1 = false
  | .cleanUp => B = .evpEmbedded ∧ ∃ n, L.cleanup n = false

/-- What is shown of each call. -/
def StepNotes (B : Backend) (L : Library) (hashSize : Nat) (al : Nat → Bool) (c : ApiCall) (slot : Option Nat) (s : BSt L.State) (x : Reply × Option Nat × BSt L.State) (es : List Note) : Prop :=
  NoteOutcome (Faults B L) (checkNotes B.limits hashSize slot.isSome (al s.count) c) c x.1.code es ∧ x.2.1.isSome = holdsAfter slot.isSome x.1.code c ∧
    x.2.2.count = if c = .init ∧ slot.isSome = false then s.count + 1 else s.count

theorem nbInitError_eq {σ} (p : Nat) (s : BSt σ) (es : List Note) : nbInitError p s es = bInitError p s >>= fun x => .ok (x.1, x.2.1, x.2.2, es) := by
  unfold nbInitError bInitError
  cases bErase p s <;> rfl

/-- The possible results of initialize after its allocation. -/
def NInitRes {σ} (fault : Fault → Prop) (n : Nat) (x : Int × Option Nat × BSt σ) (es : List Note) : Prop :=
  ((x.1 = 1 ∧ es = [] ∧ x.2.1.isSome = true) ∨ (x.1 = -1 ∧ (∃ f ∈ callFaults .init, fault f ∧ es = [faultNote f]) ∧ x.2.1.isSome = false)) ∧ x.2.2.count = n

theorem nInitRes_error {σ} {fault : Fault → Prop} (p : Nat) (s : BSt σ) (v : Fault) (hv : v ∈ callFaults .init) (hf : fault v) : ∃ f : Int × Option Nat × BSt σ → List Note, (∀ x, bInitError p s = .ok x → NInitRes fault s.count x (f x)) ∧
    ∀ es, nbInitError p s (es ++ [faultNote v]) = bInitError p s >>= fun x => .ok (x.1, x.2.1, x.2.2, es ++ f x) := by
  refine ⟨fun _ => [faultNote v], fun x hx => ?_, fun es => nbInitError_eq _ _ _⟩
  obtain ⟨h1, h2, h3⟩ := bInitError_res hx
  exact ⟨.inr ⟨h1, ⟨v, hv, hf, rfl⟩, by rw [h2]; rfl⟩, h3⟩

theorem nbDigestInit_eq (L : Library) {fault : Fault → Prop} (hf : (∃ n, L.init n = none) → fault .initialize) (p : Nat) (evp : EvpPtr) (s : BSt L.State) : ∃ f : Int × Option Nat × BSt L.State → List Note, (∀ x, bDigestInit L p evp s = .ok x → NInitRes fault s.count x (f x)) ∧
    ∀ es, nbDigestInit L p evp s es = bDigestInit L p evp s >>= fun x => .ok (x.1, x.2.1, x.2.2, es ++ f x) := by
  unfold nbDigestInit bDigestInit
  cases hi : L.init s.calls with
  | some st =>
    cases evp with
    | null => exact ⟨fun _ => [], by rintro _ ⟨⟩, fun es => rfl⟩
    | embedded => exact ⟨fun _ => [], by rintro _ ⟨⟩; exact ⟨.inl ⟨rfl, rfl, rfl⟩, rfl⟩, fun es => by simp⟩
    | heap q => exact ⟨fun _ => [], by rintro _ ⟨⟩; exact ⟨.inl ⟨rfl, rfl, rfl⟩, rfl⟩, fun es => by simp⟩
  | none =>
    cases evp with
    | null => exact ⟨fun _ => [], by rintro _ ⟨⟩, fun es => rfl⟩
    | embedded => exact nInitRes_error p s.tick.tick .initialize (by simp [callFaults]) (hf ⟨_, hi⟩)
    | heap q =>
      simp only
      cases he : bErase q s.tick with
      | ub => exact ⟨fun _ => [], by rintro _ ⟨⟩, fun es => rfl⟩
      | diverge => exact ⟨fun _ => [], by rintro _ ⟨⟩, fun es => rfl⟩
      | ok s1 =>
        obtain ⟨f, g, e⟩ := nInitRes_error p s1 .initialize (by simp [callFaults]) (hf ⟨_, hi⟩)
        refine ⟨f, fun x hx => ?_, fun es => ?_⟩
        · have := g x hx
          rw [bErase_count he] at this
          exact this
        · exact e es

theorem nbInitialize_eq (B : Backend) (L : Library) (al : Nat → Bool) (s : BSt L.State) (ha : al s.count = true) : ∃ f : Int × Option Nat × BSt L.State → List Note,
    (∀ x, bInitialize B L al none s = .ok x → NInitRes (Faults B L) (s.count + 1) x (f x)) ∧ ∀ es, nbInitialize B L al none s es = bInitialize B L al none s >>= fun x => .ok (x.1, x.2.1, x.2.2, es ++ f x) := by
  unfold nbInitialize bInitialize
  simp only [if_pos ha]
  cases B with
  | direct b =>
    simp only
    cases hi : L.init s.calls with
    | some st => exact ⟨fun _ => [], by rintro _ ⟨⟩; exact ⟨.inl ⟨rfl, rfl, rfl⟩, rfl⟩, fun es => by simp⟩
    | none => exact nInitRes_error _ _ .initialize (by simp [callFaults]) ⟨_, hi⟩
  | evpEmbedded => exact nbDigestInit_eq _ id _ _ _
  | evpAllocated =>
    simp only
    split
    · exact nbDigestInit_eq _ id _ _ _
    · exact nInitRes_error _ _ .create (by simp [callFaults]) ⟨rfl, _, Bool.eq_false_iff.mpr ‹_›⟩

theorem nbFree_eq (B : Backend) (L : Library) (slot : Option Nat) (s : BSt L.State) : ∃ f : Int × Option Nat × BSt L.State → List Note,
    (∀ x, bFree B L slot s = .ok x → x.1 = 1 ∧ x.2.1 = none ∧ x.2.2.count = s.count ∧ (f x = [] ∨ Faults B L .cleanUp ∧ f x = [faultNote .cleanUp])) ∧
    ∀ es, nbFree B L slot s es = bFree B L slot s >>= fun x => .ok (x.1, x.2.1, x.2.2, es ++ f x) := by
  cases slot with
  | none => exact ⟨fun _ => [], by rintro _ ⟨⟩; exact ⟨rfl, rfl, rfl, .inl rfl⟩, fun es => by simp [nbFree, bFree]⟩
  | some p =>
    have ub : ∀ es, (Res.ub : Res (Int × Option Nat × BSt L.State × List Note)) = Res.ub >>= fun x : Int × Option Nat × BSt L.State => .ok (x.1, x.2.1, x.2.2, es ++ ([] : List Note)) := fun es => rfl
    have plain : ∀ (p : Nat) (t : BSt L.State) (hr : t.count = s.count) (d : List Note), (d = [] ∨ Faults B L .cleanUp ∧ d = [faultNote .cleanUp]) →
        ∃ f : Int × Option Nat × BSt L.State → List Note, (∀ x, (bErase p t >>= fun s => pure (1, none, s)) = Res.ok x → x.1 = 1 ∧ x.2.1 = none ∧ x.2.2.count = s.count ∧ (f x = [] ∨ Faults B L .cleanUp ∧ f x = [faultNote .cleanUp])) ∧
          ∀ es, (bErase p t >>= fun s => (pure (1, none, s, es ++ d) : Res _)) = (bErase p t >>= fun s => pure (1, none, s)) >>= fun x : Int × Option Nat × BSt L.State => .ok (x.1, x.2.1, x.2.2, es ++ f x) := by
      intro p t hr d hd
      cases he : bErase p t with
      | ub => exact ⟨fun _ => [], by rintro _ ⟨⟩, fun es => rfl⟩
      | diverge => exact ⟨fun _ => [], by rintro _ ⟨⟩, fun es => rfl⟩
      | ok s1 =>
        refine ⟨fun _ => d, ?_, fun es => rfl⟩
        rintro _ ⟨⟩
        exact ⟨rfl, rfl, (bErase_count he).trans hr, hd⟩
    unfold nbFree bFree
    simp only
    cases hp : getKey p s.live with
    | none => exact ⟨fun _ => [], by cases B <;> rintro _ ⟨⟩, fun es => by cases B <;> exact ub es⟩
    | some o =>
      cases o with
      | md st => exact ⟨fun _ => [], by cases B <;> rintro _ ⟨⟩, fun es => by cases B <;> exact ub es⟩
      | ctx st evp =>
        cases B with
        | direct b => simpa using plain p s rfl [] (.inl rfl)
        | evpEmbedded =>
          simp only
          cases hcl : L.cleanup s.calls with
          | true => simpa using plain p s.tick rfl [] (.inl rfl)
          | false => simpa [faultNote] using plain p s.tick rfl [faultNote .cleanUp] (.inr ⟨⟨rfl, _, hcl⟩, rfl⟩)
        | evpAllocated =>
          cases evp with
          | null => simpa using plain p s.tick rfl [] (.inl rfl)
          | embedded => exact ⟨fun _ => [], by rintro _ ⟨⟩, ub⟩
          | heap q =>
            simp only
            cases he : bErase q s.tick with
            | ub => exact ⟨fun _ => [], by rintro _ ⟨⟩, ub⟩
            | diverge => exact ⟨fun _ => [], by rintro _ ⟨⟩, fun es => rfl⟩
            | ok s1 => simpa using plain p s1 ((bErase_count he).trans rfl) [] (.inl rfl)

theorem nbUpdate_eq (B : Backend) (L : Library) (hashSize : Nat) (al : Nat → Bool) (slot : Option Nat) (buf : Option (List Byte)) (size : Nat) (s : BSt L.State) : ∃ f : Int × BSt L.State → List Note,
    (∀ x, bUpdate B L slot buf size s = .ok x → StepNotes B L hashSize al (.update buf size) slot s (⟨x.1, none⟩, slot, x.2) (f x)) ∧
    ∀ es, nbUpdate B L slot buf size s es = bUpdate B L slot buf size s >>= fun x => .ok (x.1, x.2, es ++ f x) := by
  unfold StepNotes
  cases slot with
  | none => exact ⟨fun _ => [⟨.ctxUpdate, .argInvalid, .invalidContext⟩], by rintro _ ⟨⟩; exact ⟨.inl ⟨by simp [checkNotes, givenNotes], rfl, rfl⟩, rfl, rfl⟩, fun es => rfl⟩
  | some p =>
    cases buf with
    | none => exact ⟨fun _ => [⟨.ctxUpdate, .argInvalid, .invalidBuffer⟩], by rintro _ ⟨⟩; exact ⟨.inl ⟨by simp [checkNotes, givenNotes], rfl, rfl⟩, rfl, rfl⟩, fun es => rfl⟩
    | some b =>
      unfold nbUpdate bUpdate
      simp only
      have hm : B.limits.maxInput = B.maxUpdate := rfl
      by_cases h1 : B.maxUpdate < size
      · simp only [if_pos h1]
        exact ⟨fun _ => [⟨.ctxUpdate, .argExceeds, .sizeExceeds⟩], by rintro _ ⟨⟩; exact ⟨.inl ⟨by simp [checkNotes, givenNotes, hm, h1], rfl, by simp [checkNotes, givenNotes, hm, h1]⟩, rfl, rfl⟩, fun es => rfl⟩
      · have hpre : checkNotes B.limits hashSize (some p).isSome (al s.count) (.update (some b) size) = [] := by simp [checkNotes, givenNotes, hm, h1]
        rw [hpre]
        simp only [if_neg h1]
        by_cases h2 : size = 0
        · simp only [if_pos h2]
          exact ⟨fun _ => [], by rintro _ ⟨⟩; exact ⟨.inr (.inl ⟨rfl, rfl, rfl⟩), rfl, rfl⟩, fun es => by simp⟩
        · simp only [if_neg h2]
          cases bState B p s with
          | ub => exact ⟨fun _ => [], by rintro _ ⟨⟩, fun es => rfl⟩
          | diverge => exact ⟨fun _ => [], by rintro _ ⟨⟩, fun es => rfl⟩
          | ok st =>
            simp only [Res.ok_bind]
            cases bTake b size with
            | ub => exact ⟨fun _ => [], by rintro _ ⟨⟩, fun es => rfl⟩
            | diverge => exact ⟨fun _ => [], by rintro _ ⟨⟩, fun es => rfl⟩
            | ok data =>
              simp only [Res.ok_bind]
              cases hs : bSetState p (L.update s.calls st data).2 s.tick with
              | ub => exact ⟨fun _ => [], by rintro _ ⟨⟩, fun es => rfl⟩
              | diverge => exact ⟨fun _ => [], by rintro _ ⟨⟩, fun es => rfl⟩
              | ok s1 =>
                have hcount : s1.count = s.count := (bSetState_count hs).trans rfl
                simp only [Res.ok_bind, Res.pure_eq]
                cases hu : (L.update s.calls st data).1 with
                | true => exact ⟨fun _ => [], by rintro _ ⟨⟩; exact ⟨.inr (.inl ⟨rfl, rfl, rfl⟩), rfl, hcount⟩, fun es => by simp⟩
                | false => exact ⟨fun _ => [faultNote .update], by rintro _ ⟨⟩; exact ⟨.inr (.inr (.inl ⟨rfl, rfl, .update, by simp [callFaults, h2], ⟨_, _, _, hu⟩, rfl⟩)), rfl, hcount⟩, fun es => rfl⟩

theorem nbFinalize_eq (B : Backend) (L : Library) (hashSize : Nat) (al : Nat → Bool) (slot : Option Nat) (out : Option (List Byte)) (size : Nat) (s : BSt L.State) : ∃ f : Int × Option (List Byte) × BSt L.State → List Note,
    (∀ x, bFinalize B L hashSize slot out size s = .ok x → StepNotes B L hashSize al (.finalize out size) slot s (⟨x.1, x.2.1⟩, slot, x.2.2) (f x)) ∧
    ∀ es, nbFinalize B L hashSize slot out size s es = bFinalize B L hashSize slot out size s >>= fun x => .ok (x.1, x.2.1, x.2.2, es ++ f x) := by
  unfold StepNotes
  cases slot with
  | none => exact ⟨fun _ => [⟨.ctxFinalize, .argInvalid, .invalidContext⟩], by rintro _ ⟨⟩; exact ⟨.inl ⟨by simp [checkNotes, areaNotes], rfl, rfl⟩, rfl, rfl⟩, fun es => rfl⟩
  | some p =>
    cases out with
    | none => exact ⟨fun _ => [⟨.ctxFinalize, .argInvalid, .invalidHash⟩], by rintro _ ⟨⟩; exact ⟨.inl ⟨by simp [checkNotes, areaNotes], rfl, rfl⟩, rfl, rfl⟩, fun es => rfl⟩
    | some o =>
      unfold nbFinalize bFinalize
      simp only
      have hm : B.limits.maxOutput = B.maxOutput := rfl
      by_cases h1 : B.maxOutput < size
      · simp only [if_pos h1]
        refine ⟨fun _ => [if B.limits.oneTest then ⟨.ctxFinalize, .argOutOfBounds, .hashOut⟩ else ⟨.ctxFinalize, .argExceeds, .hashExceeds⟩], ?_, fun es => ?_⟩
        · rintro _ ⟨⟩
          exact ⟨.inl ⟨by simp [checkNotes, areaNotes, hm, h1], rfl, by simp [checkNotes, areaNotes, hm, h1]⟩, rfl, rfl⟩
        · cases B <;> rfl
      · simp only [if_neg h1]
        by_cases h2 : size < hashSize
        · simp only [if_pos h2]
          refine ⟨fun _ => [if B.limits.oneTest then ⟨.ctxFinalize, .argOutOfBounds, .hashOut⟩ else ⟨.ctxFinalize, .argTooSmall, .hashTooSmall⟩], ?_, fun es => ?_⟩
          · rintro _ ⟨⟩
            exact ⟨.inl ⟨by simp [checkNotes, areaNotes, hm, h1, h2], rfl, by simp [checkNotes, areaNotes, hm, h1, h2]⟩, rfl, rfl⟩
          · cases B <;> rfl
        · have hpre : checkNotes B.limits hashSize (some p).isSome (al s.count) (.finalize (some o) size) = [] := by simp [checkNotes, areaNotes, hm, h1, h2]
          rw [hpre]
          simp only [if_neg h2]
          cases bState B p s with
          | ub => exact ⟨fun _ => [], by rintro _ ⟨⟩, fun es => rfl⟩
          | diverge => exact ⟨fun _ => [], by rintro _ ⟨⟩, fun es => rfl⟩
          | ok st =>
            simp only [Res.ok_bind]
            cases hs : bSetState p (L.final s.calls st o).2.1 s.tick with
            | ub => exact ⟨fun _ => [], by rintro _ ⟨⟩, fun es => rfl⟩
            | diverge => exact ⟨fun _ => [], by rintro _ ⟨⟩, fun es => rfl⟩
            | ok s1 =>
              have hcount : s1.count = s.count := (bSetState_count hs).trans rfl
              simp only [Res.ok_bind, Res.pure_eq]
              cases hu : (L.final s.calls st o).1 with
              | true => exact ⟨fun _ => [], by rintro _ ⟨⟩; exact ⟨.inr (.inl ⟨rfl, rfl, rfl⟩), rfl, hcount⟩, fun es => by simp⟩
              | false => exact ⟨fun _ => [faultNote .finalize], by rintro _ ⟨⟩; exact ⟨.inr (.inr (.inl ⟨rfl, rfl, .finalize, by simp [callFaults], ⟨_, _, _, hu⟩, rfl⟩)), rfl, hcount⟩, fun es => rfl⟩

theorem nbStep_eq (B : Backend) (L : Library) (hashSize : Nat) (al : Nat → Bool) (c : ApiCall) (slot : Option Nat) (s : BSt L.State) : ∃ f : Reply × Option Nat × BSt L.State → List Note,
    (∀ x, bStep B L hashSize al c slot s = .ok x → StepNotes B L hashSize al c slot s x (f x)) ∧
    ∀ es, nbStep B L hashSize al c slot s es = bStep B L hashSize al c slot s >>= fun x => .ok (x.1, x.2.1, x.2.2, es ++ f x) := by
  cases c with
  | init =>
    unfold nbStep bStep
    simp only
    cases slot with
    | some p => exact ⟨fun _ => [⟨.ctxInitialize, .rtAlreadySet, .alreadySet⟩], by rintro _ ⟨⟩; exact ⟨.inl ⟨by simp [checkNotes], rfl, by simp [checkNotes]⟩, rfl, rfl⟩, fun es => rfl⟩
    | none =>
      cases ha : al s.count with
      | false =>
        simp only [nbInitialize, bInitialize, ha, Bool.false_eq_true, if_false]
        exact ⟨fun _ => [⟨.ctxInitialize, .memInsufficient, .createContext⟩], by rintro _ ⟨⟩; exact ⟨.inl ⟨by simp [checkNotes, contextNotes, Spec.memoryNotes, ha], rfl, by simp [checkNotes, contextNotes, Spec.memoryNotes, ha]⟩, rfl, rfl⟩, fun es => rfl⟩
      | true =>
        obtain ⟨f, g, e⟩ := nbInitialize_eq B L al s ha
        simp only [e]
        cases hb : bInitialize B L al none s with
        | ub => exact ⟨fun _ => [], by rintro _ ⟨⟩, fun es => rfl⟩
        | diverge => exact ⟨fun _ => [], by rintro _ ⟨⟩, fun es => rfl⟩
        | ok x =>
          refine ⟨fun _ => f x, ?_, fun es => rfl⟩
          rintro _ ⟨⟩
          have hpre : checkNotes B.limits hashSize (none : Option Nat).isSome (al s.count) .init = [] := by simp [checkNotes, contextNotes, Spec.memoryNotes, ha]
          unfold StepNotes
          rw [hpre]
          obtain ⟨h | h, hcount⟩ := g x hb
          · obtain ⟨r, sl, s1⟩ := x
            obtain ⟨h1, h2, h3⟩ := h
            change r = 1 at h1
            subst h1
            exact ⟨.inr (.inl ⟨rfl, rfl, h2⟩), h3, hcount⟩
          · obtain ⟨r, sl, s1⟩ := x
            obtain ⟨h1, h2, h3⟩ := h
            change r = -1 at h1
            subst h1
            exact ⟨.inr (.inr (.inl ⟨rfl, rfl, h2⟩)), h3, hcount⟩
  | initNull => exact ⟨fun _ => [⟨.ctxInitialize, .argInvalid, .invalidContext⟩], by rintro _ ⟨⟩; exact ⟨.inl ⟨by simp [checkNotes], rfl, rfl⟩, rfl, rfl⟩, fun es => rfl⟩
  | freeNull => exact ⟨fun _ => [⟨.ctxFree, .argInvalid, .invalidContext⟩], by rintro _ ⟨⟩; exact ⟨.inl ⟨by simp [checkNotes], rfl, rfl⟩, rfl, rfl⟩, fun es => rfl⟩
  | free =>
    obtain ⟨f, g, e⟩ := nbFree_eq B L slot s
    unfold nbStep bStep
    simp only [e]
    cases hb : bFree B L slot s with
    | ub => exact ⟨fun _ => [], by rintro _ ⟨⟩, fun es => rfl⟩
    | diverge => exact ⟨fun _ => [], by rintro _ ⟨⟩, fun es => rfl⟩
    | ok x =>
      refine ⟨fun _ => f x, ?_, fun es => rfl⟩
      rintro _ ⟨⟩
      obtain ⟨h1, h2, h3, h4⟩ := g x hb
      refine ⟨?_, by simp [h2, holdsAfter], by simpa using h3⟩
      rcases h4 with h4 | ⟨h4, h5⟩
      · exact .inr (.inl ⟨rfl, h1, h4⟩)
      · exact .inr (.inr (.inr ⟨h4, rfl, h1, h5⟩))
  | update buf size =>
    obtain ⟨f, g, e⟩ := nbUpdate_eq B L hashSize al slot buf size s
    unfold nbStep bStep
    simp only [e]
    cases hb : bUpdate B L slot buf size s with
    | ub => exact ⟨fun _ => [], by rintro _ ⟨⟩, fun es => rfl⟩
    | diverge => exact ⟨fun _ => [], by rintro _ ⟨⟩, fun es => rfl⟩
    | ok x =>
      refine ⟨fun _ => f x, ?_, fun es => rfl⟩
      rintro _ ⟨⟩
      exact g x hb
  | finalize out size =>
    obtain ⟨f, g, e⟩ := nbFinalize_eq B L hashSize al slot out size s
    unfold nbStep bStep
    simp only [e]
    cases hb : bFinalize B L hashSize slot out size s with
    | ub => exact ⟨fun _ => [], by rintro _ ⟨⟩, fun es => rfl⟩
    | diverge => exact ⟨fun _ => [], by rintro _ ⟨⟩, fun es => rfl⟩
    | ok x =>
      refine ⟨fun _ => f x, ?_, fun es => rfl⟩
      rintro _ ⟨⟩
      exact g x hb


/-- The results are 1 and -1. -/
theorem noteOutcome_code {fault : Fault → Prop} {pre : List Note} {c : ApiCall} {code : Int} {ns : List Note} (h : NoteOutcome fault pre c code ns) : code = 1 ∨ code = -1 := by
  rcases h with ⟨-, h, -⟩ | ⟨-, h, -⟩ | ⟨-, h, -⟩ | ⟨-, -, h, -⟩ <;> simp [h]

theorem nbDeprecated_eq {fault : Fault → Prop} {pre : List Note} {c : ApiCall} {r : Reply} {own : List Note} (h : NoteOutcome fault pre c r.code own) (ns : List Note) :
    nbDeprecated c r (ns ++ own) = (r, ns ++ (own ++ addedNotes true r.code c)) := by
  obtain ⟨code, out⟩ := r
  rcases noteOutcome_code h with h | h
  · change code = 1 at h
    subst h
    simp [nbDeprecated, addedNotes]
  · change code = -1 at h
    subst h
    cases c <;> simp [nbDeprecated, addedNotes, functionNote]

/-- One call through either set of functions. -/
theorem nbMixed_eq (B : Backend) (L : Library) (hashSize : Nat) (al : Nat → Bool) (dep : Bool) (c : ApiCall) (slot : Option Nat) (s : BSt L.State) : ∃ f : Reply × Option Nat × BSt L.State → List Note,
    (∀ x, bStep B L hashSize al c slot s = .ok x → StepNotes B L hashSize al c slot s x (f x)) ∧
    (if dep then nbDepStep B L hashSize al c slot s [] else nbStep B L hashSize al c slot s []) = bStep B L hashSize al c slot s >>= fun x => .ok (x.1, x.2.1, x.2.2, f x ++ addedNotes dep x.1.code c) := by
  obtain ⟨f, g, e⟩ := nbStep_eq B L hashSize al c slot s
  refine ⟨f, g, ?_⟩
  cases dep with
  | false =>
    simp only [Bool.false_eq_true, if_false, e]
    exact Res.bind_same fun x => by simp [addedNotes]
  | true =>
    simp only [if_true, nbDepStep, e]
    cases hb : bStep B L hashSize al c slot s with
    | ub => rfl
    | diverge => rfl
    | ok x =>
      simp only [Res.ok_bind, nbDeprecated_eq (g x hb).1]
      rfl

/-- A program. -/
theorem nbRun_eq (B : Backend) (L : Library) (hashSize : Nat) (al : Nat → Bool) : ∀ (cs : List (Bool × ApiCall)) (slot : Option Nat) (s : BSt L.State),
    ∃ f : List Reply × Option Nat × BSt L.State → List (List Note),
      (∀ x, bRun B L hashSize al (cs.map (·.2)) slot s = .ok x → (f x).length = x.1.length ∧ x.1.length = cs.length ∧ NotesExplained (Faults B L) B.limits hashSize al slot.isSome s.count (cs.zip (x.1.zip (f x)))) ∧
      nbRun B L hashSize al cs slot s = bRun B L hashSize al (cs.map (·.2)) slot s >>= fun x => .ok (x.1.zip (f x), x.2.1, x.2.2)
  | [], slot, s => ⟨fun _ => [], by rintro _ ⟨⟩; exact ⟨rfl, rfl, trivial⟩, rfl⟩
  | (dep, c) :: cs, slot, s => by
    obtain ⟨f, g, e⟩ := nbMixed_eq B L hashSize al dep c slot s
    rw [List.map_cons]
    unfold nbRun bRun
    simp only [e]
    cases h : bStep B L hashSize al c slot s with
    | ub => exact ⟨fun _ => [], by rintro _ ⟨⟩, rfl⟩
    | diverge => exact ⟨fun _ => [], by rintro _ ⟨⟩, rfl⟩
    | ok x =>
      obtain ⟨f2, g2, e2⟩ := nbRun_eq B L hashSize al cs x.2.1 x.2.2
      simp only [Res.ok_bind, e2]
      cases h2 : bRun B L hashSize al (cs.map (·.2)) x.2.1 x.2.2 with
      | ub => exact ⟨fun _ => [], by rintro _ ⟨⟩, rfl⟩
      | diverge => exact ⟨fun _ => [], by rintro _ ⟨⟩, rfl⟩
      | ok y =>
        refine ⟨fun _ => (f x ++ addedNotes dep x.1.code c) :: f2 y, ?_, rfl⟩
        rintro _ ⟨⟩
        obtain ⟨k1, k2, k3⟩ := g2 y h2
        obtain ⟨j1, j2, j3⟩ := g x h
        refine ⟨by simp [k1], by simp [k2], ⟨f x, j1, rfl⟩, ?_⟩
        rw [j2, j3] at k3
        exact k3

end Model
