import Verif.Model.BackendErrors
import Verif.Spec.BackendErrors
import Verif.Proofs.Backend
/-! The functions with error output over a crypto library do what the models without it do, and which errors they add. -/

namespace Model

open Spec (Err ApiCall Reply checkErrors CallOutcome holdsAfter Explained functionError memoryErrors Limits)

/-- The limits of a build. -/
def Backend.limits (B : Backend) : Limits := ⟨B.maxUpdate, B.maxOutput, match B with | .direct _ => false | _ => true⟩

/-- The build and library in which free may give an error with success. -/
def Dirty (B : Backend) (L : Library) : Prop := B = .evpEmbedded ∧ ∃ n, L.cleanup n = false

/-- What is shown of each call. -/
def StepErrs (B : Backend) (L : Library) (hashSize : Nat) (al : Nat → Bool) (c : ApiCall) (slot : Option Nat) (s : BSt L.State) (x : Reply × Option Nat × BSt L.State) (es : List Err) : Prop :=
  CallOutcome (Dirty B L) (checkErrors B.limits hashSize slot.isSome (al s.count) c) c x.1.code es ∧ x.2.1.isSome = holdsAfter slot.isSome x.1.code c ∧
    x.2.2.count = if c = .init ∧ slot.isSome = false then s.count + 1 else s.count

theorem bErase_count {σ} {p : Nat} {s s' : BSt σ} (h : bErase p s = .ok s') : s'.count = s.count := by
  unfold bErase at h
  split at h
  · cases h
  · cases h; rfl

theorem bSetState_count {σ} {p : Nat} {st : σ} {s s' : BSt σ} (h : bSetState p st s = .ok s') : s'.count = s.count := by
  unfold bSetState at h
  split at h
  · cases h; rfl
  · cases h; rfl
  · cases h

theorem ebInitError_eq {σ} (p : Nat) (s : BSt σ) (es : List Err) : ebInitError p s es = bInitError p s >>= fun x => .ok (x.1, x.2.1, x.2.2, es) := by
  unfold ebInitError bInitError
  cases bErase p s <;> rfl

theorem bInitError_res {σ} {p : Nat} {s : BSt σ} {x : Int × Option Nat × BSt σ} (h : bInitError p s = .ok x) : x.1 = -1 ∧ x.2.1 = none ∧ x.2.2.count = s.count := by
  unfold bInitError at h
  cases he : bErase p s with
  | ub => rw [he] at h; cases h
  | diverge => rw [he] at h; cases h
  | ok s1 =>
    rw [he] at h
    cases h
    exact ⟨rfl, rfl, bErase_count he⟩

/-- The possible results of initialize after its allocation. -/
def InitRes {σ} (n : Nat) (x : Int × Option Nat × BSt σ) (es : List Err) : Prop :=
  ((x.1 = 1 ∧ es = [] ∧ x.2.1.isSome = true) ∨ (x.1 = -1 ∧ es = [.rtInitializeFailed] ∧ x.2.1.isSome = false)) ∧ x.2.2.count = n

theorem initRes_error {σ} (p : Nat) (s : BSt σ) : ∃ f : Int × Option Nat × BSt σ → List Err, (∀ x, bInitError p s = .ok x → InitRes s.count x (f x)) ∧
    ∀ es, ebInitError p s (es ++ [.rtInitializeFailed]) = bInitError p s >>= fun x => .ok (x.1, x.2.1, x.2.2, es ++ f x) := by
  refine ⟨fun _ => [.rtInitializeFailed], fun x hx => ?_, fun es => ebInitError_eq _ _ _⟩
  obtain ⟨h1, h2, h3⟩ := bInitError_res hx
  exact ⟨.inr ⟨h1, rfl, by rw [h2]; rfl⟩, h3⟩

theorem ebDigestInit_eq (L : Library) (p : Nat) (evp : EvpPtr) (s : BSt L.State) : ∃ f : Int × Option Nat × BSt L.State → List Err, (∀ x, bDigestInit L p evp s = .ok x → InitRes s.count x (f x)) ∧
    ∀ es, ebDigestInit L p evp s es = bDigestInit L p evp s >>= fun x => .ok (x.1, x.2.1, x.2.2, es ++ f x) := by
  unfold ebDigestInit bDigestInit
  cases L.init s.calls with
  | some st =>
    cases evp with
    | null => exact ⟨fun _ => [], by rintro _ ⟨⟩, fun es => rfl⟩
    | embedded => exact ⟨fun _ => [], by rintro _ ⟨⟩; exact ⟨.inl ⟨rfl, rfl, rfl⟩, rfl⟩, fun es => by simp⟩
    | heap q => exact ⟨fun _ => [], by rintro _ ⟨⟩; exact ⟨.inl ⟨rfl, rfl, rfl⟩, rfl⟩, fun es => by simp⟩
  | none =>
    cases evp with
    | null => exact ⟨fun _ => [], by rintro _ ⟨⟩, fun es => rfl⟩
    | embedded => exact initRes_error p s.tick.tick
    | heap q =>
      simp only
      cases he : bErase q s.tick with
      | ub => exact ⟨fun _ => [], by rintro _ ⟨⟩, fun es => rfl⟩
      | diverge => exact ⟨fun _ => [], by rintro _ ⟨⟩, fun es => rfl⟩
      | ok s1 =>
        obtain ⟨f, g, e⟩ := initRes_error p s1
        refine ⟨f, fun x hx => ?_, fun es => ?_⟩
        · have := g x hx
          rw [bErase_count he] at this
          exact this
        · simpa using e es

theorem ebInitialize_eq (B : Backend) (L : Library) (al : Nat → Bool) (s : BSt L.State) (ha : al s.count = true) : ∃ f : Int × Option Nat × BSt L.State → List Err,
    (∀ x, bInitialize B L al none s = .ok x → InitRes (s.count + 1) x (f x)) ∧ ∀ es, ebInitialize B L al none s es = bInitialize B L al none s >>= fun x => .ok (x.1, x.2.1, x.2.2, es ++ f x) := by
  unfold ebInitialize bInitialize
  simp only [if_pos ha]
  cases B with
  | direct b =>
    simp only
    cases L.init s.calls with
    | some st => exact ⟨fun _ => [], by rintro _ ⟨⟩; exact ⟨.inl ⟨rfl, rfl, rfl⟩, rfl⟩, fun es => by simp⟩
    | none => exact initRes_error _ _
  | evpEmbedded => exact ebDigestInit_eq _ _ _ _
  | evpAllocated =>
    simp only
    split
    · exact ebDigestInit_eq _ _ _ _
    · exact initRes_error _ _

theorem ebFree_eq (B : Backend) (L : Library) (slot : Option Nat) (s : BSt L.State) : ∃ f : Int × Option Nat × BSt L.State → List Err,
    (∀ x, bFree B L slot s = .ok x → x.1 = 1 ∧ x.2.1 = none ∧ x.2.2.count = s.count ∧ (f x = [] ∨ Dirty B L ∧ f x = [.rtFinalizeFailed])) ∧
    ∀ es, ebFree B L slot s es = bFree B L slot s >>= fun x => .ok (x.1, x.2.1, x.2.2, es ++ f x) := by
  cases slot with
  | none => exact ⟨fun _ => [], by rintro _ ⟨⟩; exact ⟨rfl, rfl, rfl, .inl rfl⟩, fun es => by simp [ebFree, bFree]⟩
  | some p =>
    have ub : ∀ es, (Res.ub : Res (Int × Option Nat × BSt L.State × List Err)) = Res.ub >>= fun x : Int × Option Nat × BSt L.State => .ok (x.1, x.2.1, x.2.2, es ++ ([] : List Err)) := fun es => rfl
    have plain : ∀ (p : Nat) (t : BSt L.State) (hr : t.count = s.count) (d : List Err), (d = [] ∨ Dirty B L ∧ d = [.rtFinalizeFailed]) →
        ∃ f : Int × Option Nat × BSt L.State → List Err, (∀ x, (bErase p t >>= fun s => pure (1, none, s)) = Res.ok x → x.1 = 1 ∧ x.2.1 = none ∧ x.2.2.count = s.count ∧ (f x = [] ∨ Dirty B L ∧ f x = [.rtFinalizeFailed])) ∧
          ∀ es, (bErase p t >>= fun s => (pure (1, none, s, es ++ d) : Res _)) = (bErase p t >>= fun s => pure (1, none, s)) >>= fun x : Int × Option Nat × BSt L.State => .ok (x.1, x.2.1, x.2.2, es ++ f x) := by
      intro p t hr d hd
      cases he : bErase p t with
      | ub => exact ⟨fun _ => [], by rintro _ ⟨⟩, fun es => rfl⟩
      | diverge => exact ⟨fun _ => [], by rintro _ ⟨⟩, fun es => rfl⟩
      | ok s1 =>
        refine ⟨fun _ => d, ?_, fun es => rfl⟩
        rintro _ ⟨⟩
        exact ⟨rfl, rfl, (bErase_count he).trans hr, hd⟩
    unfold ebFree bFree
    simp only
    cases hp : getKey p s.live with
    | none => exact ⟨fun _ => [], by cases B <;> rintro _ ⟨⟩, fun es => by cases B <;> exact ub es⟩
    | some o =>
      cases o with
      | md st => exact ⟨fun _ => [], by cases B <;> rintro _ ⟨⟩, fun es => by cases B <;> exact ub es⟩
      | ctx st evp =>
        cases B with
        | direct b => simpa using plain p s rfl [] (.inl rfl)
        | evpEmbedded =>
          simp only
          cases hcl : L.cleanup s.calls with
          | true => simpa using plain p s.tick rfl [] (.inl rfl)
          | false => simpa using plain p s.tick rfl [.rtFinalizeFailed] (.inr ⟨⟨rfl, _, hcl⟩, rfl⟩)
        | evpAllocated =>
          cases evp with
          | null => simpa using plain p s.tick rfl [] (.inl rfl)
          | embedded => exact ⟨fun _ => [], by rintro _ ⟨⟩, ub⟩
          | heap q =>
            simp only
            cases he : bErase q s.tick with
            | ub => exact ⟨fun _ => [], by rintro _ ⟨⟩, ub⟩
            | diverge => exact ⟨fun _ => [], by rintro _ ⟨⟩, fun es => rfl⟩
            | ok s1 => simpa using plain p s1 ((bErase_count he).trans rfl) [] (.inl rfl)

theorem ebUpdate_eq (B : Backend) (L : Library) (hashSize : Nat) (al : Nat → Bool) (slot : Option Nat) (buf : Option (List Byte)) (size : Nat) (s : BSt L.State) : ∃ f : Int × BSt L.State → List Err,
    (∀ x, bUpdate B L slot buf size s = .ok x → StepErrs B L hashSize al (.update buf size) slot s (⟨x.1, none⟩, slot, x.2) (f x)) ∧
    ∀ es, ebUpdate B L slot buf size s es = bUpdate B L slot buf size s >>= fun x => .ok (x.1, x.2, es ++ f x) := by
  unfold StepErrs
  cases slot with
  | none => exact ⟨fun _ => [.argInvalid], by rintro _ ⟨⟩; exact ⟨.inl ⟨by simp [checkErrors], rfl, rfl⟩, rfl, rfl⟩, fun es => rfl⟩
  | some p =>
    cases buf with
    | none => exact ⟨fun _ => [.argInvalid], by rintro _ ⟨⟩; exact ⟨.inl ⟨by simp [checkErrors], rfl, rfl⟩, rfl, rfl⟩, fun es => rfl⟩
    | some b =>
      unfold ebUpdate bUpdate
      simp only
      have hm : B.limits.maxInput = B.maxUpdate := rfl
      by_cases h1 : B.maxUpdate < size
      · simp only [if_pos h1]
        exact ⟨fun _ => [.argExceeds], by rintro _ ⟨⟩; exact ⟨.inl ⟨by simp [checkErrors, hm, h1], rfl, by simp [checkErrors, hm, h1]⟩, rfl, rfl⟩, fun es => rfl⟩
      · have hpre : checkErrors B.limits hashSize (some p).isSome (al s.count) (.update (some b) size) = [] := by simp [checkErrors, hm, h1]
        rw [hpre]
        simp only [if_neg h1]
        by_cases h2 : size = 0
        · simp only [if_pos h2]
          exact ⟨fun _ => [], by rintro _ ⟨⟩; exact ⟨.inr (.inl ⟨rfl, rfl, rfl⟩), rfl, rfl⟩, fun es => by simp⟩
        · simp only [if_neg h2]
          cases bState B p s with
          | ub => exact ⟨fun _ => [], by rintro _ ⟨⟩, fun es => rfl⟩
          | diverge => exact ⟨fun _ => [], by rintro _ ⟨⟩, fun es => rfl⟩
          | ok st =>
            simp only [Res.ok_bind]
            cases bTake b size with
            | ub => exact ⟨fun _ => [], by rintro _ ⟨⟩, fun es => rfl⟩
            | diverge => exact ⟨fun _ => [], by rintro _ ⟨⟩, fun es => rfl⟩
            | ok data =>
              simp only [Res.ok_bind]
              cases hs : bSetState p (L.update s.calls st data).2 s.tick with
              | ub => exact ⟨fun _ => [], by rintro _ ⟨⟩, fun es => rfl⟩
              | diverge => exact ⟨fun _ => [], by rintro _ ⟨⟩, fun es => rfl⟩
              | ok s1 =>
                have hcount : s1.count = s.count := (bSetState_count hs).trans rfl
                simp only [Res.ok_bind, Res.pure_eq]
                cases (L.update s.calls st data).1 with
                | true => exact ⟨fun _ => [], by rintro _ ⟨⟩; exact ⟨.inr (.inl ⟨rfl, rfl, rfl⟩), rfl, hcount⟩, fun es => by simp⟩
                | false => exact ⟨fun _ => [.rtSetFailed], by rintro _ ⟨⟩; exact ⟨.inr (.inr (.inl ⟨rfl, by simp, rfl, rfl⟩)), rfl, hcount⟩, fun es => by simp⟩

theorem ebFinalize_eq (B : Backend) (L : Library) (hashSize : Nat) (al : Nat → Bool) (slot : Option Nat) (out : Option (List Byte)) (size : Nat) (s : BSt L.State) : ∃ f : Int × Option (List Byte) × BSt L.State → List Err,
    (∀ x, bFinalize B L hashSize slot out size s = .ok x → StepErrs B L hashSize al (.finalize out size) slot s (⟨x.1, x.2.1⟩, slot, x.2.2) (f x)) ∧
    ∀ es, ebFinalize B L hashSize slot out size s es = bFinalize B L hashSize slot out size s >>= fun x => .ok (x.1, x.2.1, x.2.2, es ++ f x) := by
  unfold StepErrs
  cases slot with
  | none => exact ⟨fun _ => [.argInvalid], by rintro _ ⟨⟩; exact ⟨.inl ⟨by simp [checkErrors], rfl, rfl⟩, rfl, rfl⟩, fun es => rfl⟩
  | some p =>
    cases out with
    | none => exact ⟨fun _ => [.argInvalid], by rintro _ ⟨⟩; exact ⟨.inl ⟨by simp [checkErrors], rfl, rfl⟩, rfl, rfl⟩, fun es => rfl⟩
    | some o =>
      unfold ebFinalize bFinalize
      simp only
      have hm : B.limits.maxOutput = B.maxOutput := rfl
      by_cases h1 : B.maxOutput < size
      · simp only [if_pos h1]
        refine ⟨fun _ => [if B.limits.oneTest then .argOutOfBounds else .argExceeds], ?_, fun es => ?_⟩
        · rintro _ ⟨⟩
          exact ⟨.inl ⟨by simp [checkErrors, hm, h1], rfl, by simp [checkErrors, hm, h1]⟩, rfl, rfl⟩
        · cases B <;> rfl
      · simp only [if_neg h1]
        by_cases h2 : size < hashSize
        · simp only [if_pos h2]
          refine ⟨fun _ => [if B.limits.oneTest then .argOutOfBounds else .argTooSmall], ?_, fun es => ?_⟩
          · rintro _ ⟨⟩
            exact ⟨.inl ⟨by simp [checkErrors, hm, h1, h2], rfl, by simp [checkErrors, hm, h1, h2]⟩, rfl, rfl⟩
          · cases B <;> rfl
        · have hpre : checkErrors B.limits hashSize (some p).isSome (al s.count) (.finalize (some o) size) = [] := by simp [checkErrors, hm, h1, h2]
          rw [hpre]
          simp only [if_neg h2]
          cases bState B p s with
          | ub => exact ⟨fun _ => [], by rintro _ ⟨⟩, fun es => rfl⟩
          | diverge => exact ⟨fun _ => [], by rintro _ ⟨⟩, fun es => rfl⟩
          | ok st =>
            simp only [Res.ok_bind]
            cases hs : bSetState p (L.final s.calls st o).2.1 s.tick with
            | ub => exact ⟨fun _ => [], by rintro _ ⟨⟩, fun es => rfl⟩
            | diverge => exact ⟨fun _ => [], by rintro _ ⟨⟩, fun es => rfl⟩
            | ok s1 =>
              have hcount : s1.count = s.count := (bSetState_count hs).trans rfl
              simp only [Res.ok_bind, Res.pure_eq]
              cases (L.final s.calls st o).1 with
              | true => exact ⟨fun _ => [], by rintro _ ⟨⟩; exact ⟨.inr (.inl ⟨rfl, rfl, rfl⟩), rfl, hcount⟩, fun es => by simp⟩
              | false => exact ⟨fun _ => [.rtFinalizeFailed], by rintro _ ⟨⟩; exact ⟨.inr (.inr (.inl ⟨rfl, by simp, rfl, rfl⟩)), rfl, hcount⟩, fun es => by simp⟩

theorem ebStep_eq (B : Backend) (L : Library) (hashSize : Nat) (al : Nat → Bool) (c : ApiCall) (slot : Option Nat) (s : BSt L.State) : ∃ f : Reply × Option Nat × BSt L.State → List Err,
    (∀ x, bStep B L hashSize al c slot s = .ok x → StepErrs B L hashSize al c slot s x (f x)) ∧
    ∀ es, ebStep B L hashSize al c slot s es = bStep B L hashSize al c slot s >>= fun x => .ok (x.1, x.2.1, x.2.2, es ++ f x) := by
  cases c with
  | init =>
    unfold ebStep bStep
    simp only
    cases slot with
    | some p => exact ⟨fun _ => [.rtAlreadySet], by rintro _ ⟨⟩; exact ⟨.inl ⟨by simp [checkErrors], rfl, by simp [checkErrors]⟩, rfl, rfl⟩, fun es => rfl⟩
    | none =>
      cases ha : al s.count with
      | false =>
        simp only [ebInitialize, bInitialize, ha, Bool.false_eq_true, if_false]
        exact ⟨fun _ => [.memInsufficient], by rintro _ ⟨⟩; exact ⟨.inl ⟨by simp [checkErrors, memoryErrors, ha], rfl, by simp [checkErrors, memoryErrors, ha]⟩, rfl, rfl⟩, fun es => rfl⟩
      | true =>
        obtain ⟨f, g, e⟩ := ebInitialize_eq B L al s ha
        simp only [e]
        cases hb : bInitialize B L al none s with
        | ub => exact ⟨fun _ => [], by rintro _ ⟨⟩, fun es => rfl⟩
        | diverge => exact ⟨fun _ => [], by rintro _ ⟨⟩, fun es => rfl⟩
        | ok x =>
          refine ⟨fun _ => f x, ?_, fun es => rfl⟩
          rintro _ ⟨⟩
          have hpre : checkErrors B.limits hashSize (none : Option Nat).isSome (al s.count) .init = [] := by simp [checkErrors, memoryErrors, ha]
          unfold StepErrs
          rw [hpre]
          obtain ⟨h | h, hcount⟩ := g x hb
          · obtain ⟨r, sl, s1⟩ := x
            obtain ⟨h1, h2, h3⟩ := h
            change r = 1 at h1
            subst h1
            exact ⟨.inr (.inl ⟨rfl, rfl, h2⟩), h3, hcount⟩
          · obtain ⟨r, sl, s1⟩ := x
            obtain ⟨h1, h2, h3⟩ := h
            change r = -1 at h1
            subst h1
            exact ⟨.inr (.inr (.inl ⟨rfl, by simp, rfl, h2⟩)), h3, hcount⟩
  | initNull => exact ⟨fun _ => [.argInvalid], by rintro _ ⟨⟩; exact ⟨.inl ⟨by simp [checkErrors], rfl, rfl⟩, rfl, rfl⟩, fun es => rfl⟩
  | freeNull => exact ⟨fun _ => [.argInvalid], by rintro _ ⟨⟩; exact ⟨.inl ⟨by simp [checkErrors], rfl, rfl⟩, rfl, rfl⟩, fun es => rfl⟩
  | free =>
    obtain ⟨f, g, e⟩ := ebFree_eq B L slot s
    unfold ebStep bStep
    simp only [e]
    cases hb : bFree B L slot s with
    | ub => exact ⟨fun _ => [], by rintro _ ⟨⟩, fun es => rfl⟩
    | diverge => exact ⟨fun _ => [], by rintro _ ⟨⟩, fun es => rfl⟩
    | ok x =>
      refine ⟨fun _ => f x, ?_, fun es => rfl⟩
      rintro _ ⟨⟩
      obtain ⟨h1, h2, h3, h4⟩ := g x hb
      refine ⟨?_, by simp [h2, holdsAfter], by simpa using h3⟩
      rcases h4 with h4 | ⟨h4, h5⟩
      · exact .inr (.inl ⟨rfl, h1, h4⟩)
      · exact .inr (.inr (.inr ⟨h4, rfl, h1, h5⟩))
  | update buf size =>
    obtain ⟨f, g, e⟩ := ebUpdate_eq B L hashSize al slot buf size s
    unfold ebStep bStep
    simp only [e]
    cases hb : bUpdate B L slot buf size s with
    | ub => exact ⟨fun _ => [], by rintro _ ⟨⟩, fun es => rfl⟩
    | diverge => exact ⟨fun _ => [], by rintro _ ⟨⟩, fun es => rfl⟩
    | ok x =>
      refine ⟨fun _ => f x, ?_, fun es => rfl⟩
      rintro _ ⟨⟩
      exact g x hb
  | finalize out size =>
    obtain ⟨f, g, e⟩ := ebFinalize_eq B L hashSize al slot out size s
    unfold ebStep bStep
    simp only [e]
    cases hb : bFinalize B L hashSize slot out size s with
    | ub => exact ⟨fun _ => [], by rintro _ ⟨⟩, fun es => rfl⟩
    | diverge => exact ⟨fun _ => [], by rintro _ ⟨⟩, fun es => rfl⟩
    | ok x =>
      refine ⟨fun _ => f x, ?_, fun es => rfl⟩
      rintro _ ⟨⟩
      exact g x hb

/-- A program. -/
theorem ebRun_eq (B : Backend) (L : Library) (hashSize : Nat) (al : Nat → Bool) : ∀ (cs : List ApiCall) (slot : Option Nat) (s : BSt L.State),
    ∃ f : List Reply × Option Nat × BSt L.State → List (List Err),
      (∀ x, bRun B L hashSize al cs slot s = .ok x → (f x).length = x.1.length ∧ x.1.length = cs.length ∧ Explained (Dirty B L) B.limits hashSize al slot.isSome s.count (cs.zip (x.1.zip (f x)))) ∧
      ebRun B L hashSize al cs slot s = bRun B L hashSize al cs slot s >>= fun x => .ok (x.1.zip (f x), x.2.1, x.2.2)
  | [], slot, s => ⟨fun _ => [], by rintro _ ⟨⟩; exact ⟨rfl, rfl, trivial⟩, rfl⟩
  | c :: cs, slot, s => by
    obtain ⟨f, g, e⟩ := ebStep_eq B L hashSize al c slot s
    unfold ebRun bRun
    simp only [e]
    cases h : bStep B L hashSize al c slot s with
    | ub => exact ⟨fun _ => [], by rintro _ ⟨⟩, rfl⟩
    | diverge => exact ⟨fun _ => [], by rintro _ ⟨⟩, rfl⟩
    | ok x =>
      obtain ⟨f2, g2, e2⟩ := ebRun_eq B L hashSize al cs x.2.1 x.2.2
      simp only [Res.ok_bind, e2]
      cases h2 : bRun B L hashSize al cs x.2.1 x.2.2 with
      | ub => exact ⟨fun _ => [], by rintro _ ⟨⟩, rfl⟩
      | diverge => exact ⟨fun _ => [], by rintro _ ⟨⟩, rfl⟩
      | ok y =>
        refine ⟨fun _ => f x :: f2 y, ?_, rfl⟩
        rintro _ ⟨⟩
        obtain ⟨k1, k2, k3⟩ := g2 y h2
        obtain ⟨j1, j2, j3⟩ := g x h
        refine ⟨by simp [k1], by simp [k2], j1, ?_⟩
        rw [j2, j3] at k3
        exact k3

end Model
