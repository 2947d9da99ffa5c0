import Verif.Proofs.BackendNotes
/-! The one-shot functions with messages over a crypto library do what the models without them do, and which messages they add. -/

set_option linter.unusedSimpArgs false

namespace Model

open Spec (Err Note Fn Txt Fault faultNote NStage NStops NoteOneShotOutcome checkNotes givenNotes areaNotes contextNotes keyNotes initializeNote updateNote finalizeNote noteContextStage noteInputStage noteOutputStage noteMemoryStage
  noteCheckStage noteCalculateStages noteHmacStages notePassStages noteLongKeyStages)

theorem noteFailed_minus (e : Note) (ns : List Note) : noteFailed (-1) e ns = ns ++ [e] := rfl

/-- `em` does what `m` does, and adds errors as `P` says. -/
def Notes {α} (m : Res α) (em : List Note → Res (α × List Note)) (P : α → List Note → Prop) : Prop :=
  ∃ f : α → List Note, (∀ x, m = .ok x → P x (f x)) ∧ ∀ es, em es = m >>= fun x => .ok (x, es ++ f x)

theorem Notes.bind {α β} {m : Res α} {em : List Note → Res (α × List Note)} {P : α → List Note → Prop} {g : α → Res β} {eg : α × List Note → Res (β × List Note)} {Q : β → List Note → Prop} (h : Notes m em P)
    (k : ∀ a e, P a e → Notes (g a) (fun es => eg (a, es)) (fun b e' => Q b (e ++ e'))) : Notes (m >>= g) (fun es => em es >>= eg) Q := by
  obtain ⟨f, hf, ef⟩ := h
  cases m with
  | ub => exact ⟨fun _ => [], by rintro _ ⟨⟩, fun es => by show em es >>= eg = _; rw [ef]; rfl⟩
  | diverge => exact ⟨fun _ => [], by rintro _ ⟨⟩, fun es => by show em es >>= eg = _; rw [ef]; rfl⟩
  | ok a =>
    obtain ⟨f2, hf2, ef2⟩ := k a (f a) (hf a rfl)
    refine ⟨fun b => f a ++ f2 b, fun b hb => hf2 b hb, fun es => ?_⟩
    show em es >>= eg = _
    rw [ef]
    show eg (a, es ++ f a) = g a >>= _
    have h := ef2 (es ++ f a)
    dsimp only at h
    rw [h]
    exact Res.bind_same fun b => by rw [List.append_assoc]

/-- A step without error output. -/
theorem Notes.step {α β} {m : Res α} {g : α → Res β} {eg : α → List Note → Res (β × List Note)} {Q : β → List Note → Prop} (k : ∀ a, m = .ok a → Notes (g a) (eg a) Q) :
    Notes (m >>= g) (fun es => m >>= fun a => eg a es) Q := by
  cases m with
  | ub => exact ⟨fun _ => [], by rintro _ ⟨⟩, fun es => rfl⟩
  | diverge => exact ⟨fun _ => [], by rintro _ ⟨⟩, fun es => rfl⟩
  | ok a => exact k a rfl

theorem Notes.pure {α} {a : α} {e : List Note} {P : α → List Note → Prop} (h : P a e) : Notes (.ok a) (fun es => .ok (a, es ++ e)) P :=
  ⟨fun _ => e, by rintro _ ⟨⟩; exact h, fun es => rfl⟩

theorem Notes.ret {α} {a : α} {P : α → List Note → Prop} (h : P a []) : Notes (.ok a) (fun es => .ok (a, es)) P := by simpa using Notes.pure h

theorem Notes.ub {α} {P : α → List Note → Prop} : Notes .ub (fun _ => .ub) P := ⟨fun _ => [], by rintro _ ⟨⟩, fun es => rfl⟩

theorem Notes.mono {α} {m : Res α} {em : List Note → Res (α × List Note)} {P Q : α → List Note → Prop} (h : Notes m em P) (k : ∀ a e, m = .ok a → P a e → Q a e) : Notes m em Q := by
  obtain ⟨f, hf, ef⟩ := h
  exact ⟨f, fun x hx => k x _ hx (hf x hx), ef⟩

/-! ### The stages -/

/-- The outcome of some stages: `ok`: they passed. -/
def NPart (B : Backend) (L : Library) (stages : List NStage) (ok : Prop) (es : List Note) : Prop :=
  ∃ unclean core, es = unclean ++ core ∧ (∀ e ∈ unclean, e = faultNote .cleanUp) ∧ (unclean ≠ [] → Faults B L .cleanUp) ∧
    (ok ∧ core = [] ∧ (∀ s ∈ stages, s.checks = []) ∨ ¬ ok ∧ NStops (Faults B L) stages core)

theorem note_stops_append {fault : Fault → Prop} {l₂ : List NStage} {es : List Note} : ∀ {l₁ : List NStage}, NStops fault l₁ es → NStops fault (l₁ ++ l₂) es
  | _ :: _, .inl h => .inl h
  | _ :: _, .inr ⟨h, .inl h1⟩ => .inr ⟨h, .inl h1⟩
  | _ :: _, .inr ⟨h, .inr h1⟩ => .inr ⟨h, .inr (note_stops_append h1)⟩

theorem note_stops_after {fault : Fault → Prop} {l₂ : List NStage} {es : List Note} : ∀ {l₁ : List NStage}, (∀ s ∈ l₁, s.checks = []) → NStops fault l₂ es → NStops fault (l₁ ++ l₂) es
  | [], _, h => h
  | s :: l₁, h1, h => .inr ⟨h1 s (by simp), .inr (note_stops_after (fun s hs => h1 s (by simp [hs])) h)⟩

variable {B : Backend} {L : Library}

/-- Stages that failed end the function. -/
theorem NPart.stop {l₁ l₂ : List NStage} {ok ok' : Prop} {es : List Note} (h : NPart B L l₁ ok es) (hok : ¬ ok) (hok' : ¬ ok') : NPart B L (l₁ ++ l₂) ok' es := by
  obtain ⟨u, c, h1, h2, h3, h4⟩ := h
  rcases h4 with ⟨h4, -⟩ | ⟨-, h4⟩
  · exact absurd h4 hok
  · exact ⟨u, c, h1, h2, h3, .inr ⟨hok', note_stops_append h4⟩⟩

/-- Stages that passed are followed by others. -/
theorem NPart.next {l₁ l₂ : List NStage} {ok ok' : Prop} {es es' : List Note} (h : NPart B L l₁ ok es) (hok : ok) (h' : NPart B L l₂ ok' es') : NPart B L (l₁ ++ l₂) ok' (es ++ es') := by
  obtain ⟨u, c, h1, h2, h3, h4⟩ := h
  obtain ⟨u', c', k1, k2, k3, k4⟩ := h'
  rcases h4 with ⟨-, h4, h5⟩ | ⟨h4, -⟩
  · subst h4
    refine ⟨u ++ u', c', by rw [h1, k1]; simp, ?_, ?_, ?_⟩
    · intro e he
      rcases List.mem_append.mp he with he | he
      · exact h2 e he
      · exact k2 e he
    · intro hne
      cases u with
      | nil => exact k3 (by simpa using hne)
      | cons a t => exact h3 (by simp)
    · rcases k4 with ⟨k4, k5, k6⟩ | ⟨k4, k5⟩
      · refine .inl ⟨k4, k5, fun s hs => ?_⟩
        rcases List.mem_append.mp hs with hs | hs
        · exact h5 s hs
        · exact k6 s hs
      · exact .inr ⟨k4, note_stops_after h5 k5⟩
  · exact absurd hok h4

theorem NPart.pass {s : NStage} {ok : Prop} (hok : ok) (h : s.checks = []) : NPart B L [s] ok [] := ⟨[], [], rfl, by simp, by simp, .inl ⟨hok, rfl, by simpa using h⟩⟩

theorem NPart.check {s : NStage} {ok : Prop} (hok : ¬ ok) (h : s.checks ≠ []) : NPart B L [s] ok s.checks := ⟨[], s.checks, rfl, by simp, by simp, .inr ⟨hok, .inl ⟨h, rfl⟩⟩⟩

theorem NPart.library {s : NStage} {ok : Prop} (hok : ¬ ok) (h : s.checks = []) {f : Fault} (hf : f ∈ s.faults) (hl : Faults B L f) : NPart B L [s] ok [faultNote f, s.after] :=
  ⟨[], [faultNote f, s.after], rfl, by simp, by simp, .inr ⟨hok, .inr ⟨h, .inl ⟨f, hf, hl, rfl⟩⟩⟩⟩

theorem NPart.unclean {l : List NStage} {ok : Prop} {es : List Note} (h : NPart B L l ok es) {d : List Note} (hd : ∀ e ∈ d, e = faultNote .cleanUp) (hd2 : d ≠ [] → Faults B L .cleanUp) : NPart B L l ok (d ++ es) := by
  obtain ⟨u, c, h1, h2, h3, h4⟩ := h
  refine ⟨d ++ u, c, by rw [h1]; simp, ?_, ?_, h4⟩
  · intro e he
    rcases List.mem_append.mp he with he | he
    · exact hd e he
    · exact h2 e he
  · intro hne
    cases d with
    | nil => exact h3 (by simpa using hne)
    | cons a t => exact hd2 (by simp)

/-! ### The calls of the context functions -/

theorem noInitialize_adds (fn : Fn) (env : OEnv) (s : OSt L.State) : Notes (oInitialize B L env none s) (noInitialize fn B L env none s)
    (fun x e => NPart B L [noteContextStage fn (env.allocOk s.ctxs.count)] (x.1 = 1) e ∧ (x.1 = 1 → x.2.1.isSome = true) ∧ x.2.2.ctxs.count = s.ctxs.count + 1) := by
  unfold oInitialize noInitialize
  cases ha : env.allocOk s.ctxs.count with
  | false =>
    have h1 : bInitialize B L env.allocOk none s.ctxs = .ok (-1, none, { s.ctxs with count := s.ctxs.count + 1 }) := by simp [bInitialize, ha]
    have h2 : ∀ es, nbInitialize B L env.allocOk none s.ctxs es = .ok (-1, none, { s.ctxs with count := s.ctxs.count + 1 }, es ++ [⟨.ctxInitialize, .memInsufficient, .createContext⟩]) := by simp [nbInitialize, ha]
    simp only [h1, h2, Res.ok_bind, Res.pure_eq, noteFailed_minus, List.append_assoc]
    exact Notes.pure ⟨NPart.check (by simp) (by simp [noteContextStage, contextNotes, Spec.memoryNotes, Spec.withinNote]), by simp, rfl⟩
  | true =>
    obtain ⟨f, g, e⟩ := nbInitialize_eq B L env.allocOk s.ctxs ha
    simp only [e]
    cases hb : bInitialize B L env.allocOk none s.ctxs with
    | ub => exact Notes.ub
    | diverge => exact ⟨fun _ => [], by rintro _ ⟨⟩, fun es => rfl⟩
    | ok x =>
      obtain ⟨r, sl, c⟩ := x
      obtain ⟨h | h, hcount⟩ := g _ hb
      · obtain ⟨h1, h2, h3⟩ := h
        change r = 1 at h1
        subst h1
        simp only [h2, Res.ok_bind, Res.pure_eq, noteFailed_one, List.append_nil]
        exact Notes.ret ⟨NPart.pass rfl (by simp [noteContextStage, contextNotes, Spec.memoryNotes, Spec.withinNote]), fun _ => h3, hcount⟩
      · obtain ⟨h1, h2, h3⟩ := h
        change r = -1 at h1
        subst h1
        obtain ⟨v, hv, hf, h2⟩ := h2
        simp only [h2, Res.ok_bind, Res.pure_eq, noteFailed_minus, List.append_assoc]
        exact Notes.pure ⟨NPart.library (s := noteContextStage fn true) (by simp) (by simp [noteContextStage, contextNotes, Spec.memoryNotes, Spec.withinNote]) hv hf, by simp, hcount⟩

theorem noUpdate_adds (fn : Fn) (slot : Option Nat) (hs : slot.isSome = true) (buf : Option (List Byte)) (size : Nat) (s : OSt L.State) : Notes (oUpdate B L slot buf size s) (noUpdate fn B L slot buf size s)
    (fun x e => NPart B L [noteInputStage fn B.limits buf.isSome size] (x.1 = 1) e ∧ x.2.ctxs.count = s.ctxs.count ∧ x.2.blocks = s.blocks) := by
  obtain ⟨p, rfl⟩ := Option.isSome_iff_exists.mp hs
  unfold oUpdate noUpdate
  obtain ⟨f, g, e⟩ := nbUpdate_eq B L 0 (fun _ => true) (some p) buf size s.ctxs
  simp only [e]
  cases hb : bUpdate B L (some p) buf size s.ctxs with
  | ub => exact Notes.ub
  | diverge => exact ⟨fun _ => [], by rintro _ ⟨⟩, fun es => rfl⟩
  | ok x =>
    obtain ⟨r, c⟩ := x
    obtain ⟨hc, -, hcount⟩ := g _ hb
    have hcount : c.count = s.ctxs.count := by simpa using hcount
    have hm : B.limits.maxInput = B.maxUpdate := rfl
    rcases hc with ⟨h1, h2, h3⟩ | ⟨h1, h2, h3⟩ | ⟨h1, h2, v, hv, hf, h3⟩ | ⟨-, h, -⟩
    · change r = -1 at h2
      subst h2
      simp only [h3, Res.ok_bind, Res.pure_eq, noteFailed_minus, List.append_assoc]
      have he : checkNotes B.limits 0 (some p).isSome true (.update buf size) ++ [updateNote fn] = (noteInputStage fn B.limits buf.isSome size).checks := by
        revert h1
        simp only [checkNotes, noteInputStage, givenNotes]
        cases buf with
        | none => simp [Spec.withinNote]
        | some b => by_cases hx : B.limits.maxInput < size <;> simp [hx, Spec.withinNote]
      simp only [updateNote, finalizeNote] at he
      rw [he]
      exact Notes.pure ⟨NPart.check (by simp) (by rw [← he]; simp), hcount, rfl⟩
    · change r = 1 at h2
      subst h2
      simp only [h3, Res.ok_bind, Res.pure_eq, noteFailed_one, List.append_nil]
      refine Notes.ret ⟨NPart.pass rfl ?_, hcount, rfl⟩
      revert h1
      simp only [checkNotes, noteInputStage, givenNotes]
      cases buf with
      | none => simp [Spec.withinNote]
      | some b => by_cases hx : B.limits.maxInput < size <;> simp [hx, Spec.withinNote]
    · change r = -1 at h2
      subst h2
      simp only [h3, Res.ok_bind, Res.pure_eq, noteFailed_minus, List.append_assoc]
      cases buf with
      | none => simp [checkNotes, givenNotes] at h1
      | some b =>
        have hx : ¬ B.maxUpdate < size := by
          intro hx
          simp [checkNotes, givenNotes, hm, hx] at h1
        have := NPart.library (B := B) (s := noteInputStage fn B.limits (some b).isSome size) (ok := (-1 : Int) = 1) (by decide) (by simp [noteInputStage, givenNotes, hm, hx, Spec.withinNote]) hv hf
        exact Notes.pure ⟨this, hcount, rfl⟩
    · cases h

theorem noFinalize_adds (fn : Fn) (n : Nat) (slot : Option Nat) (hs : slot.isSome = true) (out : Option (List Byte)) (size : Nat) (s : OSt L.State) : Notes (oFinalize B L n slot out size s) (noFinalize fn B L n slot out size s)
    (fun x e => NPart B L [noteOutputStage fn B.limits n out.isSome size] (x.1 = 1) e ∧ x.2.2.ctxs.count = s.ctxs.count ∧ x.2.2.blocks = s.blocks) := by
  obtain ⟨p, rfl⟩ := Option.isSome_iff_exists.mp hs
  unfold oFinalize noFinalize
  obtain ⟨f, g, e⟩ := nbFinalize_eq B L n (fun _ => true) (some p) out size s.ctxs
  simp only [e]
  cases hb : bFinalize B L n (some p) out size s.ctxs with
  | ub => exact Notes.ub
  | diverge => exact ⟨fun _ => [], by rintro _ ⟨⟩, fun es => rfl⟩
  | ok x =>
    obtain ⟨r, o', c⟩ := x
    obtain ⟨hc, -, hcount⟩ := g _ hb
    have hcount : c.count = s.ctxs.count := by simpa using hcount
    have hm : B.limits.maxOutput = B.maxOutput := rfl
    rcases hc with ⟨h1, h2, h3⟩ | ⟨h1, h2, h3⟩ | ⟨h1, h2, v, hv, hf, h3⟩ | ⟨-, h, -⟩
    · change r = -1 at h2
      subst h2
      simp only [h3, Res.ok_bind, Res.pure_eq, noteFailed_minus, List.append_assoc]
      have he : checkNotes B.limits n (some p).isSome true (.finalize out size) ++ [finalizeNote fn] = (noteOutputStage fn B.limits n out.isSome size).checks := by
        revert h1
        simp only [checkNotes, noteOutputStage, areaNotes]
        cases out with
        | none => simp [Spec.withinNote]
        | some b => by_cases hx : B.limits.maxOutput < size <;> by_cases hy : size < n <;> simp [hx, hy, Spec.withinNote]
      simp only [updateNote, finalizeNote] at he
      rw [he]
      exact Notes.pure ⟨NPart.check (by simp) (by rw [← he]; simp), hcount, rfl⟩
    · change r = 1 at h2
      subst h2
      simp only [h3, Res.ok_bind, Res.pure_eq, noteFailed_one, List.append_nil]
      refine Notes.ret ⟨NPart.pass rfl ?_, hcount, rfl⟩
      revert h1
      simp only [checkNotes, noteOutputStage, areaNotes]
      cases out with
      | none => simp [Spec.withinNote]
      | some b => by_cases hx : B.limits.maxOutput < size <;> by_cases hy : size < n <;> simp [hx, hy, Spec.withinNote]
    · change r = -1 at h2
      subst h2
      simp only [h3, Res.ok_bind, Res.pure_eq, noteFailed_minus, List.append_assoc]
      cases out with
      | none => simp [checkNotes, areaNotes] at h1
      | some b =>
        have hx : ¬ B.maxOutput < size := by
          intro hx
          simp [checkNotes, areaNotes, hm, hx] at h1
        have hy : ¬ size < n := by
          intro hy
          simp [checkNotes, areaNotes, hm, hx, hy] at h1
        exact Notes.pure ⟨NPart.library (s := noteOutputStage fn B.limits n (some b).isSome size) (by simp) (by simp [noteOutputStage, areaNotes, hm, hx, hy, Spec.withinNote]) hv hf, hcount, rfl⟩
    · cases h

theorem noFree_adds (fn : Fn) (slot : Option Nat) (s : OSt L.State) : Notes (oFree B L slot s) (noFree fn B L slot s)
    (fun x e => x.1 = 1 ∧ x.2.1 = none ∧ (∀ y ∈ e, y = faultNote .cleanUp) ∧ (e ≠ [] → Faults B L .cleanUp) ∧ x.2.2.ctxs.count = s.ctxs.count ∧ x.2.2.blocks = s.blocks) := by
  unfold oFree noFree
  obtain ⟨f, g, e⟩ := nbFree_eq B L slot s.ctxs
  simp only [e]
  cases hb : bFree B L slot s.ctxs with
  | ub => exact Notes.ub
  | diverge => exact ⟨fun _ => [], by rintro _ ⟨⟩, fun es => rfl⟩
  | ok x =>
    obtain ⟨r, sl, c⟩ := x
    obtain ⟨h1, h2, h3, h4⟩ := g _ hb
    change r = 1 at h1
    subst h1
    simp only [Res.ok_bind, Res.pure_eq, noteFailed_one]
    refine Notes.pure ⟨rfl, h2, ?_, ?_, h3, rfl⟩
    · rcases h4 with h4 | ⟨-, h4⟩ <;> rw [h4] <;> simp
    · rcases h4 with h4 | ⟨h4, -⟩
      · rw [h4]; simp
      · exact fun _ => h4

/-! ### The digest -/

theorem noCalculateError_adds (context : Option Nat) (s : OSt L.State) : Notes (oCalculateError B L context s) (noCalculateError B L context s) (fun x e => x.1 = -1 ∧ e = []) := by
  unfold noCalculateError
  cases h : oCalculateError B L context s with
  | ub => exact Notes.ub
  | diverge => exact ⟨fun _ => [], by rintro _ ⟨⟩, fun es => rfl⟩
  | ok x =>
    unfold oCalculateError at h
    obtain ⟨s', -, h⟩ := Res.bind_eq_ok h
    cases h
    exact Notes.ret ⟨rfl, rfl⟩

/-- The function stops. -/
theorem note_stop_calculate {l₁ l₂ : List NStage} {r : Int} {e : List Note} (h : NPart B L l₁ (r = 1) e) (hr : r ≠ 1) (context : Option Nat) (s : OSt L.State) :
    Notes (oCalculateError B L context s) (noCalculateError B L context s) (fun x e' => NoteOneShotOutcome (Faults B L) (l₁ ++ l₂) x.1 (e ++ e')) := by
  refine (noCalculateError_adds context s).mono fun x e' _ hx => ?_
  obtain ⟨hx, rfl⟩ := hx
  rw [List.append_nil, hx]
  obtain ⟨u, c, h1, h2, h3, h4⟩ := NPart.stop (l₂ := l₂) (ok' := False) h hr id
  rcases h4 with ⟨h4, -⟩ | ⟨-, h4⟩
  · exact h4.elim
  · exact ⟨u, c, h1, h2, h3, .inr ⟨rfl, h4⟩⟩

theorem noCalculate_adds (n : Nat) (env : OEnv) (buffer : Option Nat) (size : Nat) (hash : Option Nat) (hashSize : Nat) (s : OSt L.State) :
    Notes (oCalculate B L n env buffer size hash hashSize s) (noCalculate B L n env buffer size hash hashSize s)
      (fun x e => NoteOneShotOutcome (Faults B L) (noteCalculateStages B.limits n (fun i => env.allocOk (s.ctxs.count + i)) buffer.isSome size hash.isSome hashSize) x.1 e) := by
  unfold oCalculate noCalculate
  refine (noInitialize_adds .calculate env s).bind fun a e1 h1 => ?_
  obtain ⟨r, context, s1⟩ := a
  obtain ⟨h1, hslot, -⟩ := h1
  dsimp only at h1 hslot ⊢
  by_cases hr : r ≠ 1
  · simp only [if_pos hr]
    exact note_stop_calculate (l₁ := [_]) h1 hr _ _
  simp only [if_neg hr]
  have hslot := hslot (by simpa using hr)
  refine (noUpdate_adds .calculate context hslot _ size s1).bind fun a e2 h2 => ?_
  obtain ⟨r2, s2⟩ := a
  obtain ⟨h2, -⟩ := h2
  rw [oRegion_given] at h2
  have p2 := h1.next (by simpa using hr) h2
  dsimp only at p2 ⊢
  by_cases hr2 : r2 ≠ 1
  · simp only [if_pos hr2]
    exact (note_stop_calculate (l₁ := [_, _]) p2 hr2 context s2).mono fun x e' _ hx => by simpa [noteCalculateStages] using hx
  simp only [if_neg hr2]
  refine (noFinalize_adds .calculate n context hslot _ hashSize s2).bind fun a e3 h3 => ?_
  obtain ⟨r3, h', s3⟩ := a
  obtain ⟨h3, -⟩ := h3
  rw [oRegion_given] at h3
  have p3 := p2.next (by simpa using hr2) h3
  dsimp only at p3 ⊢
  by_cases hr3 : r3 ≠ 1
  · simp only [if_pos hr3]
    exact (note_stop_calculate (l₁ := [_, _, _]) (l₂ := []) p3 hr3 context (oSetRegion s3 hash h')).mono fun x e' _ hx => by simpa [noteCalculateStages] using hx
  simp only [if_neg hr3]
  refine (noFree_adds .calculate context _).bind fun a e4 h4 => ?_
  obtain ⟨r4, c4, s4⟩ := a
  obtain ⟨rfl, -, hu, hd, -⟩ := h4
  dsimp only at hu hd ⊢
  simp only [ne_eq, not_true_eq_false, if_false]
  refine Notes.ret ?_
  obtain ⟨u, c, q1, q2, q3, q4⟩ := p3
  rcases q4 with ⟨-, q4, q5⟩ | ⟨q4, -⟩
  · subst q4
    refine ⟨u ++ e4, [], by simpa using congrArg (· ++ e4) q1, ?_, ?_, .inl ⟨rfl, rfl, q5⟩⟩
    · intro e he
      rcases List.mem_append.mp he with he | he
      · exact q2 e he
      · exact hu e he
    · intro hne
      cases u with
      | nil => exact hd (by simpa using hne)
      | cons a t => exact q3 (by simp)
  · exact absurd (by simpa using hr3) q4

/-! ### The HMAC -/

theorem NPart.freed {l : List NStage} {ok : Prop} {es d : List Note} (h : NPart B L l ok es) (hok : ok) (hd : ∀ e ∈ d, e = faultNote .cleanUp) (hd2 : d ≠ [] → Faults B L .cleanUp) : NPart B L l ok (es ++ d) := by
  have h2 : NPart B L [] True d := ⟨d, [], by simp, hd, hd2, .inl ⟨trivial, rfl, by simp⟩⟩
  obtain ⟨u, c, q1, q2, q3, q4⟩ := NPart.next h hok h2
  rw [List.append_nil] at q4
  refine ⟨u, c, q1, q2, q3, ?_⟩
  rcases q4 with ⟨-, q5, q6⟩ | ⟨q5, -⟩
  · exact .inl ⟨hok, q5, q6⟩
  · exact absurd trivial q5

theorem NPart.iff {l : List NStage} {p q : Prop} {es : List Note} (h : NPart B L l p es) (hpq : p ↔ q) : NPart B L l q es := by
  rwa [propext hpq] at h

theorem note_inputStage_pad {b : Nat} (h0 : b ≠ 0) (hb : b ≤ B.maxUpdate) : noteInputStage .calculateHmac B.limits true b = ⟨[], [.update], updateNote .calculateHmac⟩ := by
  have hm : B.limits.maxInput = B.maxUpdate := rfl
  have : ¬ B.maxUpdate < b := by omega
  simp [noteInputStage, givenNotes, hm, this, h0, Spec.withinNote]

theorem note_outputStage_key {n : Nat} (hn : n ≤ B.maxOutput) : noteOutputStage .calculateHmac B.limits n true n = ⟨[], [.finalize], finalizeNote .calculateHmac⟩ := by
  have hm : B.limits.maxOutput = B.maxOutput := rfl
  have : ¬ B.maxOutput < n := by omega
  simp [noteOutputStage, areaNotes, hm, this, Spec.withinNote]

/-- What follows a part of `libhmac_*_calculate_hmac`: whether it passed its stages, that no context is left, and how many allocations were made. -/
def NAfter (B : Backend) (L : Library) (stages : List NStage) (count : Nat) (x : Bool × Loc × OSt L.State) (e : List Note) : Prop :=
  NPart B L stages (x.1 = true) e ∧ (x.1 = true → x.2.1.context = none ∧ x.2.2.ctxs.count = count)

theorem NAfter.stop {l₁ l₂ : List NStage} {p : Prop} {e : List Note} {k : Nat} {l : Loc} {s : OSt L.State} (h : NPart B L l₁ p e) (hp : ¬ p) : NAfter B L (l₁ ++ l₂) k (false, l, s) e :=
  ⟨h.stop hp (by simp), by simp⟩

theorem noPass_adds (n b : Nat) (h0 : b ≠ 0) (hb : b ≤ B.maxUpdate) (env : OEnv) (padding buffer : Option Nat) (size : Nat) (hmac : Option Nat) (hmacSize : Nat) (l : Loc) (hl : l.context = none) (s : OSt L.State) :
    Notes (oPass B L n b env padding buffer size hmac hmacSize l s) (noPass B L n b env padding buffer size hmac hmacSize l s)
      (NAfter B L (notePassStages B.limits n (env.allocOk s.ctxs.count) buffer.isSome size hmac.isSome hmacSize) (s.ctxs.count + 1)) := by
  unfold oPass noPass
  rw [hl]
  refine (noInitialize_adds .calculateHmac env s).bind fun a e1 h1 => ?_
  obtain ⟨r, context, s1⟩ := a
  obtain ⟨p1, hslot, c1⟩ := h1
  dsimp only at p1 hslot c1 ⊢
  by_cases hr : r ≠ 1
  · simp only [if_pos hr]
    exact Notes.ret (by rw [List.append_nil]; exact NAfter.stop (l₁ := [_]) p1 hr)
  simp only [if_neg hr]
  have hslot := hslot (by simpa using hr)
  refine Notes.step fun d _ => ?_
  refine (noUpdate_adds .calculateHmac context hslot (some d) b s1).bind fun a e2 h2 => ?_
  obtain ⟨r2, s2⟩ := a
  obtain ⟨p2, c2, -⟩ := h2
  rw [Option.isSome_some, note_inputStage_pad h0 hb] at p2
  have p2 := p1.next (by simpa using hr) p2
  dsimp only at p2 c2 ⊢
  by_cases hr2 : r2 ≠ 1
  · simp only [if_pos hr2]
    exact Notes.ret (by rw [List.append_nil]; exact NAfter.stop (l₁ := [_, _]) p2 hr2)
  simp only [if_neg hr2]
  refine (noUpdate_adds .calculateHmac context hslot _ size s2).bind fun a e3 h3 => ?_
  obtain ⟨r3, s3⟩ := a
  obtain ⟨p3, c3, -⟩ := h3
  rw [oRegion_given] at p3
  have p3 := p2.next (by simpa using hr2) p3
  dsimp only at p3 c3 ⊢
  by_cases hr3 : r3 ≠ 1
  · simp only [if_pos hr3]
    exact Notes.ret (by rw [List.append_nil, ← List.append_assoc]; exact NAfter.stop (l₁ := [_, _, _]) p3 hr3)
  simp only [if_neg hr3]
  refine (noFinalize_adds .calculateHmac n context hslot _ hmacSize s3).bind fun a e4 h4 => ?_
  obtain ⟨r4, h', s4⟩ := a
  obtain ⟨p4, c4, -⟩ := h4
  rw [oRegion_given] at p4
  have p4 := p3.next (by simpa using hr3) p4
  dsimp only at p4 c4 ⊢
  by_cases hr4 : r4 ≠ 1
  · simp only [if_pos hr4]
    exact Notes.ret (by rw [List.append_nil, ← List.append_assoc, ← List.append_assoc]; exact NAfter.stop (l₁ := [_, _, _, _]) (l₂ := []) p4 hr4)
  simp only [if_neg hr4]
  refine (noFree_adds .calculateHmac context _).bind fun a e5 h5 => ?_
  obtain ⟨r5, c5, s5⟩ := a
  obtain ⟨rfl, hn, hu, hd, k5, -⟩ := h5
  dsimp only at hn hu hd k5 ⊢
  subst hn
  simp only [ne_eq, not_true_eq_false, if_false]
  refine Notes.ret ⟨?_, fun _ => ⟨rfl, ?_⟩⟩
  · have := (p4.freed (by simpa using hr4) hu hd).iff (q := true = true) (by simpa using hr4)
    simpa [notePassStages] using this
  · rw [oSetRegion_ctxs] at k5
    dsimp only
    omega

theorem noKey_adds (n b : Nat) (hn : n ≤ B.maxOutput) (env : OEnv) (key : Option Nat) (hk : key.isSome = true) (keySize : Nat) (l : Loc) (hl : l.context = none) (s : OSt L.State) :
    Notes (oKey B L n b env key keySize l s) (noKey B L n b env key keySize l s)
      (NAfter B L ([noteMemoryStage ⟨.calculateHmac, .memInsufficient, .createKey⟩ (env.allocOk s.ctxs.count)] ++ if keySize ≤ b then [] else noteLongKeyStages B.limits (fun i => env.allocOk (s.ctxs.count + i)) keySize) (s.ctxs.count + if keySize ≤ b then 1 else 2)) := by
  unfold oKey noKey oAlloc
  by_cases ha : env.allocOk s.ctxs.count = true
  swap
  · rw [if_neg ha, Bool.eq_false_iff.mpr ha]
    exact Notes.pure (NAfter.stop (l₁ := [_]) (p := False) (NPart.check (by simp) (by simp [noteMemoryStage, Spec.memoryNotes])) (by simp))
  rw [if_pos ha, ha]
  dsimp only
  have p0 : NPart B L [noteMemoryStage ⟨.calculateHmac, .memInsufficient, .createKey⟩ true] True [] := NPart.pass trivial (by simp [noteMemoryStage, Spec.memoryNotes])
  by_cases hs : keySize ≤ b
  · simp only [if_pos hs]
    obtain ⟨k, rfl⟩ := Option.isSome_iff_exists.mp hk
    simp only [oRegion, Option.map_some]
    refine Notes.step fun d _ => Notes.step fun d _ => Notes.step fun d _ => Notes.step fun s6 h6 => ?_
    refine Notes.ret ⟨p0.iff (by simp), fun _ => ⟨hl, ?_⟩⟩
    rw [oStore_ctxs h6]
  simp only [if_neg hs]
  unfold noLongKey
  rw [hl]
  refine (noInitialize_adds .calculateHmac env _).bind fun a e1 h1 => ?_
  obtain ⟨r, context, s1⟩ := a
  obtain ⟨p1, hslot, c1⟩ := h1
  dsimp only at p1 hslot c1 ⊢
  have p1 := p0.next trivial p1
  rw [List.nil_append] at p1
  by_cases hr : r ≠ 1
  · simp only [if_pos hr]
    exact Notes.ret (by rw [List.append_nil]; exact NAfter.stop (l₁ := [_, _]) p1 hr)
  simp only [if_neg hr]
  have hslot := hslot (by simpa using hr)
  refine (noUpdate_adds .calculateHmac context hslot _ keySize s1).bind fun a e2 h2 => ?_
  obtain ⟨r2, s2⟩ := a
  obtain ⟨p2, c2, -⟩ := h2
  rw [oRegion_given, hk] at p2
  have p2 := p1.next (by simpa using hr) p2
  dsimp only at p2 c2 ⊢
  by_cases hr2 : r2 ≠ 1
  · simp only [if_pos hr2]
    exact Notes.ret (by rw [List.append_nil]; exact NAfter.stop (l₁ := [_, _, _]) p2 hr2)
  simp only [if_neg hr2]
  refine (noFinalize_adds .calculateHmac n context hslot _ n s2).bind fun a e3 h3 => ?_
  obtain ⟨r3, h', s3⟩ := a
  obtain ⟨p3, c3, -⟩ := h3
  rw [Option.isSome_some, note_outputStage_key hn] at p3
  have p3' := p2.next (by simpa using hr2) p3
  dsimp only at p3' c3 ⊢
  clear p3
  cases h' with
  | none => exact Notes.ub
  | some h' =>
  dsimp only
  by_cases hr3 : r3 ≠ 1
  · simp only [if_pos hr3]
    exact Notes.ret (by rw [List.append_nil, ← List.append_assoc]; exact NAfter.stop (l₁ := [_, _, _, _]) (l₂ := []) p3' hr3)
  simp only [if_neg hr3]
  refine (noFree_adds .calculateHmac context _).bind fun a e5 h5 => ?_
  obtain ⟨r5, c5, s5⟩ := a
  obtain ⟨rfl, hn, hu, hd, k5, -⟩ := h5
  dsimp only at hn hu hd k5 ⊢
  subst hn
  simp only [ne_eq, not_true_eq_false, if_false]
  have hend : ∀ d, Notes (do
      let d ← memCopy d 0 h' 0 n
      let s' ← oStore (some s.ctxs.count) d s5
      pure (true, ({ l with context := none, keyData := some s.ctxs.count, keyHash := h' } : Loc), s')) (fun es => do
      let d ← memCopy d 0 h' 0 n
      let s' ← oStore (some s.ctxs.count) d s5
      pure ((true, ({ l with context := none, keyData := some s.ctxs.count, keyHash := h' } : Loc), s'), es))
      (fun x e' => NAfter B L ([noteMemoryStage ⟨.calculateHmac, .memInsufficient, .createKey⟩ true] ++ noteLongKeyStages B.limits (fun i => env.allocOk (s.ctxs.count + i)) keySize) (s.ctxs.count + 2) x (e1 ++ (e2 ++ (e3 ++ (e5 ++ e'))))) := by
    intro d
    refine Notes.step fun d _ => Notes.step fun s6 h6 => ?_
    refine Notes.ret ⟨?_, fun _ => ⟨rfl, ?_⟩⟩
    · have := (p3'.freed (by simpa using hr3) hu hd).iff (q := true = true) (by simpa using hr3)
      simpa [noteLongKeyStages] using this
    · rw [oStore_ctxs h6]
      simp only at *
      omega
  refine Notes.step fun d _ => ?_
  by_cases hnb : n < b
  · simp only [if_pos hnb]
    exact Notes.step fun d _ => hend d
  · simp only [if_neg hnb]
    exact hend d

theorem noPads_adds (b : Nat) (env : OEnv) (l : Loc) (hl : l.context = none) (s : OSt L.State) :
    Notes (oPads b env l s) (noPads b env l s)
      (NAfter B L [noteMemoryStage ⟨.calculateHmac, .memInsufficient, .createInner⟩ (env.allocOk s.ctxs.count), noteMemoryStage ⟨.calculateHmac, .memInsufficient, .createOuter⟩ (env.allocOk (s.ctxs.count + 1))] (s.ctxs.count + 2)) := by
  unfold oPads noPads
  conv =>
    arg 1
    rw [oAlloc]
  conv =>
    arg 2
    intro es
    rw [oAlloc]
  by_cases ha : env.allocOk s.ctxs.count = true
  swap
  · simp only [Bool.eq_false_iff.mpr ha]
    exact Notes.pure (NAfter.stop (l₁ := [_]) (l₂ := [_]) (p := False) (NPart.check (by simp) (by simp [noteMemoryStage, Spec.memoryNotes])) (by simp))
  simp only [if_pos ha]
  have p0 : NPart B L [noteMemoryStage ⟨.calculateHmac, .memInsufficient, .createInner⟩ (env.allocOk s.ctxs.count)] True [] := NPart.pass trivial (by simp [noteMemoryStage, Spec.memoryNotes, ha])
  refine Notes.step fun d _ => Notes.step fun d _ => Notes.step fun s1 h1 => ?_
  have c1 : s1.ctxs.count = s.ctxs.count + 1 := by rw [oStore_ctxs h1]
  unfold oAlloc
  rw [← c1]
  by_cases ha2 : env.allocOk s1.ctxs.count = true
  swap
  · simp only [Bool.eq_false_iff.mpr ha2]
    exact Notes.pure (NAfter.stop (l₁ := [_, _]) (l₂ := []) (p := False) (p0.next trivial (NPart.check (s := noteMemoryStage ⟨.calculateHmac, .memInsufficient, .createOuter⟩ false) (by simp) (by simp [noteMemoryStage, Spec.memoryNotes]))) (by simp))
  simp only [if_pos ha2]
  refine Notes.step fun d _ => Notes.step fun d _ => Notes.step fun s2 h2 => ?_
  have c2 : s2.ctxs.count = s1.ctxs.count + 1 := by rw [oStore_ctxs h2]
  refine Notes.step fun kd _ => Notes.step fun i _ => Notes.step fun o _ => Notes.step fun x _ => ?_
  obtain ⟨i, o⟩ := x
  refine Notes.step fun s3 h3 => Notes.step fun s4 h4 => ?_
  refine Notes.ret ⟨p0.next trivial (NPart.pass (by simp) (by simp [noteMemoryStage, Spec.memoryNotes, ha2])), fun _ => ⟨hl, ?_⟩⟩
  rw [oStore_ctxs h4, oStore_ctxs h3]
  omega

theorem Notes.last {α} {m : Res α} {P : α → List Note → Prop} (h : ∀ x, m = .ok x → P x []) : Notes m (fun es => m >>= fun x => .ok (x, es)) P :=
  ⟨fun _ => [], h, fun es => by simp⟩

/-- The function stops. -/
theorem note_stop_hmac {b : Nat} {l₁ l₂ : List NStage} {p : Prop} {e : List Note} (h : NPart B L l₁ p e) (hp : ¬ p) (l : Loc) (s : OSt L.State) :
    Notes (oHmacError B L b l s) (noHmacError B L b l s) (fun x e' => NoteOneShotOutcome (Faults B L) (l₁ ++ l₂) x.1 (e ++ e')) := by
  refine Notes.last fun x hx => ?_
  rw [List.append_nil, oHmacError_minus hx]
  obtain ⟨u, c, h1, h2, h3, h4⟩ := NPart.stop (l₂ := l₂) (ok' := False) h hp id
  rcases h4 with ⟨h4, -⟩ | ⟨-, h4⟩
  · exact h4.elim
  · exact ⟨u, c, h1, h2, h3, .inr ⟨rfl, h4⟩⟩

theorem note_outcome_check {s : NStage} {l₁ l₂ : List NStage} (h1 : ∀ s ∈ l₁, s.checks = []) (h : s.checks ≠ []) : NoteOneShotOutcome (Faults B L) (l₁ ++ s :: l₂) (-1) s.checks :=
  ⟨[], s.checks, rfl, by simp, by simp, .inr ⟨rfl, note_stops_after h1 (.inl ⟨h, rfl⟩)⟩⟩

theorem noCalculateHmac_adds (n b : Nat) (hn : n ≤ B.maxOutput) (h0 : b ≠ 0) (hb : b ≤ B.maxUpdate) (env : OEnv) (keyHash : List Byte) (key : Option Nat) (keySize : Nat) (buffer : Option Nat) (size : Nat)
    (hmac : Option Nat) (hmacSize : Nat) (s : OSt L.State) :
    Notes (oCalculateHmac B L n b env keyHash key keySize buffer size hmac hmacSize s) (noCalculateHmac B L n b env keyHash key keySize buffer size hmac hmacSize s)
      (fun x e => NoteOneShotOutcome (Faults B L)
        (noteHmacStages B.limits n b (fun i => env.allocOk (s.ctxs.count + i)) key.isSome keySize buffer.isSome size hmac.isSome hmacSize) x.1 e) := by
  unfold oCalculateHmac noCalculateHmac
  cases key with
  | none => exact Notes.pure (note_outcome_check (l₁ := []) (s := noteCheckStage (keyNotes false keySize)) (by simp) (by simp [noteCheckStage, keyNotes]))
  | some k =>
  dsimp only
  by_cases h1 : ssizeMax < keySize
  · have he : keyNotes true keySize = [⟨.calculateHmac, .argExceeds, .keyExceeds⟩] := by simp [keyNotes]; exact h1
    simp only [if_pos h1]
    rw [← he]
    exact Notes.pure (note_outcome_check (l₁ := []) (s := noteCheckStage (keyNotes true keySize)) (by simp) (by simp [noteCheckStage, he]))
  simp only [if_neg h1]
  have hi : keyNotes true keySize = [] := by simp [keyNotes]; exact Nat.not_lt.mp h1
  by_cases h2 : hmacSize < n
  · simp only [if_pos h2]
    refine Notes.pure ?_
    have := note_outcome_check (B := B) (L := L) (l₁ := [noteCheckStage (keyNotes true keySize)]) (s := noteCheckStage (if hmacSize < n then [⟨.calculateHmac, .argTooSmall, .hmacTooSmall⟩] else []))
      (l₂ := (noteHmacStages B.limits n b (fun i => env.allocOk (s.ctxs.count + i)) true keySize buffer.isSome size hmac.isSome hmacSize).drop 2) (by simp [noteCheckStage, hi]) (by simp [noteCheckStage, h2])
    simp only [if_pos h2] at this
    simpa [noteHmacStages, noteCheckStage, h2] using this
  simp only [if_neg h2]
  have p0 : NPart B L [noteCheckStage (keyNotes true keySize), noteCheckStage (if hmacSize < n then [⟨.calculateHmac, .argTooSmall, .hmacTooSmall⟩] else [])] True [] :=
    NPart.next (l₁ := [_]) (l₂ := [_]) (NPart.pass trivial (s := noteCheckStage (keyNotes true keySize)) hi) trivial (NPart.pass trivial (by simp [noteCheckStage, h2]))
  refine (noKey_adds n b hn env (some k) rfl keySize _ rfl s).bind fun a e1 q1 => ?_
  obtain ⟨ok1, l1, s1⟩ := a
  obtain ⟨p1, q1⟩ := q1
  have p1 := p0.next trivial p1
  rw [List.nil_append] at p1
  dsimp only at p1 q1 ⊢
  cases ok1 with
  | false =>
    simp only [Bool.not_false, if_true]
    refine (note_stop_hmac (l₂ := [noteMemoryStage ⟨.calculateHmac, .memInsufficient, .createInner⟩ (env.allocOk (s.ctxs.count + if keySize ≤ b then 1 else 2)), noteMemoryStage ⟨.calculateHmac, .memInsufficient, .createOuter⟩ (env.allocOk (s.ctxs.count + ((if keySize ≤ b then 1 else 2) + 1)))] ++
        (notePassStages B.limits n (env.allocOk (s.ctxs.count + ((if keySize ≤ b then 1 else 2) + 2))) buffer.isSome size hmac.isSome hmacSize ++
          notePassStages B.limits n (env.allocOk (s.ctxs.count + ((if keySize ≤ b then 1 else 2) + 3))) hmac.isSome n hmac.isSome hmacSize)) p1 (by simp) l1 s1).mono fun x e' _ h => ?_
    simpa [noteHmacStages] using h
  | true =>
  simp only [Bool.not_true, Bool.false_eq_true, if_false]
  obtain ⟨k1, c1⟩ := q1 rfl
  refine (noPads_adds (B := B) b env l1 k1 s1).bind fun a e2 q2 => ?_
  obtain ⟨ok2, l2, s2⟩ := a
  obtain ⟨p2, q2⟩ := q2
  have p2 := p1.next rfl p2
  rw [c1] at p2 q2
  dsimp only at p2 q2 ⊢
  cases ok2 with
  | false =>
    simp only [Bool.not_false, if_true]
    refine (note_stop_hmac (l₂ := notePassStages B.limits n (env.allocOk (s.ctxs.count + ((if keySize ≤ b then 1 else 2) + 2))) buffer.isSome size hmac.isSome hmacSize ++
          notePassStages B.limits n (env.allocOk (s.ctxs.count + ((if keySize ≤ b then 1 else 2) + 3))) hmac.isSome n hmac.isSome hmacSize) p2 (by simp) l2 s2).mono fun x e' _ h => ?_
    simpa [noteHmacStages, Nat.add_assoc] using h
  | true =>
  simp only [Bool.not_true, Bool.false_eq_true, if_false]
  obtain ⟨k2, c2⟩ := q2 rfl
  refine (noPass_adds n b h0 hb env l2.inner buffer size hmac hmacSize l2 k2 s2).bind fun a e3 q3 => ?_
  obtain ⟨ok3, l3, s3⟩ := a
  obtain ⟨p3, q3⟩ := q3
  have p3 := p2.next rfl p3
  rw [c2] at p3 q3
  dsimp only at p3 q3 ⊢
  cases ok3 with
  | false =>
    simp only [Bool.not_false, if_true]
    refine (note_stop_hmac (l₂ := notePassStages B.limits n (env.allocOk (s.ctxs.count + ((if keySize ≤ b then 1 else 2) + 3))) hmac.isSome n hmac.isSome hmacSize) p3 (by simp) l3 s3).mono fun x e' _ h => ?_
    simpa [noteHmacStages, Nat.add_assoc] using h
  | true =>
  simp only [Bool.not_true, Bool.false_eq_true, if_false]
  obtain ⟨k3, c3⟩ := q3 rfl
  refine (noPass_adds n b h0 hb env l3.outer hmac n hmac hmacSize l3 k3 s3).bind fun a e4 q4 => ?_
  obtain ⟨ok4, l4, s4⟩ := a
  obtain ⟨p4, q4⟩ := q4
  have p4 := p3.next rfl p4
  rw [c3] at p4 q4
  dsimp only at p4 q4 ⊢
  cases ok4 with
  | false =>
    simp only [Bool.not_false, if_true]
    refine (note_stop_hmac (l₂ := []) p4 (by simp) l4 s4).mono fun x e' _ h => ?_
    simpa [noteHmacStages, Nat.add_assoc] using h
  | true =>
  simp only [Bool.not_true, Bool.false_eq_true, if_false]
  refine Notes.last fun x hx => ?_
  rw [oHmacEnd_one hx]
  obtain ⟨u, c, r1, r2, r3, r4⟩ := p4
  rcases r4 with ⟨-, r4, r5⟩ | ⟨r4, -⟩
  · refine ⟨u, c, by simpa using r1, r2, r3, .inl ⟨rfl, r4, ?_⟩⟩
    simpa [noteHmacStages, Nat.add_assoc] using r5
  · exact absurd rfl r4

end Model
