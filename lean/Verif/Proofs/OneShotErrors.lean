import Verif.Model.BackendOneShotErrors
import Verif.Spec.OneShotErrors
import Verif.Proofs.BackendErrors
import Verif.Proofs.Messages
/-! The one-shot functions with error output over a crypto library do what the models without it do, and which errors they add. -/

namespace Model

open Spec (Err Stage Stops OneShotOutcome contextStage inputStage outputStage memoryStage calculateStages hmacStages passStages longKeyStages memoryErrors within inputErrors)

/-- `em` does what `m` does, and adds errors as `P` says. -/
def Adds {α} (m : Res α) (em : List Err → Res (α × List Err)) (P : α → List Err → Prop) : Prop :=
  ∃ f : α → List Err, (∀ x, m = .ok x → P x (f x)) ∧ ∀ es, em es = m >>= fun x => .ok (x, es ++ f x)

theorem Adds.bind {α β} {m : Res α} {em : List Err → Res (α × List Err)} {P : α → List Err → Prop} {g : α → Res β} {eg : α × List Err → Res (β × List Err)} {Q : β → List Err → Prop} (h : Adds m em P)
    (k : ∀ a e, P a e → Adds (g a) (fun es => eg (a, es)) (fun b e' => Q b (e ++ e'))) : Adds (m >>= g) (fun es => em es >>= eg) Q := by
  obtain ⟨f, hf, ef⟩ := h
  cases m with
  | ub => exact ⟨fun _ => [], by rintro _ ⟨⟩, fun es => by show em es >>= eg = _; rw [ef]; rfl⟩
  | diverge => exact ⟨fun _ => [], by rintro _ ⟨⟩, fun es => by show em es >>= eg = _; rw [ef]; rfl⟩
  | ok a =>
    obtain ⟨f2, hf2, ef2⟩ := k a (f a) (hf a rfl)
    refine ⟨fun b => f a ++ f2 b, fun b hb => hf2 b hb, fun es => ?_⟩
    show em es >>= eg = _
    rw [ef]
    show eg (a, es ++ f a) = g a >>= _
    have h := ef2 (es ++ f a)
    dsimp only at h
    rw [h]
    exact Res.bind_same fun b => by rw [List.append_assoc]

/-- A step without error output. -/
theorem Adds.step {α β} {m : Res α} {g : α → Res β} {eg : α → List Err → Res (β × List Err)} {Q : β → List Err → Prop} (k : ∀ a, m = .ok a → Adds (g a) (eg a) Q) :
    Adds (m >>= g) (fun es => m >>= fun a => eg a es) Q := by
  cases m with
  | ub => exact ⟨fun _ => [], by rintro _ ⟨⟩, fun es => rfl⟩
  | diverge => exact ⟨fun _ => [], by rintro _ ⟨⟩, fun es => rfl⟩
  | ok a => exact k a rfl

theorem Adds.pure {α} {a : α} {e : List Err} {P : α → List Err → Prop} (h : P a e) : Adds (.ok a) (fun es => .ok (a, es ++ e)) P :=
  ⟨fun _ => e, by rintro _ ⟨⟩; exact h, fun es => rfl⟩

theorem Adds.ret {α} {a : α} {P : α → List Err → Prop} (h : P a []) : Adds (.ok a) (fun es => .ok (a, es)) P := by simpa using Adds.pure h

theorem Adds.ub {α} {P : α → List Err → Prop} : Adds .ub (fun _ => .ub) P := ⟨fun _ => [], by rintro _ ⟨⟩, fun es => rfl⟩

theorem Adds.mono {α} {m : Res α} {em : List Err → Res (α × List Err)} {P Q : α → List Err → Prop} (h : Adds m em P) (k : ∀ a e, m = .ok a → P a e → Q a e) : Adds m em Q := by
  obtain ⟨f, hf, ef⟩ := h
  exact ⟨f, fun x hx => k x _ hx (hf x hx), ef⟩

/-! ### The stages -/

/-- Some call of the library fails. -/
def Unreliable (L : Library) : Prop := (∃ n, L.init n = none) ∨ (∃ n, L.create n = false) ∨ (∃ n st b, (L.update n st b).1 = false) ∨ ∃ n st o, (L.final n st o).1 = false

theorem bInitError_code {σ} {p : Nat} {s : BSt σ} {x : Int × Option Nat × BSt σ} (h : bInitError p s = .ok x) : x.1 = -1 := (bInitError_res h).1

theorem bDigestInit_fails {L : Library} {p : Nat} {evp : EvpPtr} {s : BSt L.State} {x : Int × Option Nat × BSt L.State} (h : bDigestInit L p evp s = .ok x) (hr : x.1 = -1) : Unreliable L := by
  cases hi : L.init s.calls with
  | none => exact .inl ⟨_, hi⟩
  | some st =>
    unfold bDigestInit at h
    rw [hi] at h
    cases evp with
    | null => cases h
    | embedded => cases h; simp at hr
    | heap q => cases h; simp at hr

theorem bInitialize_fails {B : Backend} {L : Library} {al : Nat → Bool} {s : BSt L.State} {x : Int × Option Nat × BSt L.State} (ha : al s.count = true) (h : bInitialize B L al none s = .ok x) (hr : x.1 = -1) : Unreliable L := by
  unfold bInitialize at h
  simp only [if_pos ha] at h
  cases B with
  | direct b =>
    simp only at h
    cases hi : L.init s.calls with
    | none => exact .inl ⟨_, hi⟩
    | some st =>
      rw [hi] at h
      cases h
      simp at hr
  | evpEmbedded => exact bDigestInit_fails h hr
  | evpAllocated =>
    simp only at h
    cases hc : L.create s.calls with
    | false => exact .inr (.inl ⟨_, hc⟩)
    | true =>
      rw [if_pos hc] at h
      exact bDigestInit_fails h hr

theorem bUpdate_fails {B : Backend} {L : Library} {p : Nat} {b : List Byte} {size : Nat} {s : BSt L.State} {x : Int × BSt L.State} (hs : ¬ B.maxUpdate < size) (h : bUpdate B L (some p) (some b) size s = .ok x) (hr : x.1 = -1) :
    size ≠ 0 ∧ Unreliable L := by
  unfold bUpdate at h
  simp only [if_neg hs] at h
  by_cases h0 : size = 0
  · rw [if_pos h0] at h
    cases h
    simp at hr
  · refine ⟨h0, ?_⟩
    rw [if_neg h0] at h
    obtain ⟨st, -, h⟩ := Res.bind_eq_ok h
    obtain ⟨data, -, h⟩ := Res.bind_eq_ok h
    obtain ⟨s', -, h⟩ := Res.bind_eq_ok h
    cases hu : (L.update s.calls st data).1 with
    | false => exact .inr (.inr (.inl ⟨_, _, _, hu⟩))
    | true =>
      simp only [hu, if_true] at h
      cases h
      simp at hr

theorem bFinalize_fails {B : Backend} {L : Library} {n p : Nat} {o : List Byte} {size : Nat} {s : BSt L.State} {x : Int × Option (List Byte) × BSt L.State} (h1 : ¬ B.maxOutput < size) (h2 : ¬ size < n)
    (h : bFinalize B L n (some p) (some o) size s = .ok x) (hr : x.1 = -1) : Unreliable L := by
  unfold bFinalize at h
  simp only [if_neg h1, if_neg h2] at h
  obtain ⟨st, -, h⟩ := Res.bind_eq_ok h
  cases hf : (L.final s.calls st o).1 with
  | false => exact .inr (.inr (.inr ⟨_, _, _, hf⟩))
  | true =>
    obtain ⟨s', -, h⟩ := Res.bind_eq_ok h
    simp only [hf, if_true] at h
    cases h
    simp at hr

/-- The outcome of some stages: `ok`: they passed. -/
def Part (B : Backend) (L : Library) (stages : List Stage) (ok : Prop) (es : List Err) : Prop :=
  ∃ unclean core, es = unclean ++ core ∧ (∀ e ∈ unclean, e = Err.rtFinalizeFailed) ∧ (unclean ≠ [] → Dirty B L) ∧
    (ok ∧ core = [] ∧ (∀ s ∈ stages, s.checks = []) ∨ ¬ ok ∧ Stops (Unreliable L) stages core)

theorem stops_append {fails : Prop} {l₂ : List Stage} {es : List Err} : ∀ {l₁ : List Stage}, Stops fails l₁ es → Stops fails (l₁ ++ l₂) es
  | _ :: _, .inl h => .inl h
  | _ :: _, .inr ⟨h, .inl h1⟩ => .inr ⟨h, .inl h1⟩
  | _ :: _, .inr ⟨h, .inr h1⟩ => .inr ⟨h, .inr (stops_append h1)⟩

theorem stops_after {fails : Prop} {l₂ : List Stage} {es : List Err} : ∀ {l₁ : List Stage}, (∀ s ∈ l₁, s.checks = []) → Stops fails l₂ es → Stops fails (l₁ ++ l₂) es
  | [], _, h => h
  | s :: l₁, h1, h => .inr ⟨h1 s (by simp), .inr (stops_after (fun s hs => h1 s (by simp [hs])) h)⟩

variable {B : Backend} {L : Library}

/-- Stages that failed end the function. -/
theorem Part.stop {l₁ l₂ : List Stage} {ok ok' : Prop} {es : List Err} (h : Part B L l₁ ok es) (hok : ¬ ok) (hok' : ¬ ok') : Part B L (l₁ ++ l₂) ok' es := by
  obtain ⟨u, c, h1, h2, h3, h4⟩ := h
  rcases h4 with ⟨h4, -⟩ | ⟨-, h4⟩
  · exact absurd h4 hok
  · exact ⟨u, c, h1, h2, h3, .inr ⟨hok', stops_append h4⟩⟩

/-- Stages that passed are followed by others. -/
theorem Part.next {l₁ l₂ : List Stage} {ok ok' : Prop} {es es' : List Err} (h : Part B L l₁ ok es) (hok : ok) (h' : Part B L l₂ ok' es') : Part B L (l₁ ++ l₂) ok' (es ++ es') := by
  obtain ⟨u, c, h1, h2, h3, h4⟩ := h
  obtain ⟨u', c', k1, k2, k3, k4⟩ := h'
  rcases h4 with ⟨-, h4, h5⟩ | ⟨h4, -⟩
  · subst h4
    refine ⟨u ++ u', c', by rw [h1, k1]; simp, ?_, ?_, ?_⟩
    · intro e he
      rcases List.mem_append.mp he with he | he
      · exact h2 e he
      · exact k2 e he
    · intro hne
      cases u with
      | nil => exact k3 (by simpa using hne)
      | cons a t => exact h3 (by simp)
    · rcases k4 with ⟨k4, k5, k6⟩ | ⟨k4, k5⟩
      · refine .inl ⟨k4, k5, fun s hs => ?_⟩
        rcases List.mem_append.mp hs with hs | hs
        · exact h5 s hs
        · exact k6 s hs
      · exact .inr ⟨k4, stops_after h5 k5⟩
  · exact absurd hok h4

theorem Part.pass {s : Stage} {ok : Prop} (hok : ok) (h : s.checks = []) : Part B L [s] ok [] := ⟨[], [], rfl, by simp, by simp, .inl ⟨hok, rfl, by simpa using h⟩⟩

theorem Part.check {s : Stage} {ok : Prop} (hok : ¬ ok) (h : s.checks ≠ []) : Part B L [s] ok s.checks := ⟨[], s.checks, rfl, by simp, by simp, .inr ⟨hok, .inl ⟨h, rfl⟩⟩⟩

theorem Part.library {s : Stage} {ok : Prop} (hok : ¬ ok) (h : s.checks = []) (hl : s.library ≠ []) (hf : Unreliable L) : Part B L [s] ok s.library :=
  ⟨[], s.library, rfl, by simp, by simp, .inr ⟨hok, .inr ⟨h, .inl ⟨hl, hf, rfl⟩⟩⟩⟩

theorem Part.unclean {l : List Stage} {ok : Prop} {es : List Err} (h : Part B L l ok es) {d : List Err} (hd : ∀ e ∈ d, e = .rtFinalizeFailed) (hd2 : d ≠ [] → Dirty B L) : Part B L l ok (d ++ es) := by
  obtain ⟨u, c, h1, h2, h3, h4⟩ := h
  refine ⟨d ++ u, c, by rw [h1]; simp, ?_, ?_, h4⟩
  · intro e he
    rcases List.mem_append.mp he with he | he
    · exact hd e he
    · exact h2 e he
  · intro hne
    cases d with
    | nil => exact h3 (by simpa using hne)
    | cons a t => exact hd2 (by simp)

/-! ### The calls of the context functions -/

theorem failed_one (e : Err) (es : List Err) : failed 1 e es = es := rfl

theorem failed_minus (e : Err) (es : List Err) : failed (-1) e es = es ++ [e] := rfl

theorem eoInitialize_adds (env : OEnv) (s : OSt L.State) : Adds (oInitialize B L env none s) (eoInitialize B L env none s)
    (fun x e => Part B L [contextStage (env.allocOk s.ctxs.count)] (x.1 = 1) e ∧ (x.1 = 1 → x.2.1.isSome = true) ∧ x.2.2.ctxs.count = s.ctxs.count + 1) := by
  unfold oInitialize eoInitialize
  cases ha : env.allocOk s.ctxs.count with
  | false =>
    have h1 : bInitialize B L env.allocOk none s.ctxs = .ok (-1, none, { s.ctxs with count := s.ctxs.count + 1 }) := by simp [bInitialize, ha]
    have h2 : ∀ es, ebInitialize B L env.allocOk none s.ctxs es = .ok (-1, none, { s.ctxs with count := s.ctxs.count + 1 }, es ++ [.memInsufficient]) := by simp [ebInitialize, ha]
    simp only [h1, h2, Res.ok_bind, Res.pure_eq, failed_minus, List.append_assoc]
    exact Adds.pure ⟨Part.check (by simp) (by simp [contextStage, memoryErrors, within]), by simp, rfl⟩
  | true =>
    obtain ⟨f, g, e⟩ := ebInitialize_eq B L env.allocOk s.ctxs ha
    simp only [e]
    cases hb : bInitialize B L env.allocOk none s.ctxs with
    | ub => exact Adds.ub
    | diverge => exact ⟨fun _ => [], by rintro _ ⟨⟩, fun es => rfl⟩
    | ok x =>
      obtain ⟨r, sl, c⟩ := x
      obtain ⟨h | h, hcount⟩ := g _ hb
      · obtain ⟨h1, h2, h3⟩ := h
        change r = 1 at h1
        subst h1
        simp only [h2, Res.ok_bind, Res.pure_eq, failed_one, List.append_nil]
        exact Adds.ret ⟨Part.pass rfl (by simp [contextStage, memoryErrors, within]), fun _ => h3, hcount⟩
      · obtain ⟨h1, h2, h3⟩ := h
        change r = -1 at h1
        subst h1
        simp only [h2, Res.ok_bind, Res.pure_eq, failed_minus, List.append_assoc]
        exact Adds.pure ⟨Part.library (by simp) (by simp [contextStage, memoryErrors, within]) (by simp [contextStage]) (bInitialize_fails ha hb rfl), by simp, hcount⟩

theorem eoUpdate_adds (slot : Option Nat) (hs : slot.isSome = true) (buf : Option (List Byte)) (size : Nat) (s : OSt L.State) : Adds (oUpdate B L slot buf size s) (eoUpdate B L slot buf size s)
    (fun x e => Part B L [inputStage B.limits buf.isSome size] (x.1 = 1) e ∧ x.2.ctxs.count = s.ctxs.count ∧ x.2.blocks = s.blocks) := by
  obtain ⟨p, rfl⟩ := Option.isSome_iff_exists.mp hs
  unfold oUpdate eoUpdate
  obtain ⟨f, g, e⟩ := ebUpdate_eq B L 0 (fun _ => true) (some p) buf size s.ctxs
  simp only [e]
  cases hb : bUpdate B L (some p) buf size s.ctxs with
  | ub => exact Adds.ub
  | diverge => exact ⟨fun _ => [], by rintro _ ⟨⟩, fun es => rfl⟩
  | ok x =>
    obtain ⟨r, c⟩ := x
    obtain ⟨hc, -, hcount⟩ := g _ hb
    have hcount : c.count = s.ctxs.count := by simpa using hcount
    have hm : B.limits.maxInput = B.maxUpdate := rfl
    rcases hc with ⟨h1, h2, h3⟩ | ⟨h1, h2, h3⟩ | ⟨h1, -, h2, h3⟩ | ⟨-, h, -⟩
    · change r = -1 at h2
      subst h2
      simp only [h3, Res.ok_bind, Res.pure_eq, failed_minus, List.append_assoc]
      have he : Spec.checkErrors B.limits 0 (some p).isSome true (.update buf size) ++ [.rtSetFailed] = (inputStage B.limits buf.isSome size).checks := by
        revert h1
        simp only [Spec.checkErrors, inputStage]
        cases buf with
        | none => simp
        | some b => by_cases hx : B.limits.maxInput < size <;> simp [hx]
      rw [he]
      exact Adds.pure ⟨Part.check (by simp) (by rw [← he]; simp), hcount, rfl⟩
    · change r = 1 at h2
      subst h2
      simp only [h3, Res.ok_bind, Res.pure_eq, failed_one, List.append_nil]
      refine Adds.ret ⟨Part.pass rfl ?_, hcount, rfl⟩
      revert h1
      simp only [Spec.checkErrors, inputStage]
      cases buf with
      | none => simp
      | some b => by_cases hx : B.limits.maxInput < size <;> simp [hx]
    · change r = -1 at h2
      subst h2
      simp only [h3, Res.ok_bind, Res.pure_eq, failed_minus, List.append_assoc]
      cases buf with
      | none => simp [Spec.checkErrors] at h1
      | some b =>
        have hx : ¬ B.maxUpdate < size := by
          intro hx
          simp [Spec.checkErrors, hm, hx] at h1
        obtain ⟨h0, hf⟩ := bUpdate_fails hx hb rfl
        have := Part.library (B := B) (s := inputStage B.limits (some b).isSome size) (ok := (-1 : Int) = 1) (by decide) (by simp [inputStage, hm, hx]) (by simp [inputStage, h0]) hf
        simp only [inputStage, if_neg h0] at this
        exact Adds.pure ⟨by simpa [inputStage, if_neg h0, Spec.functionError] using this, hcount, rfl⟩
    · cases h

theorem eoFinalize_adds (n : Nat) (slot : Option Nat) (hs : slot.isSome = true) (out : Option (List Byte)) (size : Nat) (s : OSt L.State) : Adds (oFinalize B L n slot out size s) (eoFinalize B L n slot out size s)
    (fun x e => Part B L [outputStage B.limits n out.isSome size] (x.1 = 1) e ∧ x.2.2.ctxs.count = s.ctxs.count ∧ x.2.2.blocks = s.blocks) := by
  obtain ⟨p, rfl⟩ := Option.isSome_iff_exists.mp hs
  unfold oFinalize eoFinalize
  obtain ⟨f, g, e⟩ := ebFinalize_eq B L n (fun _ => true) (some p) out size s.ctxs
  simp only [e]
  cases hb : bFinalize B L n (some p) out size s.ctxs with
  | ub => exact Adds.ub
  | diverge => exact ⟨fun _ => [], by rintro _ ⟨⟩, fun es => rfl⟩
  | ok x =>
    obtain ⟨r, o', c⟩ := x
    obtain ⟨hc, -, hcount⟩ := g _ hb
    have hcount : c.count = s.ctxs.count := by simpa using hcount
    have hm : B.limits.maxOutput = B.maxOutput := rfl
    rcases hc with ⟨h1, h2, h3⟩ | ⟨h1, h2, h3⟩ | ⟨h1, -, h2, h3⟩ | ⟨-, h, -⟩
    · change r = -1 at h2
      subst h2
      simp only [h3, Res.ok_bind, Res.pure_eq, failed_minus, List.append_assoc]
      have he : Spec.checkErrors B.limits n (some p).isSome true (.finalize out size) ++ [.rtFinalizeFailed] = (outputStage B.limits n out.isSome size).checks := by
        revert h1
        simp only [Spec.checkErrors, outputStage]
        cases out with
        | none => simp
        | some b => by_cases hx : B.limits.maxOutput < size <;> by_cases hy : size < n <;> simp [hx, hy]
      rw [he]
      exact Adds.pure ⟨Part.check (by simp) (by rw [← he]; simp), hcount, rfl⟩
    · change r = 1 at h2
      subst h2
      simp only [h3, Res.ok_bind, Res.pure_eq, failed_one, List.append_nil]
      refine Adds.ret ⟨Part.pass rfl ?_, hcount, rfl⟩
      revert h1
      simp only [Spec.checkErrors, outputStage]
      cases out with
      | none => simp
      | some b => by_cases hx : B.limits.maxOutput < size <;> by_cases hy : size < n <;> simp [hx, hy]
    · change r = -1 at h2
      subst h2
      simp only [h3, Res.ok_bind, Res.pure_eq, failed_minus, List.append_assoc]
      cases out with
      | none => simp [Spec.checkErrors] at h1
      | some b =>
        have hx : ¬ B.maxOutput < size := by
          intro hx
          simp [Spec.checkErrors, hm, hx] at h1
        have hy : ¬ size < n := by
          intro hy
          simp [Spec.checkErrors, hm, hx, hy] at h1
        exact Adds.pure ⟨Part.library (s := outputStage B.limits n (some b).isSome size) (by simp) (by simp [outputStage, hm, hx, hy]) (by simp [outputStage]) (bFinalize_fails hx hy hb rfl), hcount, rfl⟩
    · cases h

theorem eoFree_adds (slot : Option Nat) (s : OSt L.State) : Adds (oFree B L slot s) (eoFree B L slot s)
    (fun x e => x.1 = 1 ∧ x.2.1 = none ∧ (∀ y ∈ e, y = Err.rtFinalizeFailed) ∧ (e ≠ [] → Dirty B L) ∧ x.2.2.ctxs.count = s.ctxs.count ∧ x.2.2.blocks = s.blocks) := by
  unfold oFree eoFree
  obtain ⟨f, g, e⟩ := ebFree_eq B L slot s.ctxs
  simp only [e]
  cases hb : bFree B L slot s.ctxs with
  | ub => exact Adds.ub
  | diverge => exact ⟨fun _ => [], by rintro _ ⟨⟩, fun es => rfl⟩
  | ok x =>
    obtain ⟨r, sl, c⟩ := x
    obtain ⟨h1, h2, h3, h4⟩ := g _ hb
    change r = 1 at h1
    subst h1
    simp only [Res.ok_bind, Res.pure_eq, failed_one]
    refine Adds.pure ⟨rfl, h2, ?_, ?_, h3, rfl⟩
    · rcases h4 with h4 | ⟨-, h4⟩ <;> rw [h4] <;> simp
    · rcases h4 with h4 | ⟨h4, -⟩
      · rw [h4]; simp
      · exact fun _ => h4

theorem oRegion_given {σ} (s : OSt σ) (p : Option Nat) (size : Nat) : (oRegion s p size).isSome = p.isSome := by cases p <;> rfl

theorem oSetRegion_ctxs {σ} (s : OSt σ) (p : Option Nat) (b : Option (List Byte)) : (oSetRegion s p b).ctxs = s.ctxs := by cases p <;> cases b <;> rfl

/-! ### The digest -/

theorem eoCalculateError_adds (context : Option Nat) (s : OSt L.State) : Adds (oCalculateError B L context s) (eoCalculateError B L context s) (fun x e => x.1 = -1 ∧ e = []) := by
  unfold eoCalculateError
  cases h : oCalculateError B L context s with
  | ub => exact Adds.ub
  | diverge => exact ⟨fun _ => [], by rintro _ ⟨⟩, fun es => rfl⟩
  | ok x =>
    unfold oCalculateError at h
    obtain ⟨s', -, h⟩ := Res.bind_eq_ok h
    cases h
    exact Adds.ret ⟨rfl, rfl⟩

/-- The function stops. -/
theorem stop_calculate {l₁ l₂ : List Stage} {r : Int} {e : List Err} (h : Part B L l₁ (r = 1) e) (hr : r ≠ 1) (context : Option Nat) (s : OSt L.State) :
    Adds (oCalculateError B L context s) (eoCalculateError B L context s) (fun x e' => OneShotOutcome (Dirty B L) (Unreliable L) (l₁ ++ l₂) x.1 (e ++ e')) := by
  refine (eoCalculateError_adds context s).mono fun x e' _ hx => ?_
  obtain ⟨hx, rfl⟩ := hx
  rw [List.append_nil, hx]
  obtain ⟨u, c, h1, h2, h3, h4⟩ := Part.stop (l₂ := l₂) (ok' := False) h hr id
  rcases h4 with ⟨h4, -⟩ | ⟨-, h4⟩
  · exact h4.elim
  · exact ⟨u, c, h1, h2, h3, .inr ⟨rfl, h4⟩⟩

theorem eoCalculate_adds (n : Nat) (env : OEnv) (buffer : Option Nat) (size : Nat) (hash : Option Nat) (hashSize : Nat) (s : OSt L.State) :
    Adds (oCalculate B L n env buffer size hash hashSize s) (eoCalculate B L n env buffer size hash hashSize s)
      (fun x e => OneShotOutcome (Dirty B L) (Unreliable L) (calculateStages B.limits n (fun i => env.allocOk (s.ctxs.count + i)) buffer.isSome size hash.isSome hashSize) x.1 e) := by
  unfold oCalculate eoCalculate
  refine (eoInitialize_adds env s).bind fun a e1 h1 => ?_
  obtain ⟨r, context, s1⟩ := a
  obtain ⟨h1, hslot, -⟩ := h1
  dsimp only at h1 hslot ⊢
  by_cases hr : r ≠ 1
  · simp only [if_pos hr]
    exact stop_calculate (l₁ := [_]) h1 hr _ _
  simp only [if_neg hr]
  have hslot := hslot (by simpa using hr)
  refine (eoUpdate_adds context hslot _ size s1).bind fun a e2 h2 => ?_
  obtain ⟨r2, s2⟩ := a
  obtain ⟨h2, -⟩ := h2
  rw [oRegion_given] at h2
  have p2 := h1.next (by simpa using hr) h2
  dsimp only at p2 ⊢
  by_cases hr2 : r2 ≠ 1
  · simp only [if_pos hr2]
    exact (stop_calculate (l₁ := [_, _]) p2 hr2 context s2).mono fun x e' _ hx => by simpa [calculateStages] using hx
  simp only [if_neg hr2]
  refine (eoFinalize_adds n context hslot _ hashSize s2).bind fun a e3 h3 => ?_
  obtain ⟨r3, h', s3⟩ := a
  obtain ⟨h3, -⟩ := h3
  rw [oRegion_given] at h3
  have p3 := p2.next (by simpa using hr2) h3
  dsimp only at p3 ⊢
  by_cases hr3 : r3 ≠ 1
  · simp only [if_pos hr3]
    exact (stop_calculate (l₁ := [_, _, _]) (l₂ := []) p3 hr3 context (oSetRegion s3 hash h')).mono fun x e' _ hx => by simpa [calculateStages] using hx
  simp only [if_neg hr3]
  refine (eoFree_adds context _).bind fun a e4 h4 => ?_
  obtain ⟨r4, c4, s4⟩ := a
  obtain ⟨rfl, -, hu, hd, -⟩ := h4
  dsimp only at hu hd ⊢
  simp only [ne_eq, not_true_eq_false, if_false]
  refine Adds.ret ?_
  obtain ⟨u, c, q1, q2, q3, q4⟩ := p3
  rcases q4 with ⟨-, q4, q5⟩ | ⟨q4, -⟩
  · subst q4
    refine ⟨u ++ e4, [], by simpa using congrArg (· ++ e4) q1, ?_, ?_, .inl ⟨rfl, rfl, q5⟩⟩
    · intro e he
      rcases List.mem_append.mp he with he | he
      · exact q2 e he
      · exact hu e he
    · intro hne
      cases u with
      | nil => exact hd (by simpa using hne)
      | cons a t => exact q3 (by simp)
  · exact absurd (by simpa using hr3) q4

/-! ### The HMAC -/

theorem Part.freed {l : List Stage} {ok : Prop} {es d : List Err} (h : Part B L l ok es) (hok : ok) (hd : ∀ e ∈ d, e = .rtFinalizeFailed) (hd2 : d ≠ [] → Dirty B L) : Part B L l ok (es ++ d) := by
  have h2 : Part B L [] True d := ⟨d, [], by simp, hd, hd2, .inl ⟨trivial, rfl, by simp⟩⟩
  obtain ⟨u, c, q1, q2, q3, q4⟩ := Part.next h hok h2
  rw [List.append_nil] at q4
  refine ⟨u, c, q1, q2, q3, ?_⟩
  rcases q4 with ⟨-, q5, q6⟩ | ⟨q5, -⟩
  · exact .inl ⟨hok, q5, q6⟩
  · exact absurd trivial q5

theorem Part.iff {l : List Stage} {p q : Prop} {es : List Err} (h : Part B L l p es) (hpq : p ↔ q) : Part B L l q es := by
  rwa [propext hpq] at h

theorem inputStage_pad {b : Nat} (h0 : b ≠ 0) (hb : b ≤ B.maxUpdate) : inputStage B.limits true b = ⟨[], [.rtSetFailed, .rtSetFailed]⟩ := by
  have hm : B.limits.maxInput = B.maxUpdate := rfl
  have : ¬ B.maxUpdate < b := by omega
  simp [inputStage, hm, this, h0]

theorem outputStage_key {n : Nat} (hn : n ≤ B.maxOutput) : outputStage B.limits n true n = ⟨[], [.rtFinalizeFailed, .rtFinalizeFailed]⟩ := by
  have hm : B.limits.maxOutput = B.maxOutput := rfl
  have : ¬ B.maxOutput < n := by omega
  simp [outputStage, hm, this]

theorem oStore_ctxs {σ} {p : Option Nat} {b : List Byte} {s s' : OSt σ} (h : oStore p b s = .ok s') : s'.ctxs = s.ctxs := by
  cases p with
  | none => cases h
  | some p => cases h; rfl

/-- What follows a part of `libhmac_*_calculate_hmac`: whether it passed its stages, that no context is left, and how many allocations were made. -/
def After (B : Backend) (L : Library) (stages : List Stage) (count : Nat) (x : Bool × Loc × OSt L.State) (e : List Err) : Prop :=
  Part B L stages (x.1 = true) e ∧ (x.1 = true → x.2.1.context = none ∧ x.2.2.ctxs.count = count)

theorem After.stop {l₁ l₂ : List Stage} {p : Prop} {e : List Err} {k : Nat} {l : Loc} {s : OSt L.State} (h : Part B L l₁ p e) (hp : ¬ p) : After B L (l₁ ++ l₂) k (false, l, s) e :=
  ⟨h.stop hp (by simp), by simp⟩

theorem eoPass_adds (n b : Nat) (h0 : b ≠ 0) (hb : b ≤ B.maxUpdate) (env : OEnv) (padding buffer : Option Nat) (size : Nat) (hmac : Option Nat) (hmacSize : Nat) (l : Loc) (hl : l.context = none) (s : OSt L.State) :
    Adds (oPass B L n b env padding buffer size hmac hmacSize l s) (eoPass B L n b env padding buffer size hmac hmacSize l s)
      (After B L (passStages B.limits n (env.allocOk s.ctxs.count) buffer.isSome size hmac.isSome hmacSize) (s.ctxs.count + 1)) := by
  unfold oPass eoPass
  rw [hl]
  refine (eoInitialize_adds env s).bind fun a e1 h1 => ?_
  obtain ⟨r, context, s1⟩ := a
  obtain ⟨p1, hslot, c1⟩ := h1
  dsimp only at p1 hslot c1 ⊢
  by_cases hr : r ≠ 1
  · simp only [if_pos hr]
    exact Adds.ret (by rw [List.append_nil]; exact After.stop (l₁ := [_]) p1 hr)
  simp only [if_neg hr]
  have hslot := hslot (by simpa using hr)
  refine Adds.step fun d _ => ?_
  refine (eoUpdate_adds context hslot (some d) b s1).bind fun a e2 h2 => ?_
  obtain ⟨r2, s2⟩ := a
  obtain ⟨p2, c2, -⟩ := h2
  rw [Option.isSome_some, inputStage_pad h0 hb] at p2
  have p2 := p1.next (by simpa using hr) p2
  dsimp only at p2 c2 ⊢
  by_cases hr2 : r2 ≠ 1
  · simp only [if_pos hr2]
    exact Adds.ret (by rw [List.append_nil]; exact After.stop (l₁ := [_, _]) p2 hr2)
  simp only [if_neg hr2]
  refine (eoUpdate_adds context hslot _ size s2).bind fun a e3 h3 => ?_
  obtain ⟨r3, s3⟩ := a
  obtain ⟨p3, c3, -⟩ := h3
  rw [oRegion_given] at p3
  have p3 := p2.next (by simpa using hr2) p3
  dsimp only at p3 c3 ⊢
  by_cases hr3 : r3 ≠ 1
  · simp only [if_pos hr3]
    exact Adds.ret (by rw [List.append_nil, ← List.append_assoc]; exact After.stop (l₁ := [_, _, _]) p3 hr3)
  simp only [if_neg hr3]
  refine (eoFinalize_adds n context hslot _ hmacSize s3).bind fun a e4 h4 => ?_
  obtain ⟨r4, h', s4⟩ := a
  obtain ⟨p4, c4, -⟩ := h4
  rw [oRegion_given] at p4
  have p4 := p3.next (by simpa using hr3) p4
  dsimp only at p4 c4 ⊢
  by_cases hr4 : r4 ≠ 1
  · simp only [if_pos hr4]
    exact Adds.ret (by rw [List.append_nil, ← List.append_assoc, ← List.append_assoc]; exact After.stop (l₁ := [_, _, _, _]) (l₂ := []) p4 hr4)
  simp only [if_neg hr4]
  refine (eoFree_adds context _).bind fun a e5 h5 => ?_
  obtain ⟨r5, c5, s5⟩ := a
  obtain ⟨rfl, hn, hu, hd, k5, -⟩ := h5
  dsimp only at hn hu hd k5 ⊢
  subst hn
  simp only [ne_eq, not_true_eq_false, if_false]
  refine Adds.ret ⟨?_, fun _ => ⟨rfl, ?_⟩⟩
  · have := (p4.freed (by simpa using hr4) hu hd).iff (q := true = true) (by simpa using hr4)
    simpa [passStages] using this
  · rw [oSetRegion_ctxs] at k5
    dsimp only
    omega

theorem eoKey_adds (n b : Nat) (hn : n ≤ B.maxOutput) (env : OEnv) (key : Option Nat) (hk : key.isSome = true) (keySize : Nat) (l : Loc) (hl : l.context = none) (s : OSt L.State) :
    Adds (oKey B L n b env key keySize l s) (eoKey B L n b env key keySize l s)
      (After B L ([memoryStage (env.allocOk s.ctxs.count)] ++ if keySize ≤ b then [] else longKeyStages B.limits (fun i => env.allocOk (s.ctxs.count + i)) keySize) (s.ctxs.count + if keySize ≤ b then 1 else 2)) := by
  unfold oKey eoKey oAlloc
  by_cases ha : env.allocOk s.ctxs.count = true
  swap
  · rw [if_neg ha, Bool.eq_false_iff.mpr ha]
    exact Adds.pure (After.stop (l₁ := [_]) (p := False) (Part.check (by simp) (by simp [memoryStage, memoryErrors])) (by simp))
  rw [if_pos ha, ha]
  dsimp only
  have p0 : Part B L [memoryStage true] True [] := Part.pass trivial (by simp [memoryStage, memoryErrors])
  by_cases hs : keySize ≤ b
  · simp only [if_pos hs]
    obtain ⟨k, rfl⟩ := Option.isSome_iff_exists.mp hk
    simp only [oRegion, Option.map_some]
    refine Adds.step fun d _ => Adds.step fun d _ => Adds.step fun d _ => Adds.step fun s6 h6 => ?_
    refine Adds.ret ⟨p0.iff (by simp), fun _ => ⟨hl, ?_⟩⟩
    rw [oStore_ctxs h6]
  simp only [if_neg hs]
  unfold eoLongKey
  rw [hl]
  refine (eoInitialize_adds env _).bind fun a e1 h1 => ?_
  obtain ⟨r, context, s1⟩ := a
  obtain ⟨p1, hslot, c1⟩ := h1
  dsimp only at p1 hslot c1 ⊢
  have p1 := p0.next trivial p1
  rw [List.nil_append] at p1
  by_cases hr : r ≠ 1
  · simp only [if_pos hr]
    exact Adds.ret (by rw [List.append_nil]; exact After.stop (l₁ := [_, _]) p1 hr)
  simp only [if_neg hr]
  have hslot := hslot (by simpa using hr)
  refine (eoUpdate_adds context hslot _ keySize s1).bind fun a e2 h2 => ?_
  obtain ⟨r2, s2⟩ := a
  obtain ⟨p2, c2, -⟩ := h2
  rw [oRegion_given, hk] at p2
  have p2 := p1.next (by simpa using hr) p2
  dsimp only at p2 c2 ⊢
  by_cases hr2 : r2 ≠ 1
  · simp only [if_pos hr2]
    exact Adds.ret (by rw [List.append_nil]; exact After.stop (l₁ := [_, _, _]) p2 hr2)
  simp only [if_neg hr2]
  refine (eoFinalize_adds n context hslot _ n s2).bind fun a e3 h3 => ?_
  obtain ⟨r3, h', s3⟩ := a
  obtain ⟨p3, c3, -⟩ := h3
  rw [Option.isSome_some, outputStage_key hn] at p3
  have p3' := p2.next (by simpa using hr2) p3
  dsimp only at p3' c3 ⊢
  clear p3
  cases h' with
  | none => exact Adds.ub
  | some h' =>
  dsimp only
  by_cases hr3 : r3 ≠ 1
  · simp only [if_pos hr3]
    exact Adds.ret (by rw [List.append_nil, ← List.append_assoc]; exact After.stop (l₁ := [_, _, _, _]) (l₂ := []) p3' hr3)
  simp only [if_neg hr3]
  refine (eoFree_adds context _).bind fun a e5 h5 => ?_
  obtain ⟨r5, c5, s5⟩ := a
  obtain ⟨rfl, hn, hu, hd, k5, -⟩ := h5
  dsimp only at hn hu hd k5 ⊢
  subst hn
  simp only [ne_eq, not_true_eq_false, if_false]
  have hend : ∀ d, Adds (do
      let d ← memCopy d 0 h' 0 n
      let s' ← oStore (some s.ctxs.count) d s5
      pure (true, ({ l with context := none, keyData := some s.ctxs.count, keyHash := h' } : Loc), s')) (fun es => do
      let d ← memCopy d 0 h' 0 n
      let s' ← oStore (some s.ctxs.count) d s5
      pure ((true, ({ l with context := none, keyData := some s.ctxs.count, keyHash := h' } : Loc), s'), es))
      (fun x e' => After B L ([memoryStage true] ++ longKeyStages B.limits (fun i => env.allocOk (s.ctxs.count + i)) keySize) (s.ctxs.count + 2) x (e1 ++ (e2 ++ (e3 ++ (e5 ++ e'))))) := by
    intro d
    refine Adds.step fun d _ => Adds.step fun s6 h6 => ?_
    refine Adds.ret ⟨?_, fun _ => ⟨rfl, ?_⟩⟩
    · have := (p3'.freed (by simpa using hr3) hu hd).iff (q := true = true) (by simpa using hr3)
      simpa [longKeyStages] using this
    · rw [oStore_ctxs h6]
      simp only at *
      omega
  refine Adds.step fun d _ => ?_
  by_cases hnb : n < b
  · simp only [if_pos hnb]
    exact Adds.step fun d _ => hend d
  · simp only [if_neg hnb]
    exact hend d

theorem eoPads_adds (b : Nat) (env : OEnv) (l : Loc) (hl : l.context = none) (s : OSt L.State) :
    Adds (oPads b env l s) (eoPads b env l s)
      (After B L [memoryStage (env.allocOk s.ctxs.count), memoryStage (env.allocOk (s.ctxs.count + 1))] (s.ctxs.count + 2)) := by
  unfold oPads eoPads
  conv =>
    arg 1
    rw [oAlloc]
  conv =>
    arg 2
    intro es
    rw [oAlloc]
  by_cases ha : env.allocOk s.ctxs.count = true
  swap
  · simp only [Bool.eq_false_iff.mpr ha]
    exact Adds.pure (After.stop (l₁ := [_]) (l₂ := [_]) (p := False) (Part.check (by simp) (by simp [memoryStage, memoryErrors])) (by simp))
  simp only [if_pos ha]
  have p0 : Part B L [memoryStage (env.allocOk s.ctxs.count)] True [] := Part.pass trivial (by simp [memoryStage, memoryErrors, ha])
  refine Adds.step fun d _ => Adds.step fun d _ => Adds.step fun s1 h1 => ?_
  have c1 : s1.ctxs.count = s.ctxs.count + 1 := by rw [oStore_ctxs h1]
  unfold oAlloc
  rw [← c1]
  by_cases ha2 : env.allocOk s1.ctxs.count = true
  swap
  · simp only [Bool.eq_false_iff.mpr ha2]
    exact Adds.pure (After.stop (l₁ := [_, _]) (l₂ := []) (p := False) (p0.next trivial (Part.check (s := memoryStage false) (by simp) (by simp [memoryStage, memoryErrors]))) (by simp))
  simp only [if_pos ha2]
  refine Adds.step fun d _ => Adds.step fun d _ => Adds.step fun s2 h2 => ?_
  have c2 : s2.ctxs.count = s1.ctxs.count + 1 := by rw [oStore_ctxs h2]
  refine Adds.step fun kd _ => Adds.step fun i _ => Adds.step fun o _ => Adds.step fun x _ => ?_
  obtain ⟨i, o⟩ := x
  refine Adds.step fun s3 h3 => Adds.step fun s4 h4 => ?_
  refine Adds.ret ⟨p0.next trivial (Part.pass (by simp) (by simp [memoryStage, memoryErrors, ha2])), fun _ => ⟨hl, ?_⟩⟩
  rw [oStore_ctxs h4, oStore_ctxs h3]
  omega

theorem oHmacEnd_one {σ} {b : Nat} {l : Loc} {s : OSt σ} {x : Int × OSt σ} (h : oHmacEnd b l s = .ok x) : x.1 = 1 := by
  unfold oHmacEnd at h
  obtain ⟨s1, -, h⟩ := Res.bind_eq_ok h
  obtain ⟨s2, -, h⟩ := Res.bind_eq_ok h
  obtain ⟨s3, -, h⟩ := Res.bind_eq_ok h
  cases h
  rfl

theorem oHmacError_minus {b : Nat} {l : Loc} {s : OSt L.State} {x : Int × OSt L.State} (h : oHmacError B L b l s = .ok x) : x.1 = -1 := by
  unfold oHmacError at h
  obtain ⟨s0, -, h⟩ := Res.bind_eq_ok h
  obtain ⟨s1, -, h⟩ := Res.bind_eq_ok h
  obtain ⟨s2, -, h⟩ := Res.bind_eq_ok h
  obtain ⟨s3, -, h⟩ := Res.bind_eq_ok h
  cases h
  rfl

theorem Adds.last {α} {m : Res α} {P : α → List Err → Prop} (h : ∀ x, m = .ok x → P x []) : Adds m (fun es => m >>= fun x => .ok (x, es)) P :=
  ⟨fun _ => [], h, fun es => by simp⟩

/-- The function stops. -/
theorem stop_hmac {b : Nat} {l₁ l₂ : List Stage} {p : Prop} {e : List Err} (h : Part B L l₁ p e) (hp : ¬ p) (l : Loc) (s : OSt L.State) :
    Adds (oHmacError B L b l s) (eoHmacError B L b l s) (fun x e' => OneShotOutcome (Dirty B L) (Unreliable L) (l₁ ++ l₂) x.1 (e ++ e')) := by
  refine Adds.last fun x hx => ?_
  rw [List.append_nil, oHmacError_minus hx]
  obtain ⟨u, c, h1, h2, h3, h4⟩ := Part.stop (l₂ := l₂) (ok' := False) h hp id
  rcases h4 with ⟨h4, -⟩ | ⟨-, h4⟩
  · exact h4.elim
  · exact ⟨u, c, h1, h2, h3, .inr ⟨rfl, h4⟩⟩

theorem outcome_check {s : Stage} {l₁ l₂ : List Stage} (h1 : ∀ s ∈ l₁, s.checks = []) (h : s.checks ≠ []) : OneShotOutcome (Dirty B L) (Unreliable L) (l₁ ++ s :: l₂) (-1) s.checks :=
  ⟨[], s.checks, rfl, by simp, by simp, .inr ⟨rfl, stops_after h1 (.inl ⟨h, rfl⟩)⟩⟩

theorem eoCalculateHmac_adds (n b : Nat) (hn : n ≤ B.maxOutput) (h0 : b ≠ 0) (hb : b ≤ B.maxUpdate) (env : OEnv) (keyHash : List Byte) (key : Option Nat) (keySize : Nat) (buffer : Option Nat) (size : Nat)
    (hmac : Option Nat) (hmacSize : Nat) (s : OSt L.State) :
    Adds (oCalculateHmac B L n b env keyHash key keySize buffer size hmac hmacSize s) (eoCalculateHmac B L n b env keyHash key keySize buffer size hmac hmacSize s)
      (fun x e => OneShotOutcome (Dirty B L) (Unreliable L)
        (hmacStages B.limits n b (fun i => env.allocOk (s.ctxs.count + i)) key.isSome keySize buffer.isSome size hmac.isSome hmacSize) x.1 e) := by
  unfold oCalculateHmac eoCalculateHmac
  cases key with
  | none => exact Adds.pure (outcome_check (l₁ := []) (s := ⟨inputErrors false keySize, []⟩) (by simp) (by simp [inputErrors]))
  | some k =>
  dsimp only
  by_cases h1 : ssizeMax < keySize
  · have he : inputErrors true keySize = [.argExceeds] := by simp [inputErrors]; exact h1
    simp only [if_pos h1]
    rw [← he]
    exact Adds.pure (outcome_check (l₁ := []) (s := ⟨inputErrors true keySize, []⟩) (by simp) (by simp [he]))
  simp only [if_neg h1]
  have hi : inputErrors true keySize = [] := by simp [inputErrors]; exact Nat.not_lt.mp h1
  by_cases h2 : hmacSize < n
  · simp only [if_pos h2]
    refine Adds.pure ?_
    have := outcome_check (B := B) (L := L) (l₁ := [⟨inputErrors true keySize, []⟩]) (s := ⟨if hmacSize < n then [.argTooSmall] else [], []⟩)
      (l₂ := (hmacStages B.limits n b (fun i => env.allocOk (s.ctxs.count + i)) true keySize buffer.isSome size hmac.isSome hmacSize).drop 2) (by simp [hi]) (by simp [h2])
    simp only [if_pos h2] at this
    simpa [hmacStages, h2] using this
  simp only [if_neg h2]
  have p0 : Part B L [⟨inputErrors true keySize, []⟩, ⟨if hmacSize < n then [.argTooSmall] else [], []⟩] True [] :=
    Part.next (l₁ := [_]) (l₂ := [_]) (Part.pass trivial (s := ⟨inputErrors true keySize, []⟩) hi) trivial (Part.pass trivial (by simp [h2]))
  refine (eoKey_adds n b hn env (some k) rfl keySize _ rfl s).bind fun a e1 q1 => ?_
  obtain ⟨ok1, l1, s1⟩ := a
  obtain ⟨p1, q1⟩ := q1
  have p1 := p0.next trivial p1
  rw [List.nil_append] at p1
  dsimp only at p1 q1 ⊢
  cases ok1 with
  | false =>
    simp only [Bool.not_false, if_true]
    refine (stop_hmac (l₂ := [memoryStage (env.allocOk (s.ctxs.count + if keySize ≤ b then 1 else 2)), memoryStage (env.allocOk (s.ctxs.count + ((if keySize ≤ b then 1 else 2) + 1)))] ++
        (passStages B.limits n (env.allocOk (s.ctxs.count + ((if keySize ≤ b then 1 else 2) + 2))) buffer.isSome size hmac.isSome hmacSize ++
          passStages B.limits n (env.allocOk (s.ctxs.count + ((if keySize ≤ b then 1 else 2) + 3))) hmac.isSome n hmac.isSome hmacSize)) p1 (by simp) l1 s1).mono fun x e' _ h => ?_
    simpa [hmacStages] using h
  | true =>
  simp only [Bool.not_true, Bool.false_eq_true, if_false]
  obtain ⟨k1, c1⟩ := q1 rfl
  refine (eoPads_adds (B := B) b env l1 k1 s1).bind fun a e2 q2 => ?_
  obtain ⟨ok2, l2, s2⟩ := a
  obtain ⟨p2, q2⟩ := q2
  have p2 := p1.next rfl p2
  rw [c1] at p2 q2
  dsimp only at p2 q2 ⊢
  cases ok2 with
  | false =>
    simp only [Bool.not_false, if_true]
    refine (stop_hmac (l₂ := passStages B.limits n (env.allocOk (s.ctxs.count + ((if keySize ≤ b then 1 else 2) + 2))) buffer.isSome size hmac.isSome hmacSize ++
          passStages B.limits n (env.allocOk (s.ctxs.count + ((if keySize ≤ b then 1 else 2) + 3))) hmac.isSome n hmac.isSome hmacSize) p2 (by simp) l2 s2).mono fun x e' _ h => ?_
    simpa [hmacStages, Nat.add_assoc] using h
  | true =>
  simp only [Bool.not_true, Bool.false_eq_true, if_false]
  obtain ⟨k2, c2⟩ := q2 rfl
  refine (eoPass_adds n b h0 hb env l2.inner buffer size hmac hmacSize l2 k2 s2).bind fun a e3 q3 => ?_
  obtain ⟨ok3, l3, s3⟩ := a
  obtain ⟨p3, q3⟩ := q3
  have p3 := p2.next rfl p3
  rw [c2] at p3 q3
  dsimp only at p3 q3 ⊢
  cases ok3 with
  | false =>
    simp only [Bool.not_false, if_true]
    refine (stop_hmac (l₂ := passStages B.limits n (env.allocOk (s.ctxs.count + ((if keySize ≤ b then 1 else 2) + 3))) hmac.isSome n hmac.isSome hmacSize) p3 (by simp) l3 s3).mono fun x e' _ h => ?_
    simpa [hmacStages, Nat.add_assoc] using h
  | true =>
  simp only [Bool.not_true, Bool.false_eq_true, if_false]
  obtain ⟨k3, c3⟩ := q3 rfl
  refine (eoPass_adds n b h0 hb env l3.outer hmac n hmac hmacSize l3 k3 s3).bind fun a e4 q4 => ?_
  obtain ⟨ok4, l4, s4⟩ := a
  obtain ⟨p4, q4⟩ := q4
  have p4 := p3.next rfl p4
  rw [c3] at p4 q4
  dsimp only at p4 q4 ⊢
  cases ok4 with
  | false =>
    simp only [Bool.not_false, if_true]
    refine (stop_hmac (l₂ := []) p4 (by simp) l4 s4).mono fun x e' _ h => ?_
    simpa [hmacStages, Nat.add_assoc] using h
  | true =>
  simp only [Bool.not_true, Bool.false_eq_true, if_false]
  refine Adds.last fun x hx => ?_
  rw [oHmacEnd_one hx]
  obtain ⟨u, c, r1, r2, r3, r4⟩ := p4
  rcases r4 with ⟨-, r4, r5⟩ | ⟨r4, -⟩
  · refine ⟨u, c, by simpa using r1, r2, r3, .inl ⟨rfl, r4, ?_⟩⟩
    simpa [hmacStages, Nat.add_assoc] using r5
  · exact absurd rfl r4

end Model
