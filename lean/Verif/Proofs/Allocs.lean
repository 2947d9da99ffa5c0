import Verif.Model.HostBackend
import Verif.Spec.Kinds
/-! How many allocations the functions attempt. -/

namespace Model

open Spec (Kind ApiCall Reply)

/-- What holds of the outcome, if there is one. -/
def Always {α} (x : Res α) (Q : α → Prop) : Prop := ∀ a, x = .ok a → Q a

namespace Always

variable {α β : Type} {x : Res α} {f : α → Res β} {P : α → Prop} {Q : β → Prop}

theorem ok {a : α} (h : P a) : Always (.ok a) P := fun _ e => by cases e; exact h
theorem pure' {a : α} (h : P a) : Always (pure a) P := ok h
theorem ub' : Always (.ub : Res α) P := fun _ e => by cases e
theorem diverge' : Always (.diverge : Res α) P := fun _ e => by cases e

theorem bind (h : Always x P) (k : ∀ a, P a → Always (f a) Q) : Always (x >>= f) Q := by
  intro b e
  cases hx : x with
  | ok a =>
    rw [hx] at e
    exact k a (h a hx) b e
  | ub => rw [hx] at e; cases e
  | diverge => rw [hx] at e; cases e

theorem skip (k : ∀ a, Always (f a) Q) : Always (x >>= f) Q := bind (P := fun _ => True) (fun _ _ => trivial) fun a _ => k a

theorem ite {c : Prop} [Decidable c] {y : Res α} (h1 : c → Always x P) (h2 : ¬c → Always y P) : Always (if c then x else y) P := by
  split
  · exact h1 ‹_›
  · exact h2 ‹_›

theorem mono {P' : α → Prop} (h : Always x P) (k : ∀ a, P a → P' a) : Always x P' := fun a e => k a (h a e)

end Always

/-- How many allocations a call attempts. -/
def stepAllocs (call : ApiCall) (slot : Option Nat) : Nat := if call = .init ∧ slot = none then 1 else 0

section builtin

variable {w : Nat}

theorem hInitialize_allocs (A : Alg w) (env : Env w) (slot : Option Nat) (s : St w) : Always (hInitialize A env slot s) fun v => v.2.2.count = s.count + if slot = none then 1 else 0 := by
  unfold hInitialize
  cases slot with
  | some p => exact Always.skip fun _ => Always.pure' rfl
  | none =>
    refine Always.ite (fun _ => Always.skip fun v => ?_) fun _ => Always.skip fun _ => Always.pure' rfl
    obtain ⟨r, c⟩ := v
    rcases c with - | - | c
    · exact Always.ub'
    · exact Always.ub'
    · exact Always.pure' rfl

theorem memFree_allocs (p : Nat) (s : St w) : Always (memFree p s) fun v => v.count = s.count := by
  unfold memFree
  cases getKey p s.live with
  | none => exact Always.ub'
  | some o => exact Always.ok rfl

theorem hFree_allocs (slot : Option Nat) (s : St w) : Always (hFree slot s) fun v => v.1 = 1 ∧ v.2.1 = none ∧ v.2.2.count = s.count := by
  unfold hFree
  cases slot with
  | none => exact Always.ok ⟨rfl, rfl, rfl⟩
  | some p => exact Always.bind (memFree_allocs p s) fun _ h => Always.pure' ⟨rfl, rfl, h⟩

theorem setRegion_allocs (s : St w) (p : Option Nat) (b : Option (List Byte)) : (setRegion s p b).count = s.count := by
  cases p <;> cases b <;> rfl

theorem storeBytes_allocs (p : Option Nat) (b : List Byte) (s : St w) : Always (storeBytes p b s) fun v => v.count = s.count := by
  cases p with
  | none => exact Always.ub'
  | some p => exact Always.ok rfl

theorem allocBytes_allocs (env : Env w) (n : Nat) (s : St w) : (allocBytes env n s).2.count = s.count + 1 := by
  unfold allocBytes
  split <;> rfl

theorem calculateError_allocs (c : Option Nat) (s : St w) : Always (calculateError c s) fun v => v.2.count = s.count := by
  unfold calculateError
  cases c with
  | none => exact Always.ok rfl
  | some p => exact Always.bind (hFree_allocs _ s) fun v h => Always.pure' h.2.2

theorem hmacPads_allocs (A : Alg w) (env : Env w) (l : Loc) (s : St w) :
    Always (hmacPads A env l s) fun v => v.2.2.count ≤ s.count + 2 ∧ v.2.1.context = l.context ∧ (v.1 = true → v.2.2.count = s.count + 2) := by
  unfold hmacPads
  have h1 := allocBytes_allocs env A.hmacBlockSize s
  generalize allocBytes env A.hmacBlockSize s = q at h1
  obtain ⟨p, s1⟩ := q
  have h1 : s1.count = s.count + 1 := h1
  cases p with
  | none => exact Always.pure' ⟨by change s1.count ≤ _; omega, rfl, by rintro ⟨⟩⟩
  | some p =>
    refine Always.skip fun d => Always.skip fun d => Always.bind (storeBytes_allocs _ _ _) fun s2 h2 => ?_
    have h3 := allocBytes_allocs env A.hmacBlockSize s2
    generalize allocBytes env A.hmacBlockSize s2 = q at h3
    obtain ⟨p, s3⟩ := q
    have h3 : s3.count = s2.count + 1 := h3
    cases p with
    | none => exact Always.pure' ⟨by change s3.count ≤ _; omega, rfl, by rintro ⟨⟩⟩
    | some p =>
      refine Always.skip fun _ => Always.skip fun _ => Always.bind (storeBytes_allocs _ _ _) fun s4 h4 => Always.skip fun _ => Always.skip fun _ => Always.skip fun _ => Always.skip fun _ => ?_
      refine Always.bind (storeBytes_allocs _ _ _) fun s5 h5 => Always.bind (storeBytes_allocs _ _ _) fun s6 h6 => Always.pure' ⟨?_, rfl, fun _ => ?_⟩
      · change s6.count ≤ _; omega
      · change s6.count = _; omega

theorem wipeFree_allocs (A : Alg w) (p : Option Nat) (s : St w) : Always (wipeFree A p s) fun v => v.count = s.count := by
  unfold wipeFree
  refine Always.skip fun _ => Always.skip fun _ => Always.bind (storeBytes_allocs _ _ _) fun s1 h1 => ?_
  cases p with
  | none => exact Always.ub'
  | some p => exact (memFree_allocs p s1).mono fun v h => h.trans h1

theorem wipeFreeOpt_allocs (A : Alg w) (p : Option Nat) (s : St w) : Always (wipeFreeOpt A p s) fun v => v.count = s.count := by
  cases p with
  | none => exact Always.ok rfl
  | some p => exact wipeFree_allocs A _ s

theorem freeOpt_allocs (p : Option Nat) (s : St w) : Always (freeOpt p s) fun v => v.count = s.count := by
  cases p with
  | none => exact Always.ok rfl
  | some p => exact Always.bind (hFree_allocs _ s) fun v h => Always.pure' h.2.2

theorem hmacError_allocs (A : Alg w) (l : Loc) (s : St w) : Always (hmacError A l s) fun v => v.1 = -1 ∧ v.2.2.count = s.count := by
  unfold hmacError
  refine Always.bind (freeOpt_allocs _ s) fun s1 h1 => Always.bind (wipeFreeOpt_allocs A _ s1) fun s2 h2 => Always.bind (wipeFreeOpt_allocs A _ s2) fun s3 h3 => Always.bind (wipeFreeOpt_allocs A _ s3) fun s4 h4 => ?_
  exact Always.pure' ⟨rfl, by change s4.count = _; omega⟩

theorem hUpdate_allocs (A : Alg w) (u : Bool) (env : Env w) (slot : Option Nat) (b : Option (List Byte)) (size : Nat) (s : St w) : Always (hUpdate A u env slot b size s) fun v => v.2.count = s.count := by
  unfold hUpdate
  cases slot with
  | none => exact Always.skip fun _ => Always.pure' rfl
  | some p =>
    dsimp only
    cases getKey p s.live with
    | none => exact Always.ub'
    | some o =>
      cases o with
      | bytes _ => exact Always.ub'
      | ctx c =>
        refine Always.skip fun v => ?_
        obtain ⟨r, c'⟩ := v
        cases c' with
        | none => exact Always.ub'
        | some c' => exact Always.pure' rfl

theorem hFinalize_allocs (A : Alg w) (u : Bool) (env : Env w) (slot : Option Nat) (o : Option (List Byte)) (n : Nat) (s : St w) : Always (hFinalize A u env slot o n s) fun v => v.2.2.count = s.count := by
  unfold hFinalize
  cases slot with
  | none => exact Always.skip fun _ => Always.pure' rfl
  | some p =>
    dsimp only
    cases getKey p s.live with
    | none => exact Always.ub'
    | some o =>
      cases o with
      | bytes _ => exact Always.ub'
      | ctx c =>
        refine Always.skip fun v => ?_
        obtain ⟨r, c', h⟩ := v
        cases c' with
        | none => exact Always.ub'
        | some c' => exact Always.pure' rfl

theorem step_allocs (A : Alg w) (u : Bool) (env : Env w) (call : ApiCall) (scr : Scr w) (slot : Option Nat) (s : St w) :
    Always (step A u env call scr slot s) fun v => v.2.2.count = s.count + stepAllocs call slot := by
  unfold step
  cases call with
  | init =>
    refine Always.bind (P := fun v => v.2.2.count = s.count + if slot = none then 1 else 0) (Always.bind (hInitialize_allocs A env slot s) fun v h => Always.pure' h) fun v h => ?_
    obtain ⟨r, c, s1⟩ := v
    cases c with
    | none => exact Always.ub'
    | some c => exact Always.pure' (by simpa [stepAllocs] using h)
  | initNull =>
    refine Always.bind (P := fun v => v.2.2.count = s.count) (Always.skip fun _ => Always.pure' rfl) fun v h => Always.pure' (by simpa [stepAllocs] using h)
  | free =>
    refine Always.bind (P := fun v => v.2.2.count = s.count) (Always.bind (hFree_allocs slot s) fun v h => Always.pure' h.2.2) fun v h => ?_
    obtain ⟨r, c, s1⟩ := v
    cases c with
    | none => exact Always.ub'
    | some c => exact Always.pure' (by simpa [stepAllocs] using h)
  | freeNull => exact Always.pure' (by simp [stepAllocs])
  | update b size => exact Always.bind (hUpdate_allocs A u _ slot b size s) fun v h => Always.pure' (by simpa [stepAllocs] using h)
  | finalize o n => exact Always.bind (hFinalize_allocs A u _ slot o n s) fun v h => Always.pure' (by simpa [stepAllocs] using h)

theorem calculate_allocs (A : Alg w) (u : Bool) (env : Env w) (b : Option Nat) (size : Nat) (o : Option Nat) (n : Nat) (s : St w) :
    Always (calculate A u env b size o n s) fun v => v.2.count = s.count + 1 := by
  unfold calculate
  refine Always.bind (hInitialize_allocs A env none s) fun v h1 => ?_
  obtain ⟨r, c, s1⟩ := v
  have h1 : s1.count = s.count + 1 := h1
  refine Always.ite (fun _ => (calculateError_allocs c s1).mono fun v h => h.trans h1) fun _ => Always.bind (hUpdate_allocs A u env c _ size s1) fun v h2 => ?_
  obtain ⟨r, s2⟩ := v
  have h2 := h2.trans h1
  refine Always.ite (fun _ => (calculateError_allocs c s2).mono fun v h => h.trans h2) fun _ => Always.bind (hFinalize_allocs A u env c _ n s2) fun v h3 => ?_
  obtain ⟨r, d, s3⟩ := v
  have h3 : (setRegion s3 o d).count = s.count + 1 := (setRegion_allocs s3 o d).trans (h3.trans h2)
  refine Always.ite (fun _ => (calculateError_allocs c _).mono fun v h => h.trans h3) fun _ => Always.bind (hFree_allocs c _) fun v h4 => ?_
  obtain ⟨r, c, s4⟩ := v
  have h4 : s4.count = s.count + 1 := h4.2.2.trans h3
  exact Always.ite (fun _ => (calculateError_allocs c s4).mono fun v h => h.trans h4) fun _ => Always.pure' h4

theorem hmacKey_allocs (A : Alg w) (u : Bool) (env : Env w) (key : Option Nat) (ks : Nat) (l : Loc) (s : St w) (hl : l.context = none) :
    Always (hmacKey A u env key ks l s) fun v => v.2.2.count ≤ s.count + 2 ∧ (v.1 = true → v.2.1.context = none ∧ v.2.2.count = s.count + if ks ≤ A.hmacBlockSize then 1 else 2) := by
  unfold hmacKey
  have h1 := allocBytes_allocs env A.hmacBlockSize s
  generalize allocBytes env A.hmacBlockSize s = q at h1
  obtain ⟨p, s1⟩ := q
  have h1 : s1.count = s.count + 1 := h1
  cases p with
  | none => exact Always.pure' ⟨by change s1.count ≤ _; omega, by rintro ⟨⟩⟩
  | some p =>
    refine Always.ite (fun hle => ?_) fun hgt => ?_
    · cases region s1 key ks with
      | none => exact Always.ub'
      | some k =>
        refine Always.skip fun _ => Always.skip fun _ => Always.skip fun _ => Always.bind (storeBytes_allocs _ _ _) fun s2 h2 => Always.pure' ⟨?_, fun _ => ⟨hl, ?_⟩⟩
        · change s2.count ≤ _; omega
        · change s2.count = _
          rw [if_pos hle]
          omega
    · refine Always.bind (hInitialize_allocs A env _ s1) fun v h2 => ?_
      obtain ⟨r, c, s2⟩ := v
      have h2 : s2.count = s.count + 2 := by
        change s2.count = s1.count + (if l.context = none then 1 else 0) at h2
        rw [hl, if_pos rfl] at h2
        omega
      refine Always.ite (fun _ => Always.pure' ⟨Nat.le_of_eq h2, by rintro ⟨⟩⟩) fun _ => Always.bind (hUpdate_allocs A u env c _ ks s2) fun v h3 => ?_
      obtain ⟨r, s3⟩ := v
      have h3 : s3.count = s.count + 2 := h3.trans h2
      refine Always.ite (fun _ => Always.pure' ⟨Nat.le_of_eq h3, by rintro ⟨⟩⟩) fun _ => Always.bind (hFinalize_allocs A u env c _ _ s3) fun v h4 => ?_
      obtain ⟨r, d, s4⟩ := v
      have h4' : s4.count = s.count + 2 := h4.trans h3
      cases d with
      | none => exact Always.ub'
      | some d =>
        refine Always.ite (fun _ => Always.pure' ⟨Nat.le_of_eq h4', by rintro ⟨⟩⟩) fun _ => Always.bind (hFree_allocs c s4) fun v h5 => ?_
        obtain ⟨r, c', s5⟩ := v
        obtain ⟨-, hc, h5⟩ := h5
        have h5 : s5.count = s.count + 2 := h5.trans h4'
        refine Always.ite (fun _ => Always.pure' ⟨Nat.le_of_eq h5, by rintro ⟨⟩⟩) fun _ => Always.skip fun _ => ?_
        refine Always.ite (fun _ => Always.skip fun _ => ?_) fun _ => Always.skip fun _ => ?_
        all_goals
          refine Always.skip fun _ => Always.bind (storeBytes_allocs _ _ _) fun s6 h6 => Always.pure' ⟨Nat.le_of_eq (h6.trans h5), fun _ => ⟨hc, ?_⟩⟩
          rw [if_neg hgt]
          exact h6.trans h5

theorem hmacPass_allocs (A : Alg w) (u : Bool) (env : Env w) (pad b : Option Nat) (size : Nat) (o : Option Nat) (n : Nat) (l : Loc) (s : St w) (hl : l.context = none) :
    Always (hmacPass A u env pad b size o n l s) fun v => v.2.2.count = s.count + 1 ∧ (v.1 = true → v.2.1.context = none) := by
  unfold hmacPass
  refine Always.bind (hInitialize_allocs A env _ s) fun v h1 => ?_
  obtain ⟨r, c, s1⟩ := v
  have h1 : s1.count = s.count + 1 := by
    change s1.count = s.count + (if l.context = none then 1 else 0) at h1
    rw [hl, if_pos rfl] at h1
    exact h1
  refine Always.ite (fun _ => Always.pure' ⟨h1, by rintro ⟨⟩⟩) fun _ => Always.skip fun _ => Always.bind (hUpdate_allocs A u env c _ _ s1) fun v h2 => ?_
  obtain ⟨r, s2⟩ := v
  have h2 : s2.count = s.count + 1 := h2.trans h1
  refine Always.ite (fun _ => Always.pure' ⟨h2, by rintro ⟨⟩⟩) fun _ => Always.bind (hUpdate_allocs A u env c _ _ s2) fun v h3 => ?_
  obtain ⟨r, s3⟩ := v
  have h3 : s3.count = s.count + 1 := h3.trans h2
  refine Always.ite (fun _ => Always.pure' ⟨h3, by rintro ⟨⟩⟩) fun _ => Always.bind (hFinalize_allocs A u env c _ _ s3) fun v h4 => ?_
  obtain ⟨r, d, s4⟩ := v
  have h4 : (setRegion s4 o d).count = s.count + 1 := (setRegion_allocs s4 o d).trans (h4.trans h3)
  refine Always.ite (fun _ => Always.pure' ⟨h4, by rintro ⟨⟩⟩) fun _ => Always.bind (hFree_allocs c _) fun v h5 => ?_
  obtain ⟨r, c', s5⟩ := v
  obtain ⟨-, hc, h5⟩ := h5
  have h5 : s5.count = s.count + 1 := h5.trans h4
  exact Always.ite (fun _ => Always.pure' ⟨h5, by rintro ⟨⟩⟩) fun _ => Always.pure' ⟨h5, fun _ => hc⟩

theorem calculateHmac_allocs (A : Alg w) (u : Bool) (env : Env w) (kh : List Byte) (key : Option Nat) (ks : Nat) (b : Option Nat) (size : Nat) (o : Option Nat) (n : Nat) (s : St w) :
    Always (calculateHmac A u env kh key ks b size o n s) fun v => v.2.2.count ≤ s.count + 6 ∧ (v.1 = 1 → v.2.2.count = s.count + if ks ≤ A.hmacBlockSize then 5 else 6) := by
  unfold calculateHmac
  cases key with
  | none => exact Always.ok ⟨Nat.le_add_right _ _, by rintro ⟨⟩⟩
  | some k =>
    refine Always.ite (fun _ => Always.ok ⟨Nat.le_add_right _ _, by rintro ⟨⟩⟩) fun _ => Always.ite (fun _ => Always.ok ⟨Nat.le_add_right _ _, by rintro ⟨⟩⟩) fun _ => ?_
    have err : ∀ l (t : St w), t.count ≤ s.count + 6 → Always (hmacError A l t) fun v => v.2.2.count ≤ s.count + 6 ∧ (v.1 = 1 → v.2.2.count = s.count + if ks ≤ A.hmacBlockSize then 5 else 6) :=
      fun l t ht => (hmacError_allocs A l t).mono fun v h => ⟨h.2 ▸ ht, fun e => absurd (h.1.symm.trans e) (by decide)⟩
    refine Always.bind (hmacKey_allocs A u env (some k) ks _ s rfl) fun v h1 => ?_
    obtain ⟨ok, l, s1⟩ := v
    obtain ⟨h1, h1'⟩ := h1
    have h1 : s1.count ≤ s.count + 2 := h1
    refine Always.ite (fun _ => err l s1 (by omega)) fun hok => ?_
    obtain ⟨hl, h1'⟩ := h1' (by simpa using hok)
    have h1' : s1.count = s.count + if ks ≤ A.hmacBlockSize then 1 else 2 := h1'
    unfold hmacRest
    refine Always.bind (hmacPads_allocs A env l s1) fun v h2 => ?_
    obtain ⟨ok, l2, s2⟩ := v
    obtain ⟨h2, hl2, h2'⟩ := h2
    have h2 : s2.count ≤ s1.count + 2 := h2
    refine Always.ite (fun _ => err l2 s2 (by omega)) fun hok => ?_
    have h2' : s2.count = s1.count + 2 := h2' (by simpa using hok)
    refine Always.bind (hmacPass_allocs A u env l2.inner b size o n l2 s2 (hl2.trans hl)) fun v h3 => ?_
    obtain ⟨ok, l3, s3⟩ := v
    obtain ⟨h3, hl3⟩ := h3
    have h3 : s3.count = s2.count + 1 := h3
    refine Always.ite (fun _ => err l3 s3 (by omega)) fun hok => ?_
    refine Always.bind (hmacPass_allocs A u env l3.outer o A.hashSize o n l3 s3 (hl3 (by simpa using hok))) fun v h4 => ?_
    obtain ⟨ok, l4, s4⟩ := v
    have h4 : s4.count = s3.count + 1 := h4.1
    refine Always.ite (fun _ => err l4 s4 (by omega)) fun hok => ?_
    refine Always.bind (wipeFree_allocs A _ s4) fun s5 h5 => Always.bind (wipeFree_allocs A _ s5) fun s6 h6 => Always.bind (wipeFree_allocs A _ s6) fun s7 h7 => Always.pure' ⟨?_, fun _ => ?_⟩
    · change s7.count ≤ _
      omega
    · change s7.count = _
      split at h1' <;> simp only [*, if_true, if_false] <;> omega

theorem hostHUpdate_allocs (hb : Nat) (A : Alg w) (u : Bool) (env : Env w) (slot : Option Nat) (b : Option (List Byte)) (size : Nat) (s : St w) : Always (hostHUpdate hb A u env slot b size s) fun v => v.2.count = s.count := by
  unfold hostHUpdate
  cases slot with
  | none => exact Always.skip fun _ => Always.pure' rfl
  | some p =>
    dsimp only
    cases getKey p s.live with
    | none => exact Always.ub'
    | some o =>
      cases o with
      | bytes _ => exact Always.ub'
      | ctx c =>
        refine Always.skip fun v => ?_
        obtain ⟨r, c'⟩ := v
        cases c' with
        | none => exact Always.ub'
        | some c' => exact Always.pure' rfl

theorem hostHFinalize_allocs (hb : Nat) (A : Alg w) (u : Bool) (env : Env w) (slot : Option Nat) (o : Option (List Byte)) (n : Nat) (s : St w) : Always (hostHFinalize hb A u env slot o n s) fun v => v.2.2.count = s.count := by
  unfold hostHFinalize
  cases slot with
  | none => exact Always.skip fun _ => Always.pure' rfl
  | some p =>
    dsimp only
    cases getKey p s.live with
    | none => exact Always.ub'
    | some o =>
      cases o with
      | bytes _ => exact Always.ub'
      | ctx c =>
        refine Always.skip fun v => ?_
        obtain ⟨r, c', h⟩ := v
        cases c' with
        | none => exact Always.ub'
        | some c' => exact Always.pure' rfl

theorem hostStep_allocs (hb : Nat) (A : Alg w) (u : Bool) (env : Env w) (call : ApiCall) (scr : Scr w) (slot : Option Nat) (s : St w) :
    Always (hostStep hb A u env call scr slot s) fun v => v.2.2.count = s.count + stepAllocs call slot := by
  unfold hostStep
  cases call with
  | init =>
    refine Always.bind (P := fun v => v.2.2.count = s.count + if slot = none then 1 else 0) (Always.bind (hInitialize_allocs A env slot s) fun v h => Always.pure' h) fun v h => ?_
    obtain ⟨r, c, s1⟩ := v
    cases c with
    | none => exact Always.ub'
    | some c => exact Always.pure' (by simpa [stepAllocs] using h)
  | initNull =>
    refine Always.bind (P := fun v => v.2.2.count = s.count) (Always.skip fun _ => Always.pure' rfl) fun v h => Always.pure' (by simpa [stepAllocs] using h)
  | free =>
    refine Always.bind (P := fun v => v.2.2.count = s.count) (Always.bind (hFree_allocs slot s) fun v h => Always.pure' h.2.2) fun v h => ?_
    obtain ⟨r, c, s1⟩ := v
    cases c with
    | none => exact Always.ub'
    | some c => exact Always.pure' (by simpa [stepAllocs] using h)
  | freeNull => exact Always.pure' (by simp [stepAllocs])
  | update b size => exact Always.bind (hostHUpdate_allocs hb A u _ slot b size s) fun v h => Always.pure' (by simpa [stepAllocs] using h)
  | finalize o n => exact Always.bind (hostHFinalize_allocs hb A u _ slot o n s) fun v h => Always.pure' (by simpa [stepAllocs] using h)

theorem hostCalculate_allocs (hb : Nat) (A : Alg w) (u : Bool) (env : Env w) (b : Option Nat) (size : Nat) (o : Option Nat) (n : Nat) (s : St w) :
    Always (hostCalculate hb A u env b size o n s) fun v => v.2.count = s.count + 1 := by
  unfold hostCalculate
  refine Always.bind (hInitialize_allocs A env none s) fun v h1 => ?_
  obtain ⟨r, c, s1⟩ := v
  have h1 : s1.count = s.count + 1 := h1
  refine Always.ite (fun _ => (calculateError_allocs c s1).mono fun v h => h.trans h1) fun _ => Always.bind (hostHUpdate_allocs hb A u env c _ size s1) fun v h2 => ?_
  obtain ⟨r, s2⟩ := v
  have h2 := h2.trans h1
  refine Always.ite (fun _ => (calculateError_allocs c s2).mono fun v h => h.trans h2) fun _ => Always.bind (hostHFinalize_allocs hb A u env c _ n s2) fun v h3 => ?_
  obtain ⟨r, d, s3⟩ := v
  have h3 : (setRegion s3 o d).count = s.count + 1 := (setRegion_allocs s3 o d).trans (h3.trans h2)
  refine Always.ite (fun _ => (calculateError_allocs c _).mono fun v h => h.trans h3) fun _ => Always.bind (hFree_allocs c _) fun v h4 => ?_
  obtain ⟨r, c, s4⟩ := v
  have h4 : s4.count = s.count + 1 := h4.2.2.trans h3
  exact Always.ite (fun _ => (calculateError_allocs c s4).mono fun v h => h.trans h4) fun _ => Always.pure' h4

theorem hostHmacKey_allocs (hb : Nat) (A : Alg w) (u : Bool) (env : Env w) (key : Option Nat) (ks : Nat) (l : Loc) (s : St w) (hl : l.context = none) :
    Always (hostHmacKey hb A u env key ks l s) fun v => v.2.2.count ≤ s.count + 2 ∧ (v.1 = true → v.2.1.context = none ∧ v.2.2.count = s.count + if ks ≤ A.hmacBlockSize then 1 else 2) := by
  unfold hostHmacKey
  have h1 := allocBytes_allocs env A.hmacBlockSize s
  generalize allocBytes env A.hmacBlockSize s = q at h1
  obtain ⟨p, s1⟩ := q
  have h1 : s1.count = s.count + 1 := h1
  cases p with
  | none => exact Always.pure' ⟨by change s1.count ≤ _; omega, by rintro ⟨⟩⟩
  | some p =>
    refine Always.ite (fun hle => ?_) fun hgt => ?_
    · cases region s1 key ks with
      | none => exact Always.ub'
      | some k =>
        refine Always.skip fun _ => Always.skip fun _ => Always.skip fun _ => Always.bind (storeBytes_allocs _ _ _) fun s2 h2 => Always.pure' ⟨?_, fun _ => ⟨hl, ?_⟩⟩
        · change s2.count ≤ _; omega
        · change s2.count = _
          rw [if_pos hle]
          omega
    · refine Always.bind (hInitialize_allocs A env _ s1) fun v h2 => ?_
      obtain ⟨r, c, s2⟩ := v
      have h2 : s2.count = s.count + 2 := by
        change s2.count = s1.count + (if l.context = none then 1 else 0) at h2
        rw [hl, if_pos rfl] at h2
        omega
      refine Always.ite (fun _ => Always.pure' ⟨Nat.le_of_eq h2, by rintro ⟨⟩⟩) fun _ => Always.bind (hostHUpdate_allocs hb A u env c _ ks s2) fun v h3 => ?_
      obtain ⟨r, s3⟩ := v
      have h3 : s3.count = s.count + 2 := h3.trans h2
      refine Always.ite (fun _ => Always.pure' ⟨Nat.le_of_eq h3, by rintro ⟨⟩⟩) fun _ => Always.bind (hostHFinalize_allocs hb A u env c _ _ s3) fun v h4 => ?_
      obtain ⟨r, d, s4⟩ := v
      have h4' : s4.count = s.count + 2 := h4.trans h3
      cases d with
      | none => exact Always.ub'
      | some d =>
        refine Always.ite (fun _ => Always.pure' ⟨Nat.le_of_eq h4', by rintro ⟨⟩⟩) fun _ => Always.bind (hFree_allocs c s4) fun v h5 => ?_
        obtain ⟨r, c', s5⟩ := v
        obtain ⟨-, hc, h5⟩ := h5
        have h5 : s5.count = s.count + 2 := h5.trans h4'
        refine Always.ite (fun _ => Always.pure' ⟨Nat.le_of_eq h5, by rintro ⟨⟩⟩) fun _ => Always.skip fun _ => ?_
        refine Always.ite (fun _ => Always.skip fun _ => ?_) fun _ => Always.skip fun _ => ?_
        all_goals
          refine Always.skip fun _ => Always.bind (storeBytes_allocs _ _ _) fun s6 h6 => Always.pure' ⟨Nat.le_of_eq (h6.trans h5), fun _ => ⟨hc, ?_⟩⟩
          rw [if_neg hgt]
          exact h6.trans h5

theorem hostHmacPass_allocs (hb : Nat) (A : Alg w) (u : Bool) (env : Env w) (pad b : Option Nat) (size : Nat) (o : Option Nat) (n : Nat) (l : Loc) (s : St w) (hl : l.context = none) :
    Always (hostHmacPass hb A u env pad b size o n l s) fun v => v.2.2.count = s.count + 1 ∧ (v.1 = true → v.2.1.context = none) := by
  unfold hostHmacPass
  refine Always.bind (hInitialize_allocs A env _ s) fun v h1 => ?_
  obtain ⟨r, c, s1⟩ := v
  have h1 : s1.count = s.count + 1 := by
    change s1.count = s.count + (if l.context = none then 1 else 0) at h1
    rw [hl, if_pos rfl] at h1
    exact h1
  refine Always.ite (fun _ => Always.pure' ⟨h1, by rintro ⟨⟩⟩) fun _ => Always.skip fun _ => Always.bind (hostHUpdate_allocs hb A u env c _ _ s1) fun v h2 => ?_
  obtain ⟨r, s2⟩ := v
  have h2 : s2.count = s.count + 1 := h2.trans h1
  refine Always.ite (fun _ => Always.pure' ⟨h2, by rintro ⟨⟩⟩) fun _ => Always.bind (hostHUpdate_allocs hb A u env c _ _ s2) fun v h3 => ?_
  obtain ⟨r, s3⟩ := v
  have h3 : s3.count = s.count + 1 := h3.trans h2
  refine Always.ite (fun _ => Always.pure' ⟨h3, by rintro ⟨⟩⟩) fun _ => Always.bind (hostHFinalize_allocs hb A u env c _ _ s3) fun v h4 => ?_
  obtain ⟨r, d, s4⟩ := v
  have h4 : (setRegion s4 o d).count = s.count + 1 := (setRegion_allocs s4 o d).trans (h4.trans h3)
  refine Always.ite (fun _ => Always.pure' ⟨h4, by rintro ⟨⟩⟩) fun _ => Always.bind (hFree_allocs c _) fun v h5 => ?_
  obtain ⟨r, c', s5⟩ := v
  obtain ⟨-, hc, h5⟩ := h5
  have h5 : s5.count = s.count + 1 := h5.trans h4
  exact Always.ite (fun _ => Always.pure' ⟨h5, by rintro ⟨⟩⟩) fun _ => Always.pure' ⟨h5, fun _ => hc⟩

theorem hostCalculateHmac_allocs (hb : Nat) (A : Alg w) (u : Bool) (env : Env w) (kh : List Byte) (key : Option Nat) (ks : Nat) (b : Option Nat) (size : Nat) (o : Option Nat) (n : Nat) (s : St w) :
    Always (hostCalculateHmac hb A u env kh key ks b size o n s) fun v => v.2.2.count ≤ s.count + 6 ∧ (v.1 = 1 → v.2.2.count = s.count + if ks ≤ A.hmacBlockSize then 5 else 6) := by
  unfold hostCalculateHmac
  cases key with
  | none => exact Always.ok ⟨Nat.le_add_right _ _, by rintro ⟨⟩⟩
  | some k =>
    refine Always.ite (fun _ => Always.ok ⟨Nat.le_add_right _ _, by rintro ⟨⟩⟩) fun _ => Always.ite (fun _ => Always.ok ⟨Nat.le_add_right _ _, by rintro ⟨⟩⟩) fun _ => ?_
    have err : ∀ l (t : St w), t.count ≤ s.count + 6 → Always (hmacError A l t) fun v => v.2.2.count ≤ s.count + 6 ∧ (v.1 = 1 → v.2.2.count = s.count + if ks ≤ A.hmacBlockSize then 5 else 6) :=
      fun l t ht => (hmacError_allocs A l t).mono fun v h => ⟨h.2 ▸ ht, fun e => absurd (h.1.symm.trans e) (by decide)⟩
    refine Always.bind (hostHmacKey_allocs hb A u env (some k) ks _ s rfl) fun v h1 => ?_
    obtain ⟨ok, l, s1⟩ := v
    obtain ⟨h1, h1'⟩ := h1
    have h1 : s1.count ≤ s.count + 2 := h1
    refine Always.ite (fun _ => err l s1 (by omega)) fun hok => ?_
    obtain ⟨hl, h1'⟩ := h1' (by simpa using hok)
    have h1' : s1.count = s.count + if ks ≤ A.hmacBlockSize then 1 else 2 := h1'
    unfold hostHmacRest
    refine Always.bind (hmacPads_allocs A env l s1) fun v h2 => ?_
    obtain ⟨ok, l2, s2⟩ := v
    obtain ⟨h2, hl2, h2'⟩ := h2
    have h2 : s2.count ≤ s1.count + 2 := h2
    refine Always.ite (fun _ => err l2 s2 (by omega)) fun hok => ?_
    have h2' : s2.count = s1.count + 2 := h2' (by simpa using hok)
    refine Always.bind (hostHmacPass_allocs hb A u env l2.inner b size o n l2 s2 (hl2.trans hl)) fun v h3 => ?_
    obtain ⟨ok, l3, s3⟩ := v
    obtain ⟨h3, hl3⟩ := h3
    have h3 : s3.count = s2.count + 1 := h3
    refine Always.ite (fun _ => err l3 s3 (by omega)) fun hok => ?_
    refine Always.bind (hostHmacPass_allocs hb A u env l3.outer o A.hashSize o n l3 s3 (hl3 (by simpa using hok))) fun v h4 => ?_
    obtain ⟨ok, l4, s4⟩ := v
    have h4 : s4.count = s3.count + 1 := h4.1
    refine Always.ite (fun _ => err l4 s4 (by omega)) fun hok => ?_
    refine Always.bind (wipeFree_allocs A _ s4) fun s5 h5 => Always.bind (wipeFree_allocs A _ s5) fun s6 h6 => Always.bind (wipeFree_allocs A _ s6) fun s7 h7 => Always.pure' ⟨?_, fun _ => ?_⟩
    · change s7.count ≤ _
      omega
    · change s7.count = _
      split at h1' <;> simp only [*, if_true, if_false] <;> omega

end builtin

end Model
