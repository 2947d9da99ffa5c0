import Verif.Proofs.Backend
import Verif.Proofs.Multi
/-! The context functions of a build with a crypto library do not depend on the order of the objects in memory, and give new objects new numbers. -/

namespace Model

open Spec (ApiCall Reply)

section Keys

variable {α : Type}

theorem getKey_mem {p : Nat} {o : α} : ∀ {l : List (Nat × α)}, getKey p l = some o → (p, o) ∈ l
  | e :: t, h => by
    simp only [getKey] at h
    split at h
    · rename_i he
      obtain rfl := Option.some.inj h
      rw [← he]
      exact List.mem_cons_self
    · exact List.mem_cons_of_mem _ (getKey_mem h)

theorem getKey_of_mem {p : Nat} {o : α} : ∀ {l : List (Nat × α)}, (l.map (·.1)).Nodup → (p, o) ∈ l → getKey p l = some o
  | e :: t, hn, h => by
    rw [List.map_cons, List.nodup_cons] at hn
    simp only [getKey]
    rcases List.mem_cons.1 h with rfl | h
    · rw [if_pos rfl]
    · rw [if_neg fun he => hn.1 (by rw [he]; exact List.mem_map.2 ⟨_, h, rfl⟩), getKey_of_mem hn.2 h]

theorem getKey_perm {p : Nat} {l m : List (Nat × α)} (h : l.Perm m) (hn : (l.map (·.1)).Nodup) : getKey p l = getKey p m := by
  have hm : (m.map (·.1)).Nodup := (h.map _).nodup_iff.1 hn
  cases e : getKey p l with
  | some o => exact (getKey_of_mem hm (h.mem_iff.1 (getKey_mem e))).symm
  | none =>
    cases e' : getKey p m with
    | none => rfl
    | some o => rw [getKey_of_mem hn (h.mem_iff.2 (getKey_mem e'))] at e; cases e

theorem setKey_perm (p : Nat) (o : α) {l m : List (Nat × α)} (h : l.Perm m) : (l.map (·.1)).Nodup → (setKey p o l).Perm (setKey p o m) := by
  induction h with
  | nil => exact fun _ => .nil
  | cons x h ih =>
    intro hn
    rw [List.map_cons, List.nodup_cons] at hn
    simp only [setKey]
    split
    · exact h.cons _
    · exact (ih hn.2).cons _
  | swap x y l =>
    intro hn
    simp only [List.map_cons, List.nodup_cons, List.mem_cons, not_or] at hn
    simp only [setKey]
    by_cases hx : x.1 = p
    · have hy : ¬ y.1 = p := fun e => hn.1.1 (e.trans hx.symm)
      simp only [hx, hy, if_true, if_false]
      exact .swap _ _ _
    · simp only [hx, if_false]
      split
      · exact .swap _ _ _
      · exact .swap _ _ _
  | trans h1 h2 ih1 ih2 => exact fun hn => (ih1 hn).trans (ih2 ((h1.map _).nodup_iff.1 hn))

theorem eraseKey_perm (p : Nat) {l m : List (Nat × α)} (h : l.Perm m) : (l.map (·.1)).Nodup → (eraseKey p l).Perm (eraseKey p m) := by
  induction h with
  | nil => exact fun _ => .nil
  | cons x h ih =>
    intro hn
    rw [List.map_cons, List.nodup_cons] at hn
    simp only [eraseKey]
    split
    · exact h
    · exact (ih hn.2).cons _
  | swap x y l =>
    intro hn
    simp only [List.map_cons, List.nodup_cons, List.mem_cons, not_or] at hn
    simp only [eraseKey]
    by_cases hx : x.1 = p
    · have hy : ¬ y.1 = p := fun e => hn.1.1 (e.trans hx.symm)
      simp only [hx, hy, if_true, if_false]
      exact .refl _
    · simp only [hx, if_false]
      split
      · exact .refl _
      · exact .swap _ _ _
  | trans h1 h2 ih1 ih2 => exact fun hn => (ih1 hn).trans (ih2 ((h1.map _).nodup_iff.1 hn))

end Keys

/-- Results in a relation. -/
def ResRel {α : Type} (R : α → α → Prop) : Res α → Res α → Prop
  | .ok a, .ok b => R a b
  | .ub, .ub => True
  | .diverge, .diverge => True
  | _, _ => False

theorem ResRel.bind {α β : Type} {R : α → α → Prop} {Q : β → β → Prop} {x y : Res α} {f g : α → Res β} (h : ResRel R x y) (hf : ∀ a b, R a b → ResRel Q (f a) (g b)) : ResRel Q (x >>= f) (y >>= g) := by
  cases x <;> cases y <;> simp only [ResRel] at h
  · exact hf _ _ h
  · trivial
  · trivial

theorem ResRel.ok {α : Type} {R : α → α → Prop} {x y : Res α} {b : α} (h : ResRel R x y) (e : y = .ok b) : ∃ a, x = .ok a ∧ R a b := by
  subst e
  cases x with
  | ok a => exact ⟨a, rfl, h⟩
  | ub => exact h.elim
  | diverge => exact h.elim

variable {σ : Type}

/-- Numbers of objects are distinct, and those of new objects are not in use. -/
structure BSt.Wf (s : BSt σ) : Prop where
  nodup : (s.live.map (·.1)).Nodup
  even : ∀ n ∈ s.live.map (·.1), n % 2 = 0 → n < 2 * s.count
  odd : ∀ n ∈ s.live.map (·.1), n % 2 = 1 → n < 2 * s.calls

/-- The same memory up to the order of the objects. -/
structure Sim (s t : BSt σ) : Prop where
  count : s.count = t.count
  calls : s.calls = t.calls
  perm : s.live.Perm t.live
  wf : s.Wf

theorem Sim.get {s t : BSt σ} (h : Sim s t) (p : Nat) : getKey p s.live = getKey p t.live := getKey_perm h.perm h.wf.nodup

theorem Sim.tick {s t : BSt σ} (h : Sim s t) : Sim s.tick t.tick :=
  ⟨h.count, congrArg (· + 1) h.calls, h.perm, h.wf.nodup, h.wf.even, fun n hn ho => by have := h.wf.odd n hn ho; show n < 2 * (s.calls + 1); omega⟩

theorem Sim.set {s t : BSt σ} (h : Sim s t) (p : Nat) (o : BObj σ) : Sim { s with live := setKey p o s.live } { t with live := setKey p o t.live } :=
  ⟨h.count, h.calls, setKey_perm p o h.perm h.wf.nodup, by rw [keys_setKey]; exact h.wf.nodup, by rw [keys_setKey]; exact h.wf.even, by rw [keys_setKey]; exact h.wf.odd⟩

theorem Sim.erase {s t : BSt σ} (h : Sim s t) (p : Nat) : ResRel Sim (bErase p s) (bErase p t) := by
  simp only [bErase, h.get p]
  cases getKey p t.live with
  | none => trivial
  | some _ =>
    refine ⟨h.count, h.calls, eraseKey_perm p h.perm h.wf.nodup, ?_, ?_, ?_⟩
    · show ((eraseKey p s.live).map (·.1)).Nodup
      rw [keys_eraseKey]
      exact h.wf.nodup.erase p
    · intro n hn
      have hn : n ∈ (eraseKey p s.live).map (·.1) := hn
      rw [keys_eraseKey] at hn
      exact h.wf.even n (List.mem_of_mem_erase hn)
    · intro n hn
      have hn : n ∈ (eraseKey p s.live).map (·.1) := hn
      rw [keys_eraseKey] at hn
      exact h.wf.odd n (List.mem_of_mem_erase hn)

/-- A new libhmac context. -/
theorem Sim.context {s t : BSt σ} (h : Sim s t) (o : BObj σ) :
    Sim { s with count := s.count + 1, live := (2 * s.count, o) :: s.live } { t with count := t.count + 1, live := (2 * t.count, o) :: t.live } := by
  refine ⟨congrArg (· + 1) h.count, h.calls, ?_, ?_, ?_, ?_⟩
  · show ((2 * s.count, o) :: s.live).Perm ((2 * t.count, o) :: t.live)
    rw [h.count]
    exact h.perm.cons _
  · refine List.nodup_cons.2 ⟨fun hm => ?_, h.wf.nodup⟩
    have := h.wf.even (2 * s.count) hm (by omega)
    omega
  · intro n hn he
    rcases List.mem_cons.1 hn with rfl | hn
    · show 2 * s.count < 2 * (s.count + 1); omega
    · have := h.wf.even n hn he
      show n < 2 * (s.count + 1); omega
  · intro n hn ho
    rcases List.mem_cons.1 hn with rfl | hn
    · dsimp only at ho; omega
    · exact h.wf.odd n hn ho

/-- A new EVP context. -/
theorem Sim.evp {s t : BSt σ} (h : Sim s t) (o : BObj σ) :
    Sim { s.tick with live := (2 * s.calls + 1, o) :: s.live } { t.tick with live := (2 * t.calls + 1, o) :: t.live } := by
  refine ⟨h.count, congrArg (· + 1) h.calls, ?_, ?_, ?_, ?_⟩
  · show ((2 * s.calls + 1, o) :: s.live).Perm ((2 * t.calls + 1, o) :: t.live)
    rw [h.calls]
    exact h.perm.cons _
  · refine List.nodup_cons.2 ⟨fun hm => ?_, h.wf.nodup⟩
    have := h.wf.odd (2 * s.calls + 1) hm (by omega)
    omega
  · intro n hn he
    rcases List.mem_cons.1 hn with rfl | hn
    · dsimp only at he; omega
    · exact h.wf.even n hn he
  · intro n hn ho
    rcases List.mem_cons.1 hn with rfl | hn
    · show 2 * s.calls + 1 < 2 * (s.calls + 1); omega
    · have := h.wf.odd n hn ho
      show n < 2 * (s.calls + 1); omega

/-- The same result and variable, and the same memory up to the order. -/
def Sim3 {α β : Type} (x y : α × β × BSt σ) : Prop := x.1 = y.1 ∧ x.2.1 = y.2.1 ∧ Sim x.2.2 y.2.2

def Sim2 {α : Type} (x y : α × BSt σ) : Prop := x.1 = y.1 ∧ Sim x.2 y.2

theorem bInitError_sim {s t : BSt σ} (h : Sim s t) (p : Nat) : ResRel Sim3 (bInitError p s) (bInitError p t) :=
  (h.erase p).bind fun _ _ h' => ⟨rfl, rfl, h'⟩

theorem bDigestInit_sim (L : Library) {s t : BSt L.State} (h : Sim s t) (p : Nat) (evp : EvpPtr) : ResRel Sim3 (bDigestInit L p evp s) (bDigestInit L p evp t) := by
  simp only [bDigestInit, h.calls]
  cases L.init t.calls with
  | some st =>
    cases evp with
    | null => trivial
    | embedded => exact ⟨rfl, rfl, h.tick.set p _⟩
    | heap q => exact ⟨rfl, rfl, (h.tick.set q _).set p _⟩
  | none =>
    cases evp with
    | null => trivial
    | embedded => exact bInitError_sim h.tick.tick p
    | heap q => exact (h.tick.erase q).bind fun _ _ h' => bInitError_sim h' p

theorem bInitialize_sim (B : Backend) (L : Library) (al : Nat → Bool) (slot : Option Nat) {s t : BSt L.State} (h : Sim s t) : ResRel Sim3 (bInitialize B L al slot s) (bInitialize B L al slot t) := by
  cases slot with
  | some p => exact ⟨rfl, rfl, h⟩
  | none =>
    obtain ⟨count, calls, live⟩ := s
    obtain ⟨count', calls', live'⟩ := t
    obtain rfl : count = count' := h.count
    obtain rfl : calls = calls' := h.calls
    have hx := h.context (.ctx none .null)
    simp only [bInitialize]
    by_cases ha : al count = true
    · simp only [if_pos ha]
      cases B with
      | direct b =>
        dsimp only
        cases L.init calls with
        | some st => exact ⟨rfl, rfl, hx.tick.set _ _⟩
        | none => exact bInitError_sim hx.tick _
      | evpEmbedded => exact bDigestInit_sim L hx _ _
      | evpAllocated =>
        dsimp only
        by_cases hc : L.create calls = true
        · simp only [if_pos hc]
          exact bDigestInit_sim L ((hx.evp (.md none)).set (2 * count) (.ctx none (.heap (2 * calls + 1)))) _ _
        · simp only [if_neg hc]
          exact bInitError_sim hx.tick _
    · simp only [if_neg ha]
      refine ⟨rfl, rfl, rfl, rfl, h.perm, h.wf.nodup, fun n hn he => ?_, h.wf.odd⟩
      have := h.wf.even n hn he
      show n < 2 * (count + 1)
      have : n < 2 * count := this
      omega

theorem bFree_sim (B : Backend) (L : Library) (slot : Option Nat) {s t : BSt L.State} (h : Sim s t) : ResRel Sim3 (bFree B L slot s) (bFree B L slot t) := by
  cases slot with
  | none => exact ⟨rfl, rfl, h⟩
  | some p =>
    simp only [bFree, h.get p]
    cases getKey p t.live with
    | none => cases B <;> trivial
    | some o =>
      cases o with
      | md st => cases B <;> trivial
      | ctx st evp =>
        cases B with
        | direct b => exact (h.erase p).bind fun _ _ h' => ⟨rfl, rfl, h'⟩
        | evpEmbedded => exact (h.tick.erase p).bind fun _ _ h' => ⟨rfl, rfl, h'⟩
        | evpAllocated =>
          cases evp with
          | null => exact (h.tick.erase p).bind fun _ _ h' => ⟨rfl, rfl, h'⟩
          | embedded => trivial
          | heap q => exact (h.tick.erase q).bind fun _ _ h' => (h'.erase p).bind fun _ _ h'' => ⟨rfl, rfl, h''⟩

theorem bState_sim (B : Backend) (p : Nat) {s t : BSt σ} (h : Sim s t) : bState B p s = bState B p t := by
  simp only [bState, h.get]

theorem bSetState_sim (p : Nat) (st : σ) {s t : BSt σ} (h : Sim s t) : ResRel Sim (bSetState p st s) (bSetState p st t) := by
  simp only [bSetState, h.get p]
  cases getKey p t.live with
  | none => trivial
  | some o =>
    cases o with
    | md x => trivial
    | ctx x evp =>
      cases evp with
      | null => exact h.set p _
      | embedded => exact h.set p _
      | heap q => exact h.set q _

theorem ResRel.refl {α : Type} (x : Res α) : ResRel (· = ·) x x := by cases x <;> trivial

theorem bUpdate_sim (B : Backend) (L : Library) (slot : Option Nat) (buf : Option (List Byte)) (size : Nat) {s t : BSt L.State} (h : Sim s t) :
    ResRel Sim2 (bUpdate B L slot buf size s) (bUpdate B L slot buf size t) := by
  cases slot with
  | none => exact ⟨rfl, h⟩
  | some p =>
    cases buf with
    | none => exact ⟨rfl, h⟩
    | some b =>
      simp only [bUpdate]
      split
      · exact ⟨rfl, h⟩
      · split
        · exact ⟨rfl, h⟩
        · rw [bState_sim B p h, h.calls]
          refine (ResRel.refl _).bind fun st _ e => ?_
          subst e
          refine (ResRel.refl _).bind fun d _ e => ?_
          subst e
          exact (bSetState_sim p _ h.tick).bind fun _ _ h' => ⟨rfl, h'⟩

theorem bFinalize_sim (B : Backend) (L : Library) (hashSize : Nat) (slot : Option Nat) (out : Option (List Byte)) (size : Nat) {s t : BSt L.State} (h : Sim s t) :
    ResRel Sim3 (bFinalize B L hashSize slot out size s) (bFinalize B L hashSize slot out size t) := by
  cases slot with
  | none => exact ⟨rfl, rfl, h⟩
  | some p =>
    cases out with
    | none => exact ⟨rfl, rfl, h⟩
    | some o =>
      simp only [bFinalize]
      split
      · exact ⟨rfl, rfl, h⟩
      · split
        · exact ⟨rfl, rfl, h⟩
        · rw [bState_sim B p h, h.calls]
          refine (ResRel.refl _).bind fun st _ e => ?_
          subst e
          exact (bSetState_sim p _ h.tick).bind fun _ _ h' => ⟨rfl, rfl, h'⟩

theorem bStep_sim (B : Backend) (L : Library) (hashSize : Nat) (al : Nat → Bool) (c : ApiCall) (slot : Option Nat) {s t : BSt L.State} (h : Sim s t) :
    ResRel Sim3 (bStep B L hashSize al c slot s) (bStep B L hashSize al c slot t) := by
  cases c with
  | init => exact (bInitialize_sim B L al slot h).bind fun _ _ h' => ⟨by rw [h'.1], h'.2.1, h'.2.2⟩
  | initNull => exact ⟨rfl, rfl, h⟩
  | free => exact (bFree_sim B L slot h).bind fun _ _ h' => ⟨by rw [h'.1], h'.2.1, h'.2.2⟩
  | freeNull => exact ⟨rfl, rfl, h⟩
  | update buf size => exact (bUpdate_sim B L slot buf size h).bind fun _ _ h' => ⟨by rw [h'.1], rfl, h'.2⟩
  | finalize out size => exact (bFinalize_sim B L hashSize slot out size h).bind fun _ _ h' => ⟨by rw [h'.1, h'.2.1], rfl, h'.2.2⟩

end Model
