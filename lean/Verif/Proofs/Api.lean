import Verif.Model.Api
import Verif.Proofs.Instances
/-! The API state machine refines its specification. -/

namespace Model

open Spec (IterHash ApiCall Reply ApiState)

variable {w : Nat} {A : Alg w} {H : IterHash w} {enc : Nat → List Byte}

theorem maxSize_eq : Spec.maxSize = ssizeMax := rfl

/-- Relation of the implementation's memory to the abstract state. `live0` are the objects that do not belong to the context variable. -/
def ApiRel (A : Alg w) (H : IterHash w) (live0 : List (Nat × Obj w)) (slot : Option Nat) (s : St w) (a : ApiState w) : Prop :=
  a.attempts = s.count ∧
  match slot, a.slot with
  | none, none => s.live = live0
  | some p, some (h0, m) => p < s.count ∧ h0.length = A.nHash ∧ ∃ c, s.live = (p, .ctx c) :: live0 ∧ Rep A H h0 m c
  | _, _ => False

/-- Contexts created by a list of calls with their replies: successful `initialize` calls. -/
def created : List (ApiCall × Reply) → Nat
  | [] => 0
  | (c, r) :: t => (if c = .init ∧ r.code = 1 then 1 else 0) + created t

/-- Freed objects plus the live context, before and after a call. -/
def Accounted (call : ApiCall) (r : Reply) (slot : Option Nat) (s : St w) (slot' : Option Nat) (s' : St w) : Prop :=
  s'.freed.length + slot'.isSome.toNat = s.freed.length + slot.isSome.toNat + created [(call, r)]

theorem step_ok (L : Lawful A H enc) (u : Bool) (env : Env w) (live0 : List (Nat × Obj w)) (call : ApiCall) (scr : Scr w) (slot : Option Nat) (s : St w)
    (a : ApiState w) (hv : call.Valid) (hscr : ScrOk A scr) (hrel : ApiRel A H live0 slot s a) :
    ∃ slot' s', step A u env call scr slot s =
        .ok ((Spec.apiStep H A.hashSize (List.replicate A.nHash 0) env.allocOk call a).1, slot', s') ∧
      ApiRel A H live0 slot' s' (Spec.apiStep H A.hashSize (List.replicate A.nHash 0) env.allocOk call a).2 ∧
      s'.caller = s.caller ∧
      Accounted call (Spec.apiStep H A.hashSize (List.replicate A.nHash 0) env.allocOk call a).1 slot s slot' s' := by
  obtain ⟨aslot, att⟩ := a
  obtain ⟨hatt, hrel⟩ := hrel
  simp only at hatt hrel
  subst hatt
  match slot, aslot, hrel with
  | none, none, hlive =>
    simp only at hlive
    cases call with
    | init =>
      by_cases hal : env.allocOk s.count
      · obtain ⟨c, e, hr⟩ := ctxInitialize_ok L (env.junkCtx s.count)
        refine ⟨some s.count, { s with count := s.count + 1, live := (s.count, .ctx c) :: s.live }, ?_, ?_, rfl, by simp [Accounted, created, Spec.apiStep, *]⟩
        · simp [step, apiInitialize, hInitialize, hal, e, Spec.apiStep]
        · simp only [Spec.apiStep, hal, if_true]
          exact ⟨rfl, Nat.lt_succ_self _, by rw [← L.iv, L.ivLen], c, by simp [hlive], hr⟩
      · refine ⟨none, { s with count := s.count + 1 }, ?_, ?_, rfl, by simp [Accounted, created, Spec.apiStep, *]⟩
        · simp [step, apiInitialize, hInitialize, hal, ctxInitialize, Spec.apiStep]
        · simp only [Spec.apiStep, hal]
          exact ⟨rfl, hlive⟩
    | initNull => exact ⟨none, s, by simp [step, apiInitialize, ctxInitialize, Spec.apiStep], ⟨rfl, hlive⟩, rfl, by simp [Accounted, created, Spec.apiStep]⟩
    | free => exact ⟨none, s, by simp [step, apiFree, hFree, Spec.apiStep], ⟨rfl, hlive⟩, rfl, by simp [Accounted, created, Spec.apiStep]⟩
    | freeNull => exact ⟨none, s, by simp [step, apiFree, Spec.apiStep], ⟨rfl, hlive⟩, rfl, by simp [Accounted, created, Spec.apiStep]⟩
    | update buf size => exact ⟨none, s, by simp [step, hUpdate, ctxUpdate, Spec.apiStep], ⟨rfl, hlive⟩, rfl, by simp [Accounted, created, Spec.apiStep]⟩
    | finalize out size => exact ⟨none, s, by simp [step, hFinalize, ctxFinalize, Spec.apiStep], ⟨rfl, hlive⟩, rfl, by simp [Accounted, created, Spec.apiStep]⟩
  | some p, some (h0, m), hlive =>
    obtain ⟨hp, hh0, c, hlive, hr⟩ := hlive
    have hget : getKey p s.live = some (.ctx c) := by simp [hlive, getKey]
    have hset : ∀ c', setKey p (.ctx c') s.live = (p, .ctx c') :: live0 := fun c' => by simp [hlive, setKey]
    have hsame : setKey p (.ctx c) s.live = s.live := by rw [hset, hlive]
    have keep : ApiRel A H live0 (some p) s ⟨some (h0, m), s.count⟩ := ⟨rfl, hp, hh0, c, hlive, hr⟩
    cases call with
    | init => exact ⟨some p, s, by simp [step, apiInitialize, hInitialize, ctxInitialize, Spec.apiStep], keep, rfl, by simp [Accounted, created, Spec.apiStep]⟩
    | initNull => exact ⟨some p, s, by simp [step, apiInitialize, ctxInitialize, Spec.apiStep], keep, rfl, by simp [Accounted, created, Spec.apiStep]⟩
    | free =>
      refine ⟨none, { s with live := live0, freed := (p, .ctx c) :: s.freed }, ?_, ⟨rfl, rfl⟩, rfl, by simp [Accounted, created, Spec.apiStep]⟩
      simp [step, apiFree, hFree, memFree, hget, Spec.apiStep]
      simp [hlive, eraseKey]
    | freeNull => exact ⟨some p, s, by simp [step, apiFree, Spec.apiStep], keep, rfl, by simp [Accounted, created, Spec.apiStep]⟩
    | update buf size =>
      cases buf with
      | none => exact ⟨some p, s, by simp [step, hUpdate, hget, ctxUpdate, Spec.apiStep, hsame], keep, rfl, by simp [Accounted, created, Spec.apiStep]⟩
      | some b =>
        by_cases hs : size ≤ ssizeMax
        · obtain ⟨c', e, hr'⟩ := ctxUpdate_ok L hh0 u scr hscr c b size hs (hv hs) hr
          refine ⟨some p, { s with live := (p, .ctx c') :: live0 }, ?_, ?_, rfl, by simp [Accounted, created, Spec.apiStep, *]⟩
          · simp [step, hUpdate, hget, e, Spec.apiStep, maxSize_eq, hs, hset]
          · simp only [Spec.apiStep, maxSize_eq, hs, if_true]
            exact ⟨rfl, hp, hh0, c', rfl, hr'⟩
        · refine ⟨some p, s, ?_, ?_, rfl, by simp [Accounted, created, Spec.apiStep, *]⟩
          · simp [step, hUpdate, hget, ctxUpdate, Spec.apiStep, maxSize_eq, hs, Nat.lt_of_not_le hs, hsame]
          · simp only [Spec.apiStep, maxSize_eq, hs, if_false]; exact keep
    | finalize out size =>
      cases out with
      | none => exact ⟨some p, s, by simp [step, hFinalize, hget, ctxFinalize, Spec.apiStep, hsame], keep, rfl, by simp [Accounted, created, Spec.apiStep]⟩
      | some o =>
        by_cases hs : A.hashSize ≤ size ∧ size ≤ ssizeMax
        · have e := ctxFinalize_ok L hh0 u scr hscr c o size hs.2 hs.1 (hv hs.2) hr
          refine ⟨some p, { s with live := (p, .ctx (zeroCtx A)) :: live0 }, ?_, ?_, rfl, by simp [Accounted, created, Spec.apiStep, *]⟩
          · simp [step, hFinalize, hget, e, Spec.apiStep, maxSize_eq, hs, hset]
          · simp only [Spec.apiStep, maxSize_eq, hs, and_self, if_true]
            exact ⟨rfl, hp, by simp, zeroCtx A, rfl, zeroCtx_rep L⟩
        · refine ⟨some p, s, ?_, ?_, rfl, by simp [Accounted, created, Spec.apiStep, *]⟩
          · by_cases h1 : size < A.hashSize
            · simp [step, hFinalize, hget, ctxFinalize, Spec.apiStep, maxSize_eq, hs, h1, hsame]
            · simp [step, hFinalize, hget, ctxFinalize, Spec.apiStep, maxSize_eq, hs, h1, show ssizeMax < size by omega, hsame]
          · simp only [Spec.apiStep, maxSize_eq, hs, if_false]; exact keep

theorem run_ok (L : Lawful A H enc) (u : Bool) (env : Env w) (live0 : List (Nat × Obj w)) :
    ∀ (calls : List (ApiCall × Scr w)) (slot : Option Nat) (s : St w) (a : ApiState w),
      (∀ c ∈ calls, c.1.Valid ∧ ScrOk A c.2) → ApiRel A H live0 slot s a →
      ∃ slot' s', run A u env calls slot s =
          .ok ((Spec.apiRun H A.hashSize (List.replicate A.nHash 0) env.allocOk (calls.map (·.1)) a).1, slot', s') ∧
        ApiRel A H live0 slot' s' (Spec.apiRun H A.hashSize (List.replicate A.nHash 0) env.allocOk (calls.map (·.1)) a).2 ∧
        s'.caller = s.caller ∧
        s'.freed.length + slot'.isSome.toNat = s.freed.length + slot.isSome.toNat +
          created ((calls.map (·.1)).zip (Spec.apiRun H A.hashSize (List.replicate A.nHash 0) env.allocOk (calls.map (·.1)) a).1)
  | [], slot, s, a, _, hrel => ⟨slot, s, rfl, hrel, rfl, rfl⟩
  | (c, scr) :: cs, slot, s, a, hv, hrel => by
    obtain ⟨slot1, s1, e1, r1, k1, f1⟩ := step_ok L u env live0 c scr slot s a (hv (c, scr) (by simp)).1 (hv (c, scr) (by simp)).2 hrel
    obtain ⟨slot2, s2, e2, r2, k2, f2⟩ := run_ok L u env live0 cs slot1 s1 _ (fun x hx => hv x (by simp [hx])) r1
    refine ⟨slot2, s2, ?_, r2, by rw [k2, k1], ?_⟩
    · simp only [run, e1, Res.ok_bind, e2, List.map_cons, Spec.apiRun]
      rfl
    · simp only [Accounted, created, Nat.add_zero] at f1
      simp only [List.map_cons, Spec.apiRun, List.zip_cons_cons, created]
      omega

end Model

