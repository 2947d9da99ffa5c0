import Verif.Proofs.BackendMulti
import Verif.Proofs.Python
import Mathlib.Data.List.Perm.Subperm
import Mathlib.Data.List.Nodup
/-! Many contexts in one memory, in every build. -/

namespace Model

open Spec (ApiCall Reply Kind maxSize accepted)

theorem Holds.append {σ : Type} {B : Backend} {p : Nat} {st : σ} {ent : List (Nat × BObj σ)} (h : Holds B [] p st ent) (base : List (Nat × BObj σ)) : Holds B base p st (ent ++ base) := by
  cases B with
  | direct b => simp only [Holds] at h ⊢; rw [h]; rfl
  | evpEmbedded => simp only [Holds] at h ⊢; rw [h]; rfl
  | evpAllocated =>
    obtain ⟨q, hq, h⟩ := h
    exact ⟨q, hq, by rw [h]; rfl⟩

theorem Holds.split {σ : Type} {B : Backend} {p : Nat} {st : σ} {base live : List (Nat × BObj σ)} (h : Holds B base p st live) : ∃ ent, Holds B [] p st ent ∧ live = ent ++ base := by
  cases B with
  | direct b => exact ⟨[(p, .ctx (some st) .null)], rfl, h⟩
  | evpEmbedded => exact ⟨[(p, .ctx (some st) .embedded)], rfl, h⟩
  | evpAllocated =>
    obtain ⟨q, hq, h⟩ := h
    exact ⟨[(q, .md (some st)), (p, .ctx none (.heap q))], ⟨q, hq, rfl⟩, h⟩

theorem Holds.nodup {σ : Type} {B : Backend} {p : Nat} {st : σ} {ent : List (Nat × BObj σ)} (h : Holds B [] p st ent) : (ent.map (·.1)).Nodup := by
  cases B with
  | direct b => simp only [Holds] at h; rw [h]; simp
  | evpEmbedded => simp only [Holds] at h; rw [h]; simp
  | evpAllocated =>
    obtain ⟨q, hq, rfl⟩ := h
    simpa using hq

/-- The objects of a variable. -/
def EntOk {σ : Type} (c : Choice) (P : σ → Prop) (slot : Option Nat) (ent : List (Nat × BObj σ)) : Prop :=
  match c, slot with
  | .crypto B, some p => ∃ st, P st ∧ Holds B [] p st ent
  | _, _ => ent = []

/-- The objects of all variables with a crypto library; `base`: other objects. -/
structure CryptoMulti (ch : Kind → Choice) (L : Kind → Library) (kinds : Nat → Kind) (base : (k : Kind) → List (Nat × BObj (L k).State)) (P : (i : Nat) → (L (kinds i)).State → Prop)
    (slots : Nat → Option Nat) (count calls : Nat) (live : (k : Kind) → List (Nat × BObj (L k).State)) (ent : (i : Nat) → List (Nat × BObj (L (kinds i)).State)) : Prop where
  wf : ∀ k, (⟨count, calls, live k⟩ : BSt (L k).State).Wf
  ok : ∀ i, EntOk (ch (kinds i)) (P i) (slots i) (ent i)
  inLive : ∀ i, ent i ⊆ live (kinds i)
  kept : ∀ k, base k ⊆ live k
  apart : ∀ i j, kinds i = kinds j → i ≠ j → ∀ n ∈ (ent i).map (·.1), n ∉ (ent j).map (·.1)
  other : ∀ i, ∀ n ∈ (ent i).map (·.1), n ∉ (base (kinds i)).map (·.1)
  all : ∀ k, ∀ n ∈ (live k).map (·.1), n ∈ (base k).map (·.1) ∨ ∃ i, kinds i = k ∧ n ∈ (ent i).map (·.1)

variable {ch : Kind → Choice} {L : Kind → Library} {kinds : Nat → Kind} {base : (k : Kind) → List (Nat × BObj (L k).State)}

theorem BSt.Wf.mono {σ : Type} {count calls count' calls' : Nat} {live : List (Nat × BObj σ)} (h : (⟨count, calls, live⟩ : BSt σ).Wf) (h1 : count ≤ count') (h2 : calls ≤ calls') : (⟨count', calls', live⟩ : BSt σ).Wf :=
  ⟨h.nodup, fun n hn he => Nat.lt_of_lt_of_le (h.even n hn he) (Nat.mul_le_mul_left 2 h1), fun n hn he => Nat.lt_of_lt_of_le (h.odd n hn he) (Nat.mul_le_mul_left 2 h2)⟩

theorem CryptoMulti.mono {P : (i : Nat) → (L (kinds i)).State → Prop} {slots : Nat → Option Nat} {count calls count' calls' : Nat} {live : (k : Kind) → List (Nat × BObj (L k).State)}
    {ent : (i : Nat) → List (Nat × BObj (L (kinds i)).State)} (h : CryptoMulti ch L kinds base P slots count calls live ent) (h1 : count ≤ count') (h2 : calls ≤ calls') :
    CryptoMulti ch L kinds base P slots count' calls' live ent :=
  ⟨fun k => (h.wf k).mono h1 h2, h.ok, h.inLive, h.kept, h.apart, h.other, h.all⟩

theorem nodup_of_keys {α : Type} {l : List (Nat × α)} (h : (l.map (·.1)).Nodup) : l.Nodup := List.Nodup.of_map _ h

theorem eq_of_keys {α : Type} {l : List (Nat × α)} (h : (l.map (·.1)).Nodup) {x y : Nat × α} (hx : x ∈ l) (hy : y ∈ l) (e : x.1 = y.1) : x = y := by
  have h1 := getKey_of_mem h (show (x.1, x.2) ∈ l from hx)
  have h2 := getKey_of_mem h (show (y.1, y.2) ∈ l from hy)
  rw [e, h2] at h1
  exact Prod.ext e (Option.some.inj h1).symm

/-- The objects of one variable, and the rest. -/
theorem exists_rest {α : Type} {ent live : List (Nat × α)} (he : ent.Nodup) (h : ent ⊆ live) : ∃ rest, live.Perm (ent ++ rest) := by
  obtain ⟨l, hl, hs⟩ := he.subperm h
  obtain ⟨rest, hr⟩ := hs.exists_perm_append
  exact ⟨rest, hr.trans (hl.append_right rest)⟩

/-- What one call on variable `i` does to the objects of all variables. -/
theorem CryptoMulti.set {P : (i : Nat) → (L (kinds i)).State → Prop} {slots : Nat → Option Nat} {count calls count' calls' : Nat} {live : (k : Kind) → List (Nat × BObj (L k).State)}
    {ent : (i : Nat) → List (Nat × BObj (L (kinds i)).State)} (h : CryptoMulti ch L kinds base P slots count calls live ent) (i : Nat) (P' : (L (kinds i)).State → Prop) (slot' : Option Nat)
    (ent' rest live' : List (Nat × BObj (L (kinds i)).State)) (hr : (live (kinds i)).Perm (ent i ++ rest)) (hl : live'.Perm (ent' ++ rest)) (he : EntOk (ch (kinds i)) P' slot' ent')
    (h1 : count ≤ count') (h2 : calls ≤ calls') (hw : (⟨count', calls', live'⟩ : BSt (L (kinds i)).State).Wf) :
    CryptoMulti ch L kinds base (Function.update P i P') (Function.update slots i slot') count' calls' (Function.update live (kinds i) live') (Function.update ent i ent') := by
  have hnd : ((ent i ++ rest).map (·.1)).Nodup := (hr.map _).nodup_iff.1 (h.wf (kinds i)).nodup
  have hnd' : ((ent' ++ rest).map (·.1)).Nodup := (hl.map _).nodup_iff.1 hw.nodup
  rw [List.map_append, List.nodup_append] at hnd hnd'
  -- objects with other numbers than those of variable `i` stay
  have stay : ∀ k, k = kinds i → ∀ E : List (Nat × BObj (L k).State), E ⊆ live k → (∀ n ∈ (ent i).map (·.1), n ∉ E.map (·.1)) → E ⊆ Function.update live (kinds i) live' k ∧ ∀ n ∈ ent'.map (·.1), n ∉ E.map (·.1) := by
    rintro k rfl E hE hd
    have hrest : E ⊆ rest := by
      intro e he
      rcases List.mem_append.1 (hr.mem_iff.1 (hE he)) with hx | hx
      · exact absurd (List.mem_map_of_mem he) (hd e.1 (List.mem_map_of_mem hx))
      · exact hx
    refine ⟨?_, fun n hn hm => ?_⟩
    · rw [Function.update_self]
      exact fun e he => hl.mem_iff.2 (List.mem_append_right _ (hrest he))
    · obtain ⟨e, he, rfl⟩ := List.mem_map.1 hm
      exact hnd'.2.2 _ hn _ (List.mem_map_of_mem (hrest he)) rfl
  refine ⟨fun k => ?_, fun j => ?_, fun j => ?_, fun k => ?_, fun j l hjl hne => ?_, fun j => ?_, fun k => ?_⟩
  · by_cases hk : k = kinds i
    · subst hk
      rw [Function.update_self]
      exact hw
    · rw [Function.update_of_ne hk]
      exact (h.wf k).mono h1 h2
  · by_cases hj : j = i
    · subst hj
      simp only [Function.update_self]
      exact he
    · simp only [Function.update_of_ne hj]
      exact h.ok j
  · by_cases hj : j = i
    · subst hj
      simp only [Function.update_self]
      exact fun e he => hl.mem_iff.2 (List.mem_append_left _ he)
    · simp only [Function.update_of_ne hj]
      by_cases hk : kinds j = kinds i
      · exact (stay _ hk _ (h.inLive j) (h.apart i j hk.symm (Ne.symm hj))).1
      · rw [Function.update_of_ne hk]
        exact h.inLive j
  · by_cases hk : k = kinds i
    · subst hk
      exact (stay _ rfl _ (h.kept _) (h.other i)).1
    · rw [Function.update_of_ne hk]
      exact h.kept k
  · by_cases hj : j = i
    · subst hj
      have hl : l ≠ j := Ne.symm hne
      simp only [Function.update_self, Function.update_of_ne hl]
      exact (stay _ hjl.symm _ (h.inLive l) (h.apart j l hjl hne)).2
    · simp only [Function.update_of_ne hj]
      by_cases hl : l = i
      · subst hl
        simp only [Function.update_self]
        intro n hn hm
        exact (stay _ hjl _ (h.inLive j) (h.apart l j hjl.symm (Ne.symm hj))).2 n hm hn
      · simp only [Function.update_of_ne hl]
        exact h.apart j l hjl hne
  · by_cases hj : j = i
    · subst hj
      simp only [Function.update_self]
      exact (stay _ rfl _ (h.kept _) (h.other j)).2
    · simp only [Function.update_of_ne hj]
      exact h.other j
  · intro n hn
    have old : ∀ n, n ∈ (live k).map (·.1) → (k = kinds i → n ∉ (ent i).map (·.1)) → n ∈ (base k).map (·.1) ∨ ∃ j, kinds j = k ∧ n ∈ (Function.update ent i ent' j).map (·.1) := by
      intro n hn hi
      refine (h.all k n hn).imp_right ?_
      rintro ⟨j, hj, hm⟩
      have hji : j ≠ i := by
        rintro rfl
        exact hi hj.symm hm
      exact ⟨j, hj, by rw [Function.update_of_ne hji]; exact hm⟩
    by_cases hk : k = kinds i
    · subst hk
      rw [Function.update_self, (hl.map _).mem_iff, List.map_append, List.mem_append] at hn
      rcases hn with hn | hn
      · exact .inr ⟨i, rfl, by rw [Function.update_self]; exact hn⟩
      · refine old n ?_ fun _ hm => hnd.2.2 _ hm _ hn rfl
        rw [(hr.map _).mem_iff, List.map_append, List.mem_append]
        exact .inr hn
    · rw [Function.update_of_ne hk] at hn
      exact old n hn fun e => absurd e hk

/-- The variable `i` forgets its context: its objects become others. -/
theorem CryptoMulti.forget {P : (i : Nat) → (L (kinds i)).State → Prop} {slots : Nat → Option Nat} {count calls : Nat} {live : (k : Kind) → List (Nat × BObj (L k).State)}
    {ent : (i : Nat) → List (Nat × BObj (L (kinds i)).State)} (h : CryptoMulti ch L kinds base P slots count calls live ent) (i : Nat) :
    CryptoMulti ch L kinds (Function.update base (kinds i) (ent i ++ base (kinds i))) P (Function.update slots i none) count calls live (Function.update ent i []) := by
  refine ⟨h.wf, fun j => ?_, fun j => ?_, fun k => ?_, fun j l hjl hne => ?_, fun j => ?_, fun k => ?_⟩
  · by_cases hj : j = i
    · subst hj
      simp only [Function.update_self]
      cases ch (kinds j) <;> rfl
    · simp only [Function.update_of_ne hj]
      exact h.ok j
  · by_cases hj : j = i
    · subst hj
      simp
    · rw [Function.update_of_ne hj]
      exact h.inLive j
  · by_cases hk : k = kinds i
    · subst hk
      rw [Function.update_self]
      exact List.append_subset.2 ⟨h.inLive i, h.kept _⟩
    · rw [Function.update_of_ne hk]
      exact h.kept k
  · by_cases hj : j = i
    · subst hj
      simp
    · by_cases hl : l = i
      · subst hl
        simp
      · rw [Function.update_of_ne hj, Function.update_of_ne hl]
        exact h.apart j l hjl hne
  · by_cases hj : j = i
    · subst hj
      simp
    · rw [Function.update_of_ne hj]
      have aux : ∀ k, k = kinds i → ∀ n, n ∉ (ent i).map (·.1) → n ∉ (base k).map (·.1) → n ∉ (Function.update base (kinds i) (ent i ++ base (kinds i)) k).map (·.1) := by
        rintro k rfl n h1 h2
        rw [Function.update_self, List.map_append, List.mem_append]
        exact fun h => h.elim h1 h2
      intro n hn
      by_cases hk : kinds j = kinds i
      · exact aux _ hk n (h.apart j i hk hj n hn) (h.other j n hn)
      · rw [Function.update_of_ne hk]
        exact h.other j n hn
  · intro n hn
    by_cases hk : k = kinds i
    · subst hk
      rw [Function.update_self, List.map_append, List.mem_append]
      rcases h.all _ n hn with hb | ⟨j, hj, hm⟩
      · exact .inl (.inr hb)
      · by_cases hji : j = i
        · subst hji
          exact .inl (.inl hm)
        · exact .inr ⟨j, hj, by rw [Function.update_of_ne hji]; exact hm⟩
    · rw [Function.update_of_ne hk]
      refine (h.all k n hn).imp_right ?_
      rintro ⟨j, hj, hm⟩
      refine ⟨j, hj, ?_⟩
      rw [Function.update_of_ne fun e => hk (by rw [← hj, e])]
      exact hm

/-- One call on a variable with a crypto library. -/
theorem CryptoMulti.step {Rep : (k : Kind) → (L k).State → List Byte → Prop} {acc : Nat → Option (List Byte)} {slots : Nat → Option Nat} {count calls : Nat} {live : (k : Kind) → List (Nat × BObj (L k).State)}
    {ent : (i : Nat) → List (Nat × BObj (L (kinds i)).State)} (h : CryptoMulti ch L kinds base (fun i => Accepted (Rep (kinds i)) (acc i)) slots count calls live ent) (i : Nat) (B : Backend)
    (hB : ch (kinds i) = .crypto B) (hL : Contract (L (kinds i)) (kinds i) (Rep (kinds i))) (hT : Tame (L (kinds i)) (kinds i).hashSize) (al : Nat → Bool) (c : ApiCall) (hv : c.Valid) :
    ∃ r slot' s' ent', bStep B (L (kinds i)) (kinds i).hashSize al c (slots i) ⟨count, calls, live (kinds i)⟩ = .ok (r, slot', s') ∧ s'.count = count + attemptsOf c (slots i) ∧
      CryptoMulti ch L kinds base (fun j => Accepted (Rep (kinds j)) (Function.update acc i (acceptedNext c r (acc i)) j)) (Function.update slots i slot') s'.count s'.calls
        (Function.update live (kinds i) s'.live) ent' ∧
      StepFacts (kinds i) B.maxUpdate (Reliable (L (kinds i))) (al count) (acc i) c (slots i) r slot' := by
  have hok := h.ok i
  rw [hB] at hok
  have hnd : (ent i).Nodup := by
    revert hok
    cases slots i with
    | none => intro hok; rw [show ent i = [] from hok]; exact List.nodup_nil
    | some p => rintro ⟨st, -, hH⟩; exact nodup_of_keys hH.nodup
  obtain ⟨rest, hr⟩ := exists_rest hnd (h.inLive i)
  have hinv : SlotInv B rest (Accepted (Rep (kinds i)) (acc i)) (slots i) (⟨count, calls, ent i ++ rest⟩ : BSt (L (kinds i)).State) := by
    revert hok
    cases slots i with
    | none => intro hok; rw [show ent i = [] from hok]; rfl
    | some p => rintro ⟨st, hP, hH⟩; exact ⟨st, hH.append rest, hP⟩
  obtain ⟨r, slot', t', e, hinv', hcount, hfacts⟩ := bStep_head hL hT B al rest c hv (acc i) (slots i) _ hinv
  have hsim : Sim (⟨count, calls, live (kinds i)⟩ : BSt (L (kinds i)).State) ⟨count, calls, ent i ++ rest⟩ := ⟨rfl, rfl, hr, h.wf _⟩
  obtain ⟨⟨r1, slot1, s'⟩, e1, hr1, hs1, hs'⟩ := (bStep_sim B (L (kinds i)) (kinds i).hashSize al c (slots i) hsim).ok e
  obtain rfl : r1 = r := hr1
  obtain rfl : slot1 = slot' := hs1
  obtain ⟨ent', he', hl'⟩ : ∃ ent', EntOk (ch (kinds i)) (Accepted (Rep (kinds i)) (acceptedNext c r1 (acc i))) slot1 ent' ∧ t'.live = ent' ++ rest := by
    rw [hB]
    revert hinv'
    cases slot1 with
    | none => intro hx; exact ⟨[], rfl, hx⟩
    | some p =>
      rintro ⟨st, hH, hP⟩
      obtain ⟨ent', h1, h2⟩ := hH.split
      exact ⟨ent', ⟨st, hP, h1⟩, h2⟩
  have hc1 : s'.count = t'.count := hs'.count
  have hcount' : s'.count = count + attemptsOf c (slots i) := hc1.trans hcount
  refine ⟨r1, slot1, s', Function.update ent i ent', e1, hcount', ?_, hfacts⟩
  have hset := h.set i (Accepted (Rep (kinds i)) (acceptedNext c r1 (acc i))) slot1 ent' rest s'.live hr (hl' ▸ hs'.perm) he' (by omega)
    (bStep_calls B (L (kinds i)) (kinds i).hashSize al c (slots i) ⟨count, calls, live (kinds i)⟩ _ e1) hs'.wf
  have hP : (fun j => Accepted (Rep (kinds j)) (Function.update acc i (acceptedNext c r1 (acc i)) j)) =
      Function.update (fun j => Accepted (Rep (kinds j)) (acc j)) i (Accepted (Rep (kinds i)) (acceptedNext c r1 (acc i))) := by
    funext j
    by_cases hj : j = i
    · subst hj; simp
    · simp [Function.update_of_ne hj]
  rw [hP]
  exact hset

/-- A built-in context: what the reply can be. -/
theorem kindStep_facts (k : Kind) (u : Bool) (env : Env k.width) (al : Nat → Bool) (c : ApiCall) (scr : Scr k.width) (slot : Option Nat) (s : St k.width) (a : Option (List (BitVec k.width) × List Byte))
    (acc : Option (List Byte)) (hrel : VarRel (algOf k) k.len64 slot s a) (hst : ∀ h0 msg y, a = some (h0, msg) → acc = some y → h0 = k.len64.iv ∧ msg = y) {slot' : Option Nat} {s' : St k.width}
    (e : step (algOf k) u { env with allocOk := al } c scr slot s = .ok ((kindStep k al c a s.count).1, slot', s')) (hrel' : VarRel (algOf k) k.len64 slot' s' (kindStep k al c a s.count).2.slot) :
    StepFacts k maxSize True (al s.count) acc c slot (kindStep k al c a s.count).1 slot' ∧
      ∀ h0 msg y, (kindStep k al c a s.count).2.slot = some (h0, msg) → acceptedNext c (kindStep k al c a s.count).1 acc = some y → h0 = k.len64.iv ∧ msg = y := by
  have hsame : (∃ b n, c = .update b n) ∨ (∃ b n, c = .finalize b n) → slot' = slot := by
    rintro (⟨b, n, rfl⟩ | ⟨b, n, rfl⟩)
    · exact (depUpdate_of_step (env := { env with scr := scr }) e).2
    · exact (depFinalize_of_step (env := { env with scr := scr }) e).2
  cases slot with
  | none =>
    obtain rfl : a = none := by
      revert hrel
      cases a with
      | none => exact fun _ => rfl
      | some x => exact False.elim
    have hnone : (kindStep k al c none s.count).2.slot = none → slot' = none := by
      intro h
      rw [h] at hrel'
      cases slot' with
      | none => rfl
      | some q => exact hrel'.elim
    cases c with
    | init =>
      by_cases hal : al s.count = true
      · have h1 : kindStep k al .init none s.count = (⟨1, none⟩, ⟨some (k.len64.iv, []), s.count + 1⟩) := by simp [kindStep, Spec.apiStep, hal]
        rw [h1] at hrel' ⊢
        refine ⟨⟨rfl, .inl ⟨rfl, hal, ?_⟩⟩, fun h0 msg y h2 h3 => ?_⟩
        · rintro rfl
          exact hrel'.elim
        · simp only [Option.some.injEq, Prod.mk.injEq] at h2
          simp only [acceptedNext, accepted, if_true, Option.some.injEq] at h3
          exact ⟨h2.1.symm, h2.2.symm.trans h3⟩
      · have h1 : kindStep k al .init none s.count = (⟨-1, none⟩, ⟨none, s.count + 1⟩) := by simp [kindStep, Spec.apiStep, hal]
        rw [h1] at hnone ⊢
        exact ⟨⟨rfl, .inr ⟨rfl, hnone rfl, .inl (by simpa using hal)⟩⟩, fun _ _ _ h2 => by cases h2⟩
    | initNull => exact ⟨⟨rfl, hnone rfl⟩, fun _ _ _ h2 => by cases h2⟩
    | free => exact ⟨⟨rfl, hnone rfl⟩, fun _ _ _ h2 => by cases h2⟩
    | freeNull => exact ⟨⟨rfl, hnone rfl⟩, fun _ _ _ h2 => by cases h2⟩
    | update buf size => exact ⟨⟨rfl, hnone rfl⟩, fun _ _ _ h2 => by cases h2⟩
    | finalize out size => exact ⟨⟨rfl, hnone rfl⟩, fun _ _ _ h2 => by cases h2⟩
  | some p =>
    obtain ⟨⟨h0, msg⟩, rfl⟩ : ∃ x, a = some x := by
      revert hrel
      cases a with
      | none => exact False.elim
      | some x => exact fun _ => ⟨x, rfl⟩
    have hlen : h0.length = k.words := by rw [← algOf_nHash]; exact hrel.2.1
    have hkeep : ∀ y, acc = some y → h0 = k.len64.iv ∧ msg = y := fun y => hst h0 msg y rfl
    cases c with
    | init =>
      simp only [step, apiInitialize, hInitialize, ctxInitialize, Res.ok_bind, Res.pure_eq, Res.ok.injEq, Prod.mk.injEq] at e
      refine ⟨⟨rfl, e.2.1.symm⟩, fun h1 m1 y h2 h3 => ?_⟩
      simp only [kindStep, Spec.apiStep, Option.some.injEq, Prod.mk.injEq] at h2
      obtain ⟨rfl, rfl⟩ := h2
      exact hkeep y (by simpa [kindStep, Spec.apiStep, acceptedNext, accepted] using h3)
    | initNull =>
      simp only [step, apiInitialize, ctxInitialize, Res.ok_bind, Res.pure_eq, Res.ok.injEq, Prod.mk.injEq] at e
      refine ⟨⟨rfl, e.2.1.symm⟩, fun h1 m1 y h2 h3 => ?_⟩
      simp only [kindStep, Spec.apiStep, Option.some.injEq, Prod.mk.injEq] at h2
      obtain ⟨rfl, rfl⟩ := h2
      exact hkeep y h3
    | free =>
      refine ⟨⟨rfl, ?_⟩, fun _ _ _ h2 => by cases h2⟩
      cases slot' with
      | none => rfl
      | some q => exact hrel'.elim
    | freeNull =>
      simp only [step, apiFree, Res.ok_bind, Res.pure_eq, Res.ok.injEq, Prod.mk.injEq] at e
      refine ⟨⟨rfl, e.2.1.symm⟩, fun h1 m1 y h2 h3 => ?_⟩
      simp only [kindStep, Spec.apiStep, Option.some.injEq, Prod.mk.injEq] at h2
      obtain ⟨rfl, rfl⟩ := h2
      exact hkeep y h3
    | update buf size =>
      have hs' := hsame (.inl ⟨_, _, rfl⟩)
      cases buf with
      | none =>
        refine ⟨⟨hs', rfl, .inr rfl, fun h => absurd rfl h⟩, fun h1 m1 y h2 h3 => ?_⟩
        simp only [kindStep, Spec.apiStep, Option.some.injEq, Prod.mk.injEq] at h2
        obtain ⟨rfl, rfl⟩ := h2
        exact hkeep y h3
      | some b =>
        by_cases hs : size ≤ maxSize
        · have h1 : kindStep k al (.update (some b) size) (some (h0, msg)) s.count = (⟨1, none⟩, ⟨some (h0, msg ++ b.take size), s.count⟩) := by simp [kindStep, Spec.apiStep, hs]
          rw [h1]
          refine ⟨⟨hs', rfl, .inl ⟨rfl, by simp, hs⟩, fun _ _ _ => rfl⟩, fun g0 m1 y h2 h3 => ?_⟩
          simp only [Option.some.injEq, Prod.mk.injEq] at h2
          obtain ⟨rfl, rfl⟩ := h2
          cases acc with
          | none => simp [acceptedNext, accepted] at h3
          | some z =>
            obtain ⟨r1, r2⟩ := hkeep z rfl
            refine ⟨r1, ?_⟩
            simpa [acceptedNext, accepted, r2] using h3
        · have h1 : kindStep k al (.update (some b) size) (some (h0, msg)) s.count = (⟨-1, none⟩, ⟨some (h0, msg), s.count⟩) := by simp [kindStep, Spec.apiStep, hs]
          rw [h1]
          exact ⟨⟨hs', rfl, .inr rfl, fun _ h => absurd h hs⟩, fun g0 m1 y h2 h3 => by simp [acceptedNext, accepted] at h3⟩
    | finalize out size =>
      have hs' := hsame (.inr ⟨_, _, rfl⟩)
      cases out with
      | none =>
        refine ⟨⟨rfl, hs'⟩, fun h1 m1 y h2 h3 => ?_⟩
        simp only [kindStep, Spec.apiStep, Option.some.injEq, Prod.mk.injEq] at h2
        obtain ⟨rfl, rfl⟩ := h2
        exact hkeep y h3
      | some o =>
        refine ⟨?_, fun g0 m1 y h2 h3 => by simp [acceptedNext, accepted] at h3⟩
        have h32 : 2 ^ 32 ≤ maxSize := by decide
        by_cases hs : k.hashSize ≤ size ∧ size ≤ maxSize
        · have h1 : (kindStep k al (.finalize (some o) size) (some (h0, msg)) s.count).1 = ⟨1, some (k.len64.digestFrom h0 msg ++ o.drop k.hashSize)⟩ := by simp [kindStep, Spec.apiStep, hs]
          rw [h1]
          refine ⟨hs', .inl ⟨rfl, hs⟩, fun _ _ _ => rfl, .inr ⟨hs.1, _, digestFrom_length k h0 msg hlen, rfl, fun _ m hm hl => ?_⟩⟩
          obtain ⟨rfl, rfl⟩ := hkeep m hm
          exact len64_digest k msg (lengthOk_of_lt k hl)
        · have h1 : (kindStep k al (.finalize (some o) size) (some (h0, msg)) s.count).1 = ⟨-1, some o⟩ := by simp [kindStep, Spec.apiStep, hs]
          rw [h1]
          exact ⟨hs', .inr rfl, fun _ h2 h3 => absurd ⟨h2, by omega⟩ hs, .inl ⟨rfl, rfl⟩⟩

theorem kindStep_attempts (k : Kind) (al : Nat → Bool) (c : ApiCall) (slot : Option Nat) {s : St k.width} (a : Option (List (BitVec k.width) × List Byte)) (n : Nat) (h : VarRel (algOf k) k.len64 slot s a) :
    (kindStep k al c a n).2.attempts = n + attemptsOf c slot := by
  cases slot with
  | none =>
    cases a with
    | some x => exact h.elim
    | none =>
      cases c with
      | init => simp only [kindStep, Spec.apiStep, attemptsOf]; split <;> rfl
      | _ => rfl
  | some p =>
    cases a with
    | none => exact h.elim
    | some x =>
      obtain ⟨h0, msg⟩ := x
      cases c with
      | update b n =>
        cases b with
        | none => rfl
        | some b => simp only [kindStep, Spec.apiStep, attemptsOf]; split <;> rfl
      | finalize b n =>
        cases b with
        | none => rfl
        | some b => simp only [kindStep, Spec.apiStep, attemptsOf]; split <;> rfl
      | _ => rfl

/-- The variables of built-in algorithms. -/
def builtinSlots (ch : Kind → Choice) (kinds : Nat → Kind) (slots : Nat → Option Nat) : Nat → Option Nat := fun i => if ch (kinds i) = .builtin then slots i else none

theorem builtinSlots_builtin {i : Nat} (h : ch (kinds i) = .builtin) (slots : Nat → Option Nat) (slot : Option Nat) :
    builtinSlots ch kinds (Function.update slots i slot) = Function.update (builtinSlots ch kinds slots) i slot := by
  funext j
  by_cases hj : j = i
  · subst hj; simp [builtinSlots, h]
  · simp [builtinSlots, Function.update_of_ne hj]

theorem builtinSlots_crypto {i : Nat} (h : ch (kinds i) ≠ .builtin) (slots : Nat → Option Nat) (slot : Option Nat) :
    builtinSlots ch kinds (Function.update slots i slot) = builtinSlots ch kinds slots := by
  funext j
  by_cases hj : j = i
  · subst hj; simp [builtinSlots, h]
  · simp [builtinSlots, Function.update_of_ne hj]

/-- The memory of a build: every variable has its own objects, and represents the message `acc` if that is known. `mbase`, `base`: objects that no variable refers to. -/
structure MixMulti (ch : Kind → Choice) (L : Kind → Library) (Rep : (k : Kind) → (L k).State → List Byte → Prop) (kinds : Nat → Kind) (mbase : Nat → List Nat) (base : (k : Kind) → List (Nat × BObj (L k).State))
    (slots : Nat → Option Nat) (m : MixedMem L) (acc : Nat → Option (List Byte)) : Prop where
  builtin : ∃ a, MultiRel kinds (builtinSlots ch kinds slots) m.mem a ∧ MemOk kinds (builtinSlots ch kinds slots) m.mem mbase ∧
    ∀ i, ch (kinds i) = .builtin → ∀ h0 msg y, a i = some (h0, msg) → acc i = some y → h0 = (kinds i).len64.iv ∧ msg = y
  crypto : ∃ ent, CryptoMulti ch L kinds base (fun i => Accepted (Rep (kinds i)) (acc i)) slots m.mem.count m.calls m.live ent

variable {Rep : (k : Kind) → (L k).State → List Byte → Prop} {mbase : Nat → List Nat}

theorem CryptoMulti.builtin {P P' : (i : Nat) → (L (kinds i)).State → Prop} {slots : Nat → Option Nat} {count calls : Nat} {live : (k : Kind) → List (Nat × BObj (L k).State)}
    {ent : (i : Nat) → List (Nat × BObj (L (kinds i)).State)} (h : CryptoMulti ch L kinds base P slots count calls live ent) (i : Nat) (hi : ch (kinds i) = .builtin) (slot' : Option Nat)
    (hP : ∀ j, j ≠ i → P' j = P j) : CryptoMulti ch L kinds base P' (Function.update slots i slot') count calls live ent := by
  refine ⟨h.wf, fun j => ?_, h.inLive, h.kept, h.apart, h.other, h.all⟩
  by_cases hj : j = i
  · subst hj
    have := h.ok j
    rw [hi] at this ⊢
    exact this
  · rw [Function.update_of_ne hj, hP j hj]
    exact h.ok j

theorem multiRel_count {slots : Nat → Option Nat} {mem : Mem} {a : (i : Nat) → Option (List (BitVec (kinds i).width) × List Byte)} (h : MultiRel kinds slots mem a) (hM : MemOk kinds slots mem mbase) (n : Nat) (hn : mem.count ≤ n) :
    MultiRel kinds slots { mem with count := n } a ∧ MemOk kinds slots { mem with count := n } mbase := by
  refine ⟨⟨fun i => ?_, h.2⟩, fun w => ?_⟩
  · have := h.1 i
    revert this
    unfold VarRel
    cases slots i <;> cases a i <;> simp only [imp_self]
    rintro ⟨h1, h2⟩
    exact ⟨Nat.lt_of_lt_of_le h1 hn, h2⟩
  · obtain ⟨h1, h2, h3⟩ := hM w
    exact ⟨h1, fun p hp => Nat.lt_of_lt_of_le (h2 p hp) hn, h3⟩

/-- The largest update that never fails on account of its size. -/
def Choice.limit : Choice → Nat
  | .builtin => maxSize
  | .crypto B => B.maxUpdate

theorem StepFacts.weaken {k : Kind} {limit limit' : Nat} {Good Good' : Prop} {al : Bool} {acc : Option (List Byte)} {c : ApiCall} {slot : Option Nat} {r : Reply} {slot' : Option Nat}
    (h : StepFacts k limit Good al acc c slot r slot') (hl : limit' ≤ limit) (hg : Good' → Good) : StepFacts k limit' Good' al acc c slot r slot' := by
  cases c with
  | init =>
    cases slot with
    | none =>
      refine ⟨h.1, h.2.imp id ?_⟩
      rintro ⟨h1, h2, h3⟩
      exact ⟨h1, h2, h3.imp id fun h4 h5 => h4 (hg h5)⟩
    | some p => exact h
  | initNull => exact h
  | free => exact h
  | freeNull => exact h
  | update b n =>
    cases slot with
    | none => exact h
    | some p => exact ⟨h.1, h.2.1, h.2.2.1, fun h1 h2 h3 => h.2.2.2 h1 (Nat.le_trans h2 hl) (hg h3)⟩
  | finalize o n =>
    cases slot with
    | none => exact h
    | some p =>
      cases o with
      | none => exact h
      | some o => exact ⟨h.1, h.2.1, fun h3 => h.2.2.1 (hg h3), h.2.2.2⟩

/-- One call on one of many variables, in any build. -/
theorem mixed_step (hL : ∀ k, ch k ≠ .builtin → Contract (L k) k (Rep k)) (htame : ∀ k, ch k ≠ .builtin → Tame (L k) k.hashSize) {T : Tool} (i : Nat) (c : ApiCall) (n : Nat)
    (hj : Kind.Junk (kinds i) (T.scr (kinds i) n)) (hv : c.Valid) {slots : Nat → Option Nat} {m : MixedMem L} {acc : Nat → Option (List Byte)} (h : MixMulti ch L Rep kinds mbase base slots m acc) :
    ∃ r slot' m', (Contexts.mixed ch L T).call (kinds i) c n (slots i) m = .ok (r, slot', m') ∧ m'.mem.count = m.mem.count + attemptsOf c (slots i) ∧
      MixMulti ch L Rep kinds mbase base (Function.update slots i slot') m' (Function.update acc i (acceptedNext c r (acc i))) ∧
      StepFacts (kinds i) (ch (kinds i)).limit (ch (kinds i) ≠ .builtin → Reliable (L (kinds i))) (T.alloc m.mem.count) (acc i) c (slots i) r slot' := by
  obtain ⟨⟨a, hrel, hmem, hst⟩, ent, hcr⟩ := h
  cases hk : ch (kinds i) with
  | builtin =>
    obtain ⟨slot', s', e, hrel', hmem'⟩ := mem_step hmem hrel (T.unrolled (kinds i)) T.alloc ⟨fun k => T.envs k.width, T.hashJunk, T.hashJunk⟩ i c hv (T.scr (kinds i) n) hj
    obtain ⟨slot2, s2, e2, -, hatt, hge, -⟩ := multi_step kinds (T.unrolled (kinds i)) T.alloc (fun i => T.envs (kinds i).width) i c (T.scr (kinds i) n) _ m.mem a hv hj hrel
    have e2' := e
    erw [e2] at e2'
    simp only [Res.ok.injEq, Prod.mk.injEq, true_and] at e2'
    obtain ⟨rfl, rfl⟩ := e2'
    have hview : (m.mem.put (kinds i).width s2).view (kinds i).width = s2 := by simp only [Mem.view, Mem.put, Function.update_self]
    have hvr := hrel'.1 i
    rw [Function.update_self, Function.update_self, hview] at hvr
    obtain ⟨hf, hst'⟩ := kindStep_facts (kinds i) (T.unrolled (kinds i)) (T.envs (kinds i).width) T.alloc c (T.scr (kinds i) n) _ (m.mem.view (kinds i).width) (a i) (acc i) (hrel.1 i) (hst i hk) e hvr
    have hs0 : builtinSlots ch kinds slots i = slots i := by simp [builtinSlots, hk]
    rw [hs0] at e hf
    have hcount : s2.count = m.mem.count + attemptsOf c (slots i) := by
      rw [hatt]
      have := hrel.1 i
      rw [hs0] at this
      exact kindStep_attempts (kinds i) T.alloc c (slots i) (a i) m.mem.count this
    refine ⟨_, slot2, { m with mem := m.mem.put (kinds i).width s2 }, ?_, hcount, ⟨⟨Function.update a i (kindStep (kinds i) T.alloc c (a i) m.mem.count).2.slot, ?_, ?_, ?_⟩, ent, ?_⟩, hf.weaken (Nat.le_refl _) (fun _ => trivial)⟩
    · simp only [Contexts.mixed, hk, Contexts.builtin]
      erw [e]
      rfl
    · rw [builtinSlots_builtin hk]
      exact hrel'
    · rw [builtinSlots_builtin hk]
      exact hmem'
    · intro j hj'
      by_cases hji : j = i
      · subst hji
        rw [Function.update_self, Function.update_self]
        exact hst'
      · rw [Function.update_of_ne hji, Function.update_of_ne hji]
        exact hst j hj'
    · refine (hcr.mono hge (Nat.le_refl _)).builtin i hk slot2 fun j hji => ?_
      rw [Function.update_of_ne hji]
  | crypto B =>
    have hne : ch (kinds i) ≠ .builtin := by rw [hk]; simp
    obtain ⟨r, slot', s', ent', e, hge, hcr', hf⟩ := hcr.step i B hk (hL _ hne) (htame _ hne) T.alloc c hv
    have hle : m.mem.count ≤ s'.count := by omega
    obtain ⟨g1, g2⟩ := multiRel_count hrel hmem s'.count hle
    refine ⟨r, slot', { mem := { m.mem with count := s'.count }, calls := s'.calls, live := Function.update m.live (kinds i) s'.live }, by simp only [Contexts.mixed, hk, e, Res.ok_bind, Res.pure_eq], hge,
      ⟨⟨a, ?_, ?_, ?_⟩, ent', hcr'⟩, hf.weaken (Nat.le_refl _) fun h => h (by simp)⟩
    · rw [builtinSlots_crypto hne]
      exact g1
    · rw [builtinSlots_crypto hne]
      exact g2
    · intro j hj'
      have hji : j ≠ i := by
        rintro rfl
        exact hne hj'
      rw [Function.update_of_ne hji]
      exact hst j hj'

/-- Objects of a memory have distinct numbers, and their numbers come from the counters. -/
structure MixedMem.Wf {L : Kind → Library} (m : MixedMem L) : Prop where
  keys : ∀ w, ((m.mem.live w).map (·.1)).Nodup
  fresh : ∀ w, ∀ p ∈ (m.mem.live w).map (·.1), p < m.mem.count
  crypto : ∀ k, (⟨m.mem.count, m.calls, m.live k⟩ : BSt (L k).State).Wf

/-- Before any context exists. -/
theorem mixMulti_start {m : MixedMem L} (hm : m.Wf) (acc : Nat → Option (List Byte)) : MixMulti ch L Rep kinds (fun w => (m.mem.live w).map (·.1)) m.live (fun _ => none) m acc := by
  have hb : builtinSlots ch kinds (fun _ => none) = fun _ => none := by funext i; simp [builtinSlots]
  refine ⟨⟨fun _ => none, ?_, ?_, fun _ _ _ _ _ h => by cases h⟩, fun _ => [], hm.crypto, fun i => ?_, fun _ => by simp, fun _ => List.Subset.refl _, fun _ _ _ _ _ h => by simp at h, fun _ _ h => by simp at h, fun k n hn => .inl hn⟩
  · rw [hb]
    exact ⟨fun _ => trivial, fun _ _ _ h => by cases h⟩
  · rw [hb]
    exact fun w => ⟨hm.keys w, hm.fresh w, fun p => by simp, fun _ _ _ _ => by simp⟩
  · cases ch (kinds i) <;> rfl

theorem perm_of_keys {α : Type} {l l' : List (Nat × α)} (h : (l.map (·.1)).Nodup) (h' : (l'.map (·.1)).Nodup) (hs : l' ⊆ l) (hk : ∀ n ∈ l.map (·.1), n ∈ l'.map (·.1)) : l.Perm l' := by
  refine (List.perm_ext_iff_of_nodup (nodup_of_keys h) (nodup_of_keys h')).2 fun x => ⟨fun hx => ?_, fun hx => hs hx⟩
  obtain ⟨y, hy, e⟩ := List.mem_map.1 (hk _ (List.mem_map_of_mem hx))
  rw [eq_of_keys h hx (hs hy) e.symm]
  exact hy

/-- After all contexts are released. -/
theorem mixMulti_end {m : MixedMem L} {acc : Nat → Option (List Byte)} (hb : ∀ w, (mbase w).Nodup) (hb' : ∀ k, ((base k).map (·.1)).Nodup) (h : MixMulti ch L Rep kinds mbase base (fun _ => none) m acc) :
    (∀ w, ((m.mem.live w).map (·.1)).Perm (mbase w)) ∧ ∀ k, (m.live k).Perm (base k) := by
  obtain ⟨⟨a, -, hmem, -⟩, ent, hcr⟩ := h
  have hs : builtinSlots ch kinds (fun _ => none) = fun _ => none := by funext i; simp [builtinSlots]
  rw [hs] at hmem
  refine ⟨fun w => ?_, fun k => ?_⟩
  · obtain ⟨h1, -, h3, -⟩ := hmem w
    refine (List.perm_ext_iff_of_nodup h1 (hb w)).2 fun p => ?_
    rw [h3]
    simp
  · refine perm_of_keys (hcr.wf k).nodup (hb' k) (hcr.kept k) fun n hn => ?_
    rcases hcr.all k n hn with h1 | ⟨i, -, h2⟩
    · exact h1
    · have := hcr.ok i
      have h0 : ent i = [] := by
        revert this
        cases ch (kinds i) <;> exact id
      rw [h0] at h2
      simp at h2

end Model
