import Verif.Model.Multi
import Verif.Proofs.Kinds
/-! Independence of contexts. -/

namespace Model

open Spec (Kind IterHash ApiCall Reply ApiState)

theorem getKey_setKey_ne {α} (p q : Nat) (o : α) (h : q ≠ p) : ∀ l : List (Nat × α), getKey q (setKey p o l) = getKey q l
  | [] => rfl
  | e :: t => by
    simp only [setKey]
    split
    · rename_i he
      subst he
      simp [getKey, Ne.symm h]
    · simp only [getKey, getKey_setKey_ne p q o h t]

theorem getKey_setKey {α} (p : Nat) (o o' : α) : ∀ l : List (Nat × α), getKey p l = some o' → getKey p (setKey p o l) = some o
  | e :: t, h => by
    simp only [setKey]
    split
    · simp [getKey]
    · rename_i he
      simp only [getKey, he, if_false] at h ⊢
      exact getKey_setKey p o o' t h

theorem getKey_eraseKey_ne {α} (p q : Nat) (h : q ≠ p) : ∀ l : List (Nat × α), getKey q (eraseKey p l) = getKey q l
  | [] => rfl
  | e :: t => by
    simp only [eraseKey]
    split
    · rename_i he
      subst he
      simp [getKey, Ne.symm h]
    · simp only [getKey, getKey_eraseKey_ne p q h t]

theorem keys_setKey {α} (p : Nat) (o : α) : ∀ l : List (Nat × α), (setKey p o l).map (·.1) = l.map (·.1)
  | [] => rfl
  | e :: t => by
    simp only [setKey]
    split
    · rename_i he
      simp [he]
    · simp [keys_setKey p o t]

theorem keys_eraseKey {α} (p : Nat) : ∀ l : List (Nat × α), (eraseKey p l).map (·.1) = (l.map (·.1)).erase p
  | [] => rfl
  | e :: t => by
    simp only [eraseKey, List.map_cons]
    split
    · rename_i he
      rw [he, List.erase_cons_head]
    · rename_i he
      rw [List.map_cons, keys_eraseKey p t, List.erase_cons_tail (by simpa using he)]

/-- The live objects are that of a variable and some others. -/
def Owns (slot : Option Nat) {w} (s : St w) (rest : List Nat) : Prop := (s.live.map (·.1)).Perm (slot.toList ++ rest)

variable {w : Nat} {A : Alg w} {H : IterHash w} {enc : Nat → List Byte}

/-- The variable `slot` represents the abstract context `b`, wherever its object is in the heap. -/
def VarRel (A : Alg w) (H : IterHash w) (slot : Option Nat) (s : St w) (b : Option (List (BitVec w) × List Byte)) : Prop :=
  match slot, b with
  | none, none => True
  | some p, some (h0, m) => p < s.count ∧ h0.length = A.nHash ∧ ∃ c, getKey p s.live = some (.ctx c) ∧ Rep A H h0 m c
  | _, _ => False

/-- A call affects its own context only. -/
theorem step_frame (L : Lawful A H enc) (u : Bool) (env : Env w) (call : ApiCall) (scr : Scr w) (slot : Option Nat) (s : St w)
    (b : Option (List (BitVec w) × List Byte)) (hv : call.Valid) (hscr : ScrOk A scr) (hrel : VarRel A H slot s b) :
    ∃ slot' s', step A u env call scr slot s =
        .ok ((Spec.apiStep H A.hashSize (List.replicate A.nHash 0) env.allocOk call ⟨b, s.count⟩).1, slot', s') ∧
      VarRel A H slot' s' (Spec.apiStep H A.hashSize (List.replicate A.nHash 0) env.allocOk call ⟨b, s.count⟩).2.slot ∧
      s'.count = (Spec.apiStep H A.hashSize (List.replicate A.nHash 0) env.allocOk call ⟨b, s.count⟩).2.attempts ∧
      (slot' = slot ∨ slot' = none ∨ slot' = some s.count) ∧
      (∀ q, q < s.count → slot ≠ some q → getKey q s'.live = getKey q s.live) ∧ ∀ rest, Owns slot s rest → Owns slot' s' rest := by
  have hset : ∀ (p : Nat) (o : Obj w) rest, Owns (some p) s rest → Owns (some p) { s with live := setKey p o s.live } rest := by
    intro p o rest h
    unfold Owns at h ⊢
    rwa [keys_setKey]
  match slot, b, hrel with
  | none, none, _ =>
    cases call with
    | init =>
      by_cases hal : env.allocOk s.count
      · obtain ⟨c, e, hr⟩ := ctxInitialize_ok L (env.junkCtx s.count)
        refine ⟨some s.count, { s with count := s.count + 1, live := (s.count, .ctx c) :: s.live }, ?_, ?_, ?_, .inr (.inr rfl), ?_, fun rest h => h.cons _⟩
        · simp [step, apiInitialize, hInitialize, hal, e, Spec.apiStep]
        · simp only [Spec.apiStep, hal, if_true]
          exact ⟨Nat.lt_succ_self _, by rw [← L.iv, L.ivLen], c, by simp [getKey], hr⟩
        · simp [Spec.apiStep, hal]
        · intro q hq _
          simp only [getKey]
          rw [if_neg (by omega)]
      · refine ⟨none, { s with count := s.count + 1 }, ?_, ?_, ?_, .inl rfl, fun _ _ _ => rfl, fun _ h => h⟩
        · simp [step, apiInitialize, hInitialize, hal, ctxInitialize, Spec.apiStep]
        · simp only [Spec.apiStep, hal]; trivial
        · simp [Spec.apiStep, hal]
    | initNull => exact ⟨none, s, by simp [step, apiInitialize, ctxInitialize, Spec.apiStep], trivial, rfl, .inl rfl, fun _ _ _ => rfl, fun _ h => h⟩
    | free => exact ⟨none, s, by simp [step, apiFree, hFree, Spec.apiStep], trivial, rfl, .inl rfl, fun _ _ _ => rfl, fun _ h => h⟩
    | freeNull => exact ⟨none, s, by simp [step, apiFree, Spec.apiStep], trivial, rfl, .inl rfl, fun _ _ _ => rfl, fun _ h => h⟩
    | update buf size => exact ⟨none, s, by simp [step, hUpdate, ctxUpdate, Spec.apiStep], trivial, rfl, .inl rfl, fun _ _ _ => rfl, fun _ h => h⟩
    | finalize out size => exact ⟨none, s, by simp [step, hFinalize, ctxFinalize, Spec.apiStep], trivial, rfl, .inl rfl, fun _ _ _ => rfl, fun _ h => h⟩
  | some p, some (h0, m), hlive =>
    obtain ⟨hp, hh0, c, hget, hr⟩ := hlive
    have hframe : ∀ c' q, q < s.count → some p ≠ some q → getKey q (setKey p (.ctx c') s.live) = getKey q s.live :=
      fun c' q _ hq => getKey_setKey_ne _ _ _ (fun e => hq (by rw [e])) _
    have hself : ∀ c', getKey p (setKey p (.ctx c') s.live) = some (.ctx c') := fun c' => getKey_setKey _ _ _ _ hget
    cases call with
    | init => exact ⟨some p, s, by simp [step, apiInitialize, hInitialize, ctxInitialize, Spec.apiStep], ⟨hp, hh0, c, hget, hr⟩, rfl, .inl rfl, fun _ _ _ => rfl, fun _ h => h⟩
    | initNull => exact ⟨some p, s, by simp [step, apiInitialize, ctxInitialize, Spec.apiStep], ⟨hp, hh0, c, hget, hr⟩, rfl, .inl rfl, fun _ _ _ => rfl, fun _ h => h⟩
    | free =>
      refine ⟨none, { s with live := eraseKey p s.live, freed := (p, .ctx c) :: s.freed }, ?_, trivial, rfl, .inr (.inl rfl), ?_, fun rest h => ?_⟩
      · simp [step, apiFree, hFree, memFree, hget, Spec.apiStep]
      · exact fun q _ hq => getKey_eraseKey_ne _ _ (fun e => hq (by rw [e])) _
      · have := List.Perm.erase p h
        simp only [Option.toList_some, List.singleton_append, List.erase_cons_head] at this
        unfold Owns
        rwa [keys_eraseKey]
    | freeNull => exact ⟨some p, s, by simp [step, apiFree, Spec.apiStep], ⟨hp, hh0, c, hget, hr⟩, rfl, .inl rfl, fun _ _ _ => rfl, fun _ h => h⟩
    | update buf size =>
      cases buf with
      | none =>
        exact ⟨some p, { s with live := setKey p (.ctx c) s.live }, by simp [step, hUpdate, hget, ctxUpdate, Spec.apiStep], ⟨hp, hh0, c, hself c, hr⟩, rfl,
          .inl rfl, hframe c, fun rest => hset p _ rest⟩
      | some b =>
        by_cases hs : size ≤ ssizeMax
        · obtain ⟨c', e, hr'⟩ := ctxUpdate_ok L hh0 u scr hscr c b size hs (hv hs) hr
          refine ⟨some p, { s with live := setKey p (.ctx c') s.live }, ?_, ?_, ?_, .inl rfl, hframe c', fun rest => hset p _ rest⟩
          · simp [step, hUpdate, hget, e, Spec.apiStep, maxSize_eq, hs]
          · simp only [Spec.apiStep, maxSize_eq, hs, if_true]
            exact ⟨hp, hh0, c', hself c', hr'⟩
          · simp [Spec.apiStep, maxSize_eq, hs]
        · refine ⟨some p, { s with live := setKey p (.ctx c) s.live }, ?_, ?_, ?_, .inl rfl, hframe c, fun rest => hset p _ rest⟩
          · simp [step, hUpdate, hget, ctxUpdate, Spec.apiStep, maxSize_eq, hs, Nat.lt_of_not_le hs]
          · simp only [Spec.apiStep, maxSize_eq, hs, if_false]; exact ⟨hp, hh0, c, hself c, hr⟩
          · simp [Spec.apiStep, maxSize_eq, hs]
    | finalize out size =>
      cases out with
      | none =>
        exact ⟨some p, { s with live := setKey p (.ctx c) s.live }, by simp [step, hFinalize, hget, ctxFinalize, Spec.apiStep], ⟨hp, hh0, c, hself c, hr⟩, rfl,
          .inl rfl, hframe c, fun rest => hset p _ rest⟩
      | some o =>
        by_cases hs : A.hashSize ≤ size ∧ size ≤ ssizeMax
        · have e := ctxFinalize_ok L hh0 u scr hscr c o size hs.2 hs.1 (hv hs.2) hr
          refine ⟨some p, { s with live := setKey p (.ctx (zeroCtx A)) s.live }, ?_, ?_, ?_, .inl rfl, hframe _, fun rest => hset p _ rest⟩
          · simp [step, hFinalize, hget, e, Spec.apiStep, maxSize_eq, hs]
          · simp only [Spec.apiStep, maxSize_eq, hs, and_self, if_true]
            exact ⟨hp, by simp, zeroCtx A, hself _, zeroCtx_rep L⟩
          · simp [Spec.apiStep, maxSize_eq, hs]
        · refine ⟨some p, { s with live := setKey p (.ctx c) s.live }, ?_, ?_, ?_, .inl rfl, hframe c, fun rest => hset p _ rest⟩
          · by_cases h1 : size < A.hashSize
            · simp [step, hFinalize, hget, ctxFinalize, Spec.apiStep, maxSize_eq, hs, h1]
            · simp [step, hFinalize, hget, ctxFinalize, Spec.apiStep, maxSize_eq, hs, h1, show ssizeMax < size by omega]
          · simp only [Spec.apiStep, maxSize_eq, hs, if_false]; exact ⟨hp, hh0, c, hself c, hr⟩
          · simp [Spec.apiStep, maxSize_eq, hs]

/-- Only the outcomes of allocations not yet made matter. -/
theorem apiRun_shift {w} (H : IterHash w) (n z) (al al' : Nat → Bool) : ∀ (calls : List ApiCall) (b : Option (List (BitVec w) × List Byte)) (i j : Nat),
    (∀ d, al (i + d) = al' (j + d)) → (Spec.apiRun H n z al calls ⟨b, i⟩).1 = (Spec.apiRun H n z al' calls ⟨b, j⟩).1
  | [], _, _, _, _ => rfl
  | c :: cs, b, i, j, h => by
    have h0 := h 0
    have h1 : ∀ d, al (i + 1 + d) = al' (j + 1 + d) := fun d => by have := h (1 + d); rwa [← Nat.add_assoc, ← Nat.add_assoc] at this
    simp only [Nat.add_zero] at h0
    simp only [Spec.apiRun]
    cases c with
    | init =>
      cases b with
      | some b => simp only [Spec.apiStep, apiRun_shift H n z al al' cs _ i j h]
      | none =>
        simp only [Spec.apiStep, h0]
        split
        · simp only [apiRun_shift H n z al al' cs _ _ _ h1]
        · simp only [apiRun_shift H n z al al' cs _ _ _ h1]
    | initNull => simp only [Spec.apiStep, apiRun_shift H n z al al' cs _ i j h]
    | free => simp only [Spec.apiStep, apiRun_shift H n z al al' cs _ i j h]
    | freeNull => simp only [Spec.apiStep, apiRun_shift H n z al al' cs _ i j h]
    | update buf size =>
      cases b <;> cases buf <;> simp only [Spec.apiStep] <;> (try split) <;> simp only [apiRun_shift H n z al al' cs _ i j h]
    | finalize out size =>
      cases b <;> cases out <;> simp only [Spec.apiStep] <;> (try split) <;> simp only [apiRun_shift H n z al al' cs _ i j h]

/-- A call makes at most one allocation, whose outcome is that of the next one. -/
theorem apiStep_attempts {w} (H : IterHash w) (n z) (al : Nat → Bool) (c : ApiCall) (b : Option (List (BitVec w) × List Byte)) (i : Nat) :
    (Spec.apiStep H n z al c ⟨b, i⟩).2.attempts = i ∧ (∀ al' j, Spec.apiStep H n z al' c ⟨b, j⟩ =
        ((Spec.apiStep H n z al c ⟨b, i⟩).1, ⟨(Spec.apiStep H n z al c ⟨b, i⟩).2.slot, j⟩)) ∨
    (Spec.apiStep H n z al c ⟨b, i⟩).2.attempts = i + 1 ∧ ∀ al' j, al' j = al i →
      Spec.apiStep H n z al' c ⟨b, j⟩ = ((Spec.apiStep H n z al c ⟨b, i⟩).1, ⟨(Spec.apiStep H n z al c ⟨b, i⟩).2.slot, j + 1⟩) := by
  cases c with
  | init =>
    cases b with
    | some b => exact .inl ⟨rfl, fun _ _ => rfl⟩
    | none =>
      refine .inr ⟨?_, fun al' j h => ?_⟩
      · simp only [Spec.apiStep]; split <;> rfl
      · simp only [Spec.apiStep, h]; split <;> rfl
  | initNull => exact .inl ⟨rfl, fun _ _ => rfl⟩
  | free => exact .inl ⟨rfl, fun _ _ => rfl⟩
  | freeNull => exact .inl ⟨rfl, fun _ _ => rfl⟩
  | update buf size => cases b <;> cases buf <;> simp only [Spec.apiStep] <;> (try split) <;> simp
  | finalize out size => cases b <;> cases out <;> simp only [Spec.apiStep] <;> (try split) <;> simp

/-- Every variable represents its abstract context, and no two variables share an object. -/
def MultiRel {ι : Type} (kinds : ι → Kind) (slots : ι → Option Nat) (m : Mem) (b : (i : ι) → Option (List (BitVec (kinds i).width) × List Byte)) : Prop :=
  (∀ i, VarRel (algOf (kinds i)) (kinds i).len64 (slots i) (m.view (kinds i).width) (b i)) ∧ ∀ i j p, slots i = some p → slots j = some p → i = j

theorem VarRel.lt {slot : Option Nat} {s : St w} {b} (h : VarRel A H slot s b) {p : Nat} (hp : slot = some p) : p < s.count := by
  subst hp
  cases b with
  | none => exact h.elim
  | some b => exact h.1

theorem put_frame (m : Mem) (w w' : Nat) (s' : St w) (p : Nat) (h : getKey p s'.live = getKey p (m.view w).live) :
    getKey p ((m.put w s').view w').live = getKey p (m.view w').live := by
  by_cases hw : w' = w
  · subst hw
    simp only [Mem.view, Mem.put, Function.update_self]
    exact h
  · simp only [Mem.view, Mem.put, Function.update_of_ne hw]

/-- What the abstract machine does on a call for variable of algorithm `k`. -/
abbrev kindStep (k : Kind) (al : Nat → Bool) (c : ApiCall) (b : Option (List (BitVec k.width) × List Byte)) (n : Nat) : Reply × ApiState k.width :=
  Spec.apiStep k.len64 k.hashSize (List.replicate k.words 0) al c ⟨b, n⟩

/-- One call on one of many variables. -/
theorem multi_step {ι : Type} [DecidableEq ι] (kinds : ι → Kind) (u : Bool) (al : Nat → Bool) (env : (i : ι) → Env (kinds i).width) (i : ι) (c : ApiCall)
    (scr : Scr (kinds i).width) (slots : ι → Option Nat) (m : Mem) (b : (i : ι) → Option (List (BitVec (kinds i).width) × List Byte))
    (h1 : c.Valid) (h2 : Kind.Junk (kinds i) scr) (hrel : MultiRel kinds slots m b) :
    ∃ slot' s', step (algOf (kinds i)) u { env i with allocOk := al } c scr (slots i) (m.view (kinds i).width) =
        .ok ((kindStep (kinds i) al c (b i) m.count).1, slot', s') ∧
      MultiRel kinds (Function.update slots i slot') (m.put (kinds i).width s') (Function.update b i (kindStep (kinds i) al c (b i) m.count).2.slot) ∧
      s'.count = (kindStep (kinds i) al c (b i) m.count).2.attempts ∧ m.count ≤ s'.count ∧ ∀ rest, Owns (slots i) (m.view (kinds i).width) rest → Owns slot' s' rest := by
  obtain ⟨enc, L⟩ := lawful (kinds i)
  obtain ⟨slot', s', e, hr', hcount, hslot, hframe, hkeys⟩ := step_frame L u { env i with allocOk := al } c scr (slots i)
    (m.view (kinds i).width) (b i) h1 (scrOk_of_junk h2) (hrel.1 i)
  rw [algOf_hashSize, algOf_nHash] at *
  have hatt := apiStep_attempts (kinds i).len64 (kinds i).hashSize (List.replicate (kinds i).words 0) al c (b i) m.count
  generalize hst : Spec.apiStep (kinds i).len64 (kinds i).hashSize (List.replicate (kinds i).words 0) al c ⟨b i, m.count⟩ = st at *
  change (_ : Res _) = .ok ((Spec.apiStep (kinds i).len64 (kinds i).hashSize (List.replicate (kinds i).words 0) al c ⟨b i, m.count⟩).1, _) at e
  change s'.count = (Spec.apiStep (kinds i).len64 (kinds i).hashSize (List.replicate (kinds i).words 0) al c ⟨b i, m.count⟩).2.attempts at hcount
  change VarRel _ _ _ _ (Spec.apiStep (kinds i).len64 (kinds i).hashSize (List.replicate (kinds i).words 0) al c ⟨b i, m.count⟩).2.slot at hr'
  rw [hst] at e hr' hcount
  have hge : m.count ≤ s'.count := by rw [hcount]; rcases hatt with h | h <;> omega
  have hrel' : MultiRel kinds (Function.update slots i slot') (m.put (kinds i).width s') (Function.update b i st.2.slot) := by
    refine ⟨fun j => ?_, fun j k p hj hk => ?_⟩
    · by_cases hji : j = i
      · subst hji
        simp only [Function.update_self]
        have : (m.put (kinds j).width s').view (kinds j).width = s' := by
          simp only [Mem.view, Mem.put, Function.update_self]
        rw [this]
        exact hr'
      · rw [Function.update_of_ne hji, Function.update_of_ne hji]
        have hj := hrel.1 j
        have huniq := hrel.2 j i
        revert hj
        cases hs : slots j with
        | none => cases b j <;> exact id
        | some p =>
          cases b j with
          | none => exact id
          | some x =>
            obtain ⟨h0, msg⟩ := x
            rintro ⟨hp, hlen, c, hget, hrep⟩
            refine ⟨Nat.lt_of_lt_of_le hp hge, hlen, c, ?_, hrep⟩
            refine (put_frame m _ _ s' p (hframe p hp fun e' => hji (huniq p hs e'))).trans hget
    · have fresh : ∀ l, l ≠ i → slots l = some p → slot' ≠ some p := by
        intro l hl hp e'
        have hlt : p < m.count := (hrel.1 l).lt hp
        rcases hslot with h | h | h
        · exact hl (hrel.2 l i p hp (by rw [← h]; exact e'))
        · rw [h] at e'; cases e'
        · rw [h] at e'
          injection e' with e'
          simp only [Mem.view] at e'
          omega
      by_cases hji : j = i
      · by_cases hki : k = i
        · rw [hji, hki]
        · subst hji
          rw [Function.update_self] at hj
          rw [Function.update_of_ne hki] at hk
          exact absurd hj (fresh k hki hk)
      · rw [Function.update_of_ne hji] at hj
        by_cases hki : k = i
        · subst hki
          rw [Function.update_self] at hk
          exact absurd hk (fresh j hji hj)
        · rw [Function.update_of_ne hki] at hk
          exact hrel.2 j k p hj hk
  subst hst
  exact ⟨slot', s', e, hrel', hcount, hge, hkeys⟩

theorem multiRun_ok (kinds : Nat → Kind) (u : Kind → Bool) (al : Nat → Bool) (envs : (w : Nat) → Env w) :
    ∀ (calls : List (MultiCall kinds)) (slots : Nat → Option Nat) (m : Mem) (b : (i : Nat) → Option (List (BitVec (kinds i).width) × List Byte)),
      (∀ c ∈ calls, c.2.1.Valid ∧ Kind.Junk (kinds c.1) c.2.2) → MultiRel kinds slots m b →
      ∃ rs slots' m', multiRun kinds u al envs calls slots m = .ok (rs, slots', m') ∧ rs.map (·.1) = calls.map (·.1) ∧
        ∀ i, ∃ num : Nat → Nat, (∀ n, num n < num (n + 1)) ∧ m.count ≤ num 0 ∧
          repliesOf i rs = (specRun (kinds i) (al ∘ num) (callsOf i calls) ⟨b i, 0⟩).1
  | [], slots, m, b, _, _ => ⟨[], slots, m, rfl, rfl, fun i => ⟨fun n => m.count + n, fun n => by dsimp only; omega, by simp, rfl⟩⟩
  | ⟨i, c, scr⟩ :: cs, slots, m, b, hv, hrel => by
    obtain ⟨h1, h2⟩ := hv ⟨i, c, scr⟩ (by simp)
    obtain ⟨slot', s', e, hrel', hcount, hge, -⟩ := multi_step kinds (u (kinds i)) al (fun i => envs (kinds i).width) i c scr slots m b h1 h2 hrel
    have hatt := apiStep_attempts (kinds i).len64 (kinds i).hashSize (List.replicate (kinds i).words 0) al c (b i) m.count
    unfold kindStep at e hrel' hcount
    generalize hst : Spec.apiStep (kinds i).len64 (kinds i).hashSize (List.replicate (kinds i).words 0) al c ⟨b i, m.count⟩ = st at *
    obtain ⟨rs, slots'', m'', e2, hlen, hall⟩ := multiRun_ok kinds u al envs cs _ _ _ (fun x hx => hv x (by simp [hx])) hrel'
    refine ⟨(i, st.1) :: rs, slots'', m'', ?_, by simp [hlen], fun j => ?_⟩
    · simp only [multiRun]
      erw [e]
      simp only [Res.ok_bind, e2, Res.pure_eq]
    · obtain ⟨num, hmono, hnum, hrep⟩ := hall j
      by_cases hji : i = j
      · subst hji
        rw [Function.update_self] at hrep
        have hr1 : repliesOf i ((i, st.1) :: rs) = st.1 :: repliesOf i rs := by simp [repliesOf]
        have hc1 : callsOf i (⟨i, c, scr⟩ :: cs) = c :: callsOf i cs := by simp [callsOf]
        rw [hr1, hc1, hrep]
        rcases hatt with ⟨ha, hb⟩ | ⟨ha, hb⟩
        · refine ⟨num, hmono, by rw [← ha, ← hcount]; exact hnum, ?_⟩
          simp only [specRun, Spec.apiRun, hb]
        · have hn0 : m.count + 1 ≤ num 0 := by rw [← ha, ← hcount]; exact hnum
          refine ⟨fun n => match n with | 0 => m.count | n + 1 => num n, ?_, Nat.le_refl _, ?_⟩
          · intro n
            cases n with
            | zero => exact hn0
            | succ n => exact hmono n
          · simp only [specRun, Spec.apiRun]
            rw [hb _ 0 rfl]
            simp only [List.cons.injEq, true_and]
            exact apiRun_shift _ _ _ _ _ _ _ _ _ fun d => by simp only [Nat.zero_add, Nat.add_comm 1 d, Function.comp]
      · rw [Function.update_of_ne (Ne.symm hji)] at hrep
        have hr1 : repliesOf j ((i, st.1) :: rs) = repliesOf j rs := by simp [repliesOf, hji]
        have hc1 : callsOf j (⟨i, c, scr⟩ :: cs) = callsOf j cs := by simp [callsOf, hji]
        rw [hr1, hc1]
        exact ⟨num, hmono, Nat.le_trans hge hnum, hrep⟩

end Model
