import Verif.Proofs.BackendMulti
import Verif.Proofs.BackendOneShot
/-! The numbers of allocations and of library calls only grow, also in the one-shot functions. -/

namespace Model

open Spec (ApiCall Reply Kind)

theorem bErase_counts {σ : Type} {n : Nat} (p : Nat) {s : BSt σ} (h : n ≤ s.count) : ResAll (fun x => n ≤ x.count) (bErase p s) := by
  unfold bErase
  cases getKey p s.live with
  | none => exact .ub
  | some _ => exact .ok h

theorem bInitError_count {σ : Type} {n : Nat} (p : Nat) {s : BSt σ} (h : n ≤ s.count) : ResAll (fun x => n ≤ x.2.2.count) (bInitError p s) :=
  (bErase_counts p h).bind fun _ h' => .ok h'

theorem bDigestInit_count {L : Library} {n : Nat} (p : Nat) (evp : EvpPtr) {s : BSt L.State} (h : n ≤ s.count) : ResAll (fun x => n ≤ x.2.2.count) (bDigestInit L p evp s) := by
  unfold bDigestInit
  cases L.init s.calls with
  | some st =>
    cases evp with
    | null => exact .ub
    | embedded => exact .ok h
    | heap q => exact .ok h
  | none =>
    cases evp with
    | null => exact .ub
    | embedded => exact bInitError_count p (h)
    | heap q => exact (bErase_counts (s := s.tick) q h).bind fun _ h' => bInitError_count p h'

theorem bStep_count (B : Backend) (L : Library) (hashSize : Nat) (al : Nat → Bool) (c : ApiCall) (slot : Option Nat) (s : BSt L.State) : ResAll (fun x => s.count ≤ x.2.2.count) (bStep B L hashSize al c slot s) := by
  cases c with
  | init =>
    refine ResAll.bind (P := fun x => s.count ≤ x.2.2.count) ?_ fun _ h => .ok h
    cases slot with
    | some p => exact .ok (Nat.le_refl _)
    | none =>
      simp only [bInitialize]
      split
      · cases B with
        | direct b =>
          dsimp only
          cases L.init s.calls with
          | some st => exact .ok (Nat.le_succ _)
          | none => exact bInitError_count _ (Nat.le_succ _)
        | evpEmbedded => exact bDigestInit_count _ _ (Nat.le_succ _)
        | evpAllocated =>
          dsimp only
          split
          · exact bDigestInit_count _ _ (Nat.le_succ _)
          · exact bInitError_count _ (Nat.le_succ _)
      · exact .ok (Nat.le_succ _)
  | initNull => exact .ok (Nat.le_refl _)
  | free =>
    refine ResAll.bind (P := fun x => s.count ≤ x.2.2.count) ?_ fun _ h => .ok h
    cases slot with
    | none => exact .ok (Nat.le_refl _)
    | some p =>
      simp only [bFree]
      split
      · exact (bErase_counts _ (Nat.le_refl _)).bind fun _ h => .ok h
      · exact (bErase_counts _ (Nat.le_refl _)).bind fun _ h => .ok h
      · exact (bErase_counts _ (Nat.le_refl _)).bind fun _ h => (bErase_counts _ h).bind fun _ h => .ok h
      · exact (bErase_counts _ (Nat.le_refl _)).bind fun _ h => .ok h
      · exact .ub
  | freeNull => exact .ok (Nat.le_refl _)
  | update buf size =>
    refine ResAll.bind (P := fun x => s.count ≤ x.2.count) ?_ fun _ h => .ok h
    unfold bUpdate
    split
    · exact .ok (Nat.le_refl _)
    · exact .ok (Nat.le_refl _)
    · split
      · exact .ok (Nat.le_refl _)
      · split
        · exact .ok (Nat.le_refl _)
        · refine ResAll.any.bind fun _ _ => ResAll.any.bind fun _ _ => ResAll.bind (P := fun x => s.count ≤ x.count) ?_ fun _ h => .ok h
          unfold bSetState
          split
          · exact .ok (Nat.le_refl _)
          · exact .ok (Nat.le_refl _)
          · exact .ub
  | finalize out size =>
    refine ResAll.bind (P := fun x => s.count ≤ x.2.2.count) ?_ fun _ h => .ok h
    unfold bFinalize
    split
    · exact .ok (Nat.le_refl _)
    · exact .ok (Nat.le_refl _)
    · split
      · exact .ok (Nat.le_refl _)
      · split
        · exact .ok (Nat.le_refl _)
        · refine ResAll.any.bind fun _ _ => ResAll.bind (P := fun x => s.count ≤ x.count) ?_ fun _ h => .ok h
          unfold bSetState
          split
          · exact .ok (Nat.le_refl _)
          · exact .ok (Nat.le_refl _)
          · exact .ub

/-- The counters of `s` are at most those of `t`. -/
def BSt.Le {σ : Type} (s t : BSt σ) : Prop := s.count ≤ t.count ∧ s.calls ≤ t.calls

theorem BSt.Le.refl {σ : Type} (s : BSt σ) : s.Le s := ⟨Nat.le_refl _, Nat.le_refl _⟩

theorem BSt.Le.trans {σ : Type} {s t u : BSt σ} (h : s.Le t) (h' : t.Le u) : s.Le u := ⟨Nat.le_trans h.1 h'.1, Nat.le_trans h.2 h'.2⟩

theorem bStep_le (B : Backend) (L : Library) (hashSize : Nat) (al : Nat → Bool) (c : ApiCall) (slot : Option Nat) (s : BSt L.State) : ResAll (fun x => s.Le x.2.2) (bStep B L hashSize al c slot s) :=
  fun x e => ⟨bStep_count B L hashSize al c slot s x e, bStep_calls B L hashSize al c slot s x e⟩

theorem bInitialize_le (B : Backend) (L : Library) (al : Nat → Bool) (slot : Option Nat) (s : BSt L.State) : ResAll (fun x => s.Le x.2.2) (bInitialize B L al slot s) := fun x e =>
  bStep_le B L 0 al .init slot s (⟨x.1, none⟩, x.2.1, x.2.2) (by simp only [bStep, e, Res.ok_bind, Res.pure_eq])

theorem bFree_le (B : Backend) (L : Library) (slot : Option Nat) (s : BSt L.State) : ResAll (fun x => s.Le x.2.2) (bFree B L slot s) := fun x e =>
  bStep_le B L 0 (fun _ => true) .free slot s (⟨x.1, none⟩, x.2.1, x.2.2) (by simp only [bStep, e, Res.ok_bind, Res.pure_eq])

theorem bUpdate_le (B : Backend) (L : Library) (slot : Option Nat) (b : Option (List Byte)) (n : Nat) (s : BSt L.State) : ResAll (fun x => s.Le x.2) (bUpdate B L slot b n s) := fun x e =>
  bStep_le B L 0 (fun _ => true) (.update b n) slot s (⟨x.1, none⟩, slot, x.2) (by simp only [bStep, e, Res.ok_bind, Res.pure_eq])

theorem bFinalize_le (B : Backend) (L : Library) (hashSize : Nat) (slot : Option Nat) (o : Option (List Byte)) (n : Nat) (s : BSt L.State) : ResAll (fun x => s.Le x.2.2) (bFinalize B L hashSize slot o n s) := fun x e =>
  bStep_le B L hashSize (fun _ => true) (.finalize o n) slot s (⟨x.1, x.2.1⟩, slot, x.2.2) (by simp only [bStep, e, Res.ok_bind, Res.pure_eq])

variable {L : Library} {t : BSt L.State}

theorem oInitialize_le (B : Backend) (env : OEnv) (slot : Option Nat) {s : OSt L.State} (h : t.Le s.ctxs) : ResAll (fun x => t.Le x.2.2.ctxs) (oInitialize B L env slot s) :=
  (bInitialize_le B L env.allocOk slot s.ctxs).bind fun _ h' => .ok (h.trans h')

theorem oFree_le (B : Backend) (slot : Option Nat) {s : OSt L.State} (h : t.Le s.ctxs) : ResAll (fun x => t.Le x.2.2.ctxs) (oFree B L slot s) :=
  (bFree_le B L slot s.ctxs).bind fun _ h' => .ok (h.trans h')

theorem oUpdate_le (B : Backend) (slot : Option Nat) (b : Option (List Byte)) (n : Nat) {s : OSt L.State} (h : t.Le s.ctxs) : ResAll (fun x => t.Le x.2.ctxs) (oUpdate B L slot b n s) :=
  (bUpdate_le B L slot b n s.ctxs).bind fun _ h' => .ok (h.trans h')

theorem oFinalize_le (B : Backend) (ds : Nat) (slot : Option Nat) (o : Option (List Byte)) (n : Nat) {s : OSt L.State} (h : t.Le s.ctxs) : ResAll (fun x => t.Le x.2.2.ctxs) (oFinalize B L ds slot o n s) :=
  (bFinalize_le B L ds slot o n s.ctxs).bind fun _ h' => .ok (h.trans h')

theorem oSetRegion_ctxs_eq {σ : Type} (s : OSt σ) (p : Option Nat) (b : Option (List Byte)) : (oSetRegion s p b).ctxs = s.ctxs := by
  unfold oSetRegion
  split <;> rfl

theorem oFreeOpt_le (B : Backend) (p : Option Nat) {s : OSt L.State} (h : t.Le s.ctxs) : ResAll (fun x => t.Le x.ctxs) (oFreeOpt B L p s) := by
  cases p with
  | none => exact .ok h
  | some p => exact (oFree_le B (some p) h).bind fun _ h' => .ok h'

theorem oCalculateError_le (B : Backend) (p : Option Nat) {s : OSt L.State} (h : t.Le s.ctxs) : ResAll (fun x => t.Le x.2.ctxs) (oCalculateError B L p s) :=
  (oFreeOpt_le B p h).bind fun _ h' => .ok h'

theorem ResAll.ite {α : Type} {P : α → Prop} {c : Prop} [Decidable c] {x y : Res α} (hx : c → ResAll P x) (hy : ¬ c → ResAll P y) : ResAll P (if c then x else y) := by
  by_cases h : c
  · rw [if_pos h]; exact hx h
  · rw [if_neg h]; exact hy h

theorem oCalculate_le (B : Backend) (ds : Nat) (env : OEnv) (buffer : Option Nat) (size : Nat) (hash : Option Nat) (n : Nat) {s : OSt L.State} (h : t.Le s.ctxs) :
    ResAll (fun x => t.Le x.2.ctxs) (oCalculate B L ds env buffer size hash n s) := by
  refine (oInitialize_le B env none h).bind fun x h => .ite (fun _ => oCalculateError_le B _ h) fun _ => ?_
  refine (oUpdate_le B _ _ _ h).bind fun y h => .ite (fun _ => oCalculateError_le B _ h) fun _ => ?_
  refine (oFinalize_le B ds _ _ _ h).bind fun z h => ?_
  have h' : t.Le (oSetRegion z.2.2 hash z.2.1).ctxs := by rw [oSetRegion_ctxs_eq]; exact h
  refine .ite (fun _ => oCalculateError_le B _ h') fun _ => ?_
  exact (oFree_le B _ h').bind fun y h => .ite (fun _ => oCalculateError_le B _ h) fun _ => .ok h

theorem oAlloc_le (env : OEnv) (n : Nat) {s : OSt L.State} (h : t.Le s.ctxs) : t.Le (oAlloc env n s).2.ctxs := by
  unfold oAlloc
  split <;> exact ⟨Nat.le_succ_of_le h.1, h.2⟩

theorem oStore_le (p : Option Nat) (b : List Byte) {s : OSt L.State} (h : t.Le s.ctxs) : ResAll (fun x => t.Le x.ctxs) (oStore p b s) := by
  cases p with
  | none => exact .ub
  | some p => exact .ok h

theorem oKey_le (B : Backend) (ds bs : Nat) (env : OEnv) (key : Option Nat) (keySize : Nat) (l : Loc) {s : OSt L.State} (h : t.Le s.ctxs) : ResAll (fun x => t.Le x.2.2.ctxs) (oKey B L ds bs env key keySize l s) := by
  unfold oKey
  have h1 := oAlloc_le env bs h
  revert h1
  generalize oAlloc env bs s = y
  obtain ⟨p, s1⟩ := y
  intro h1
  cases p with
  | none => exact .ok h1
  | some p =>
    dsimp only
    refine .ite (fun _ => ?_) fun _ => ?_
    · split
      · exact .ub
      · exact ResAll.any.bind fun _ _ => ResAll.any.bind fun _ _ => ResAll.any.bind fun _ _ => (oStore_le _ _ h1).bind fun _ h => .ok h
    · refine (oInitialize_le B env _ h1).bind fun x h => .ite (fun _ => .ok h) fun _ => ?_
      refine (oUpdate_le B _ _ _ h).bind fun y h => .ite (fun _ => .ok h) fun _ => ?_
      refine (oFinalize_le B ds _ _ _ h).bind fun z h => ?_
      split
      · exact .ub
      · refine .ite (fun _ => .ok h) fun _ => ?_
        refine (oFree_le B _ h).bind fun y h => .ite (fun _ => .ok h) fun _ => ?_
        refine ResAll.any.bind fun _ _ => .ite (fun _ => ?_) fun _ => ?_
        · exact ResAll.any.bind fun _ _ => ResAll.any.bind fun _ _ => (oStore_le _ _ h).bind fun _ h => .ok h
        · exact ResAll.any.bind fun _ _ => ResAll.any.bind fun _ _ => (oStore_le _ _ h).bind fun _ h => .ok h

theorem oPads_le (bs : Nat) (env : OEnv) (l : Loc) {s : OSt L.State} (h : t.Le s.ctxs) : ResAll (fun x => t.Le x.2.2.ctxs) (oPads bs env l s) := by
  unfold oPads
  have h1 := oAlloc_le env bs h
  revert h1
  generalize oAlloc env bs s = y
  obtain ⟨p, s1⟩ := y
  intro h1
  cases p with
  | none => exact .ok h1
  | some p =>
    refine ResAll.any.bind fun _ _ => ResAll.any.bind fun _ _ => (oStore_le _ _ h1).bind fun s2 h => ?_
    have h2 := oAlloc_le env bs h
    revert h2
    generalize oAlloc env bs s2 = y
    obtain ⟨p, s3⟩ := y
    intro h2
    cases p with
    | none => exact .ok h2
    | some p =>
      refine ResAll.any.bind fun _ _ => ResAll.any.bind fun _ _ => (oStore_le _ _ h2).bind fun s2 h => ?_
      exact ResAll.any.bind fun _ _ => ResAll.any.bind fun _ _ => ResAll.any.bind fun _ _ => ResAll.any.bind fun _ _ => (oStore_le _ _ h).bind fun _ h => (oStore_le _ _ h).bind fun _ h => .ok h

theorem oPass_le (B : Backend) (ds bs : Nat) (env : OEnv) (padding buffer : Option Nat) (size : Nat) (hmac : Option Nat) (n : Nat) (l : Loc) {s : OSt L.State} (h : t.Le s.ctxs) :
    ResAll (fun x => t.Le x.2.2.ctxs) (oPass B L ds bs env padding buffer size hmac n l s) := by
  refine (oInitialize_le B env _ h).bind fun x h => .ite (fun _ => .ok h) fun _ => ?_
  refine ResAll.any.bind fun _ _ => (oUpdate_le B _ _ _ h).bind fun y h => .ite (fun _ => .ok h) fun _ => ?_
  refine (oUpdate_le B _ _ _ h).bind fun y h => .ite (fun _ => .ok h) fun _ => ?_
  refine (oFinalize_le B ds _ _ _ h).bind fun z h => ?_
  have h' : t.Le (oSetRegion z.2.2 hmac z.2.1).ctxs := by rw [oSetRegion_ctxs_eq]; exact h
  refine .ite (fun _ => .ok h') fun _ => ?_
  exact (oFree_le B _ h').bind fun y h => .ite (fun _ => .ok h) fun _ => .ok h

theorem oWipe_le (bs : Nat) (p : Option Nat) {s : OSt L.State} (h : t.Le s.ctxs) : ResAll (fun x => t.Le x.ctxs) (oWipe bs p s) := by
  refine ResAll.any.bind fun _ _ => ResAll.any.bind fun _ _ => (oStore_le _ _ h).bind fun s1 h => ?_
  cases p with
  | none => exact .ub
  | some p =>
    dsimp only
    unfold oFreeBlock
    split
    · exact .ub
    · exact .ok h

theorem oWipeOpt_le (bs : Nat) (p : Option Nat) {s : OSt L.State} (h : t.Le s.ctxs) : ResAll (fun x => t.Le x.ctxs) (oWipeOpt bs p s) := by
  cases p with
  | none => exact .ok h
  | some p => exact oWipe_le bs (some p) h

theorem oHmacError_le (B : Backend) (bs : Nat) (l : Loc) {s : OSt L.State} (h : t.Le s.ctxs) : ResAll (fun x => t.Le x.2.ctxs) (oHmacError B L bs l s) :=
  (oFreeOpt_le B _ h).bind fun _ h => (oWipeOpt_le bs _ h).bind fun _ h => (oWipeOpt_le bs _ h).bind fun _ h => (oWipeOpt_le bs _ h).bind fun _ h => .ok h

theorem oCalculateHmac_le (B : Backend) (ds bs : Nat) (env : OEnv) (kh : List Byte) (key : Option Nat) (keySize : Nat) (buffer : Option Nat) (size : Nat) (hmac : Option Nat) (n : Nat) {s : OSt L.State} (h : t.Le s.ctxs) :
    ResAll (fun x => t.Le x.2.ctxs) (oCalculateHmac B L ds bs env kh key keySize buffer size hmac n s) := by
  cases key with
  | none => exact .ok h
  | some q =>
    refine .ite (fun _ => .ok h) fun _ => .ite (fun _ => .ok h) fun _ => ?_
    refine (oKey_le B ds bs env _ _ _ h).bind fun x h => .ite (fun _ => oHmacError_le B bs _ h) fun _ => ?_
    refine (oPads_le bs env _ h).bind fun x h => .ite (fun _ => oHmacError_le B bs _ h) fun _ => ?_
    refine (oPass_le B ds bs env _ _ _ _ _ _ h).bind fun x h => .ite (fun _ => oHmacError_le B bs _ h) fun _ => ?_
    refine (oPass_le B ds bs env _ _ _ _ _ _ h).bind fun x h => .ite (fun _ => oHmacError_le B bs _ h) fun _ => ?_
    exact (oWipe_le bs _ h).bind fun _ h => (oWipe_le bs _ h).bind fun _ h => (oWipe_le bs _ h).bind fun _ h => .ok h

end Model
