import Verif.Proofs.Allocs
/-! How many allocations the functions of the builds with a crypto library attempt, and the tool. Those that the library makes itself are not counted. -/

namespace Model

open Spec (Kind ApiCall Reply)

section crypto

theorem bErase_allocs {σ} (p : Nat) (s : BSt σ) : Always (bErase p s) fun v => v.count = s.count := by
  unfold bErase
  cases getKey p s.live with
  | none => exact Always.ub'
  | some o => exact Always.ok rfl

theorem bInitError_allocs {σ} (p : Nat) (s : BSt σ) : Always (bInitError p s) fun v => v.2.2.count = s.count := by
  unfold bInitError
  exact Always.bind (bErase_allocs p s) fun v h => Always.pure' h

theorem bDigestInit_allocs (L : Library) (p : Nat) (evp : EvpPtr) (s : BSt L.State) : Always (bDigestInit L p evp s) fun v => v.2.2.count = s.count := by
  unfold bDigestInit
  cases L.init s.calls with
  | some st =>
    cases evp with
    | null => exact Always.ub'
    | embedded => exact Always.ok rfl
    | heap q => exact Always.ok rfl
  | none =>
    cases evp with
    | null => exact Always.ub'
    | embedded => exact bInitError_allocs p _
    | heap q => exact Always.bind (bErase_allocs q _) fun v h => (bInitError_allocs p v).mono fun _ e => e.trans h

theorem bInitialize_allocs (B : Backend) (L : Library) (al : Nat → Bool) (slot : Option Nat) (s : BSt L.State) : Always (bInitialize B L al slot s) fun v => v.2.2.count = s.count + if slot = none then 1 else 0 := by
  unfold bInitialize
  cases slot with
  | some p => exact Always.ok rfl
  | none =>
    refine Always.ite (fun _ => ?_) fun _ => Always.ok rfl
    cases B with
    | direct l =>
      dsimp only
      cases L.init s.calls with
      | some st => exact Always.ok rfl
      | none => exact bInitError_allocs _ _
    | evpEmbedded => exact bDigestInit_allocs L _ _ _
    | evpAllocated => exact Always.ite (fun _ => bDigestInit_allocs L _ _ _) fun _ => bInitError_allocs _ _

theorem bFree_allocs (B : Backend) (L : Library) (slot : Option Nat) (s : BSt L.State) : Always (bFree B L slot s) fun v => v.1 = 1 ∧ v.2.1 = none ∧ v.2.2.count = s.count := by
  unfold bFree
  cases slot with
  | none => exact Always.ok ⟨rfl, rfl, rfl⟩
  | some p =>
    dsimp only
    split
    · exact Always.bind (bErase_allocs p _) fun v h => Always.pure' ⟨rfl, rfl, h⟩
    · exact Always.bind (bErase_allocs p _) fun v h => Always.pure' ⟨rfl, rfl, h⟩
    · exact Always.bind (bErase_allocs _ _) fun v h => Always.bind (bErase_allocs p v) fun v' h' => Always.pure' ⟨rfl, rfl, h'.trans h⟩
    · exact Always.bind (bErase_allocs p _) fun v h => Always.pure' ⟨rfl, rfl, h⟩
    · exact Always.ub'

theorem bSetState_allocs {σ} (p : Nat) (st : σ) (s : BSt σ) : Always (bSetState p st s) fun v => v.count = s.count := by
  unfold bSetState
  split
  · exact Always.ok rfl
  · exact Always.ok rfl
  · exact Always.ub'

theorem oAlloc_allocs {σ} (env : OEnv) (n : Nat) (s : OSt σ) : (oAlloc env n s).2.ctxs.count = s.ctxs.count + 1 := by
  unfold oAlloc
  split <;> rfl

theorem oStore_allocs {σ} (p : Option Nat) (b : List Byte) (s : OSt σ) : Always (oStore p b s) fun v => v.ctxs.count = s.ctxs.count := by
  cases p with
  | none => exact Always.ub'
  | some p => exact Always.ok rfl

theorem oSetRegion_allocs {σ} (s : OSt σ) (p : Option Nat) (b : Option (List Byte)) : (oSetRegion s p b).ctxs.count = s.ctxs.count := by
  cases p <;> cases b <;> rfl

theorem oInitialize_allocs (B : Backend) (L : Library) (env : OEnv) (slot : Option Nat) (s : OSt L.State) :
    Always (oInitialize B L env slot s) fun v => v.2.2.ctxs.count = s.ctxs.count + if slot = none then 1 else 0 :=
  Always.bind (bInitialize_allocs B L _ slot _) fun _ h => Always.pure' h

theorem oFree_allocs (B : Backend) (L : Library) (slot : Option Nat) (s : OSt L.State) : Always (oFree B L slot s) fun v => v.1 = 1 ∧ v.2.1 = none ∧ v.2.2.ctxs.count = s.ctxs.count :=
  Always.bind (bFree_allocs B L slot _) fun _ h => Always.pure' h

theorem oFreeOpt_allocs (B : Backend) (L : Library) (p : Option Nat) (s : OSt L.State) : Always (oFreeOpt B L p s) fun v => v.ctxs.count = s.ctxs.count := by
  cases p with
  | none => exact Always.ok rfl
  | some p => exact Always.bind (oFree_allocs B L _ s) fun v h => Always.pure' h.2.2

theorem oCalculateError_allocs (B : Backend) (L : Library) (c : Option Nat) (s : OSt L.State) : Always (oCalculateError B L c s) fun v => v.2.ctxs.count = s.ctxs.count :=
  Always.bind (oFreeOpt_allocs B L c s) fun _ h => Always.pure' h

theorem oPads_allocs {σ} (bs : Nat) (env : OEnv) (l : Loc) (s : OSt σ) :
    Always (oPads bs env l s) fun v => v.2.2.ctxs.count ≤ s.ctxs.count + 2 ∧ v.2.1.context = l.context ∧ (v.1 = true → v.2.2.ctxs.count = s.ctxs.count + 2) := by
  unfold oPads
  have h1 := oAlloc_allocs env bs s
  generalize oAlloc env bs s = q at h1
  obtain ⟨p, s1⟩ := q
  have h1 : s1.ctxs.count = s.ctxs.count + 1 := h1
  cases p with
  | none => exact Always.pure' ⟨by change s1.ctxs.count ≤ _; omega, rfl, by rintro ⟨⟩⟩
  | some p =>
    refine Always.skip fun d => Always.skip fun d => Always.bind (oStore_allocs _ _ _) fun s2 h2 => ?_
    have h3 := oAlloc_allocs env bs s2
    generalize oAlloc env bs s2 = q at h3
    obtain ⟨p, s3⟩ := q
    have h3 : s3.ctxs.count = s2.ctxs.count + 1 := h3
    cases p with
    | none => exact Always.pure' ⟨by change s3.ctxs.count ≤ _; omega, rfl, by rintro ⟨⟩⟩
    | some p =>
      refine Always.skip fun _ => Always.skip fun _ => Always.bind (oStore_allocs _ _ _) fun s4 h4 => Always.skip fun _ => Always.skip fun _ => Always.skip fun _ => Always.skip fun _ => ?_
      refine Always.bind (oStore_allocs _ _ _) fun s5 h5 => Always.bind (oStore_allocs _ _ _) fun s6 h6 => Always.pure' ⟨?_, rfl, fun _ => ?_⟩
      · change s6.ctxs.count ≤ _; omega
      · change s6.ctxs.count = _; omega

theorem oWipe_allocs {σ} (bs : Nat) (p : Option Nat) (s : OSt σ) : Always (oWipe bs p s) fun v => v.ctxs.count = s.ctxs.count := by
  unfold oWipe
  refine Always.skip fun _ => Always.skip fun _ => Always.bind (oStore_allocs _ _ _) fun s1 h1 => ?_
  cases p with
  | none => exact Always.ub'
  | some p =>
    dsimp only [oFreeBlock]
    cases getKey p s1.blocks with
    | none => exact Always.ub'
    | some b => exact Always.ok h1

theorem oWipeOpt_allocs {σ} (bs : Nat) (p : Option Nat) (s : OSt σ) : Always (oWipeOpt bs p s) fun v => v.ctxs.count = s.ctxs.count := by
  cases p with
  | none => exact Always.ok rfl
  | some p => exact oWipe_allocs bs _ s

theorem oHmacError_allocs (B : Backend) (L : Library) (bs : Nat) (l : Loc) (s : OSt L.State) : Always (oHmacError B L bs l s) fun v => v.1 = -1 ∧ v.2.ctxs.count = s.ctxs.count := by
  unfold oHmacError
  refine Always.bind (oFreeOpt_allocs B L _ s) fun s1 h1 => Always.bind (oWipeOpt_allocs bs _ s1) fun s2 h2 => Always.bind (oWipeOpt_allocs bs _ s2) fun s3 h3 => Always.bind (oWipeOpt_allocs bs _ s3) fun s4 h4 => ?_
  exact Always.pure' ⟨rfl, by change s4.ctxs.count = _; omega⟩

theorem bUpdate_allocs (B : Backend) (L : Library) (slot : Option Nat) (b : Option (List Byte)) (size : Nat) (s : BSt L.State) : Always (bUpdate B L slot b size s) fun v => v.2.count = s.count := by
  unfold bUpdate
  cases slot with
  | none => exact Always.ok rfl
  | some p =>
    cases b with
    | none => exact Always.ok rfl
    | some b => exact Always.ite (fun _ => Always.ok rfl) fun _ => Always.ite (fun _ => Always.ok rfl) fun _ => Always.skip fun _ => Always.skip fun _ => Always.bind (bSetState_allocs p _ _) fun v h => Always.pure' h

theorem bFinalize_allocs (B : Backend) (L : Library) (ds : Nat) (slot : Option Nat) (o : Option (List Byte)) (n : Nat) (s : BSt L.State) : Always (bFinalize B L ds slot o n s) fun v => v.2.2.count = s.count := by
  unfold bFinalize
  cases slot with
  | none => exact Always.ok rfl
  | some p =>
    cases o with
    | none => exact Always.ok rfl
    | some o => exact Always.ite (fun _ => Always.ok rfl) fun _ => Always.ite (fun _ => Always.ok rfl) fun _ => Always.skip fun st => Always.bind (bSetState_allocs p _ _) fun v h => Always.pure' h

theorem bStep_allocs (B : Backend) (L : Library) (ds : Nat) (al : Nat → Bool) (call : ApiCall) (slot : Option Nat) (s : BSt L.State) :
    Always (bStep B L ds al call slot s) fun v => v.2.2.count = s.count + stepAllocs call slot := by
  unfold bStep
  cases call with
  | init => exact Always.bind (bInitialize_allocs B L al slot s) fun v h => Always.pure' (by simpa [stepAllocs] using h)
  | initNull => exact Always.ok (by simp [stepAllocs])
  | free => exact Always.bind (bFree_allocs B L slot s) fun v h => Always.pure' (by simpa [stepAllocs] using h.2.2)
  | freeNull => exact Always.ok (by simp [stepAllocs])
  | update b size => exact Always.bind (bUpdate_allocs B L slot b size s) fun v h => Always.pure' (by simpa [stepAllocs] using h)
  | finalize o n => exact Always.bind (bFinalize_allocs B L ds slot o n s) fun v h => Always.pure' (by simpa [stepAllocs] using h)

theorem oUpdate_allocs (B : Backend) (L : Library) (slot : Option Nat) (b : Option (List Byte)) (size : Nat) (s : OSt L.State) : Always (oUpdate B L slot b size s) fun v => v.2.ctxs.count = s.ctxs.count :=
  Always.bind (bUpdate_allocs B L slot b size _) fun _ h => Always.pure' h

theorem oFinalize_allocs (B : Backend) (L : Library) (ds : Nat) (slot : Option Nat) (o : Option (List Byte)) (n : Nat) (s : OSt L.State) : Always (oFinalize B L ds slot o n s) fun v => v.2.2.ctxs.count = s.ctxs.count :=
  Always.bind (bFinalize_allocs B L ds slot o n _) fun _ h => Always.pure' h

theorem oCalculate_allocs (B : Backend) (L : Library) (ds : Nat) (env : OEnv) (b : Option Nat) (size : Nat) (o : Option Nat) (n : Nat) (s : OSt L.State) :
    Always (oCalculate B L ds env b size o n s) fun v => v.2.ctxs.count = s.ctxs.count + 1 := by
  unfold oCalculate
  refine Always.bind (oInitialize_allocs B L env none s) fun v h1 => ?_
  obtain ⟨r, c, s1⟩ := v
  have h1 : s1.ctxs.count = s.ctxs.count + 1 := h1
  refine Always.ite (fun _ => (oCalculateError_allocs B L c s1).mono fun v h => h.trans h1) fun _ => Always.bind (oUpdate_allocs B L c _ size s1) fun v h2 => ?_
  obtain ⟨r, s2⟩ := v
  have h2 := h2.trans h1
  refine Always.ite (fun _ => (oCalculateError_allocs B L c s2).mono fun v h => h.trans h2) fun _ => Always.bind (oFinalize_allocs B L ds c _ n s2) fun v h3 => ?_
  obtain ⟨r, d, s3⟩ := v
  have h3 : (oSetRegion s3 o d).ctxs.count = s.ctxs.count + 1 := (oSetRegion_allocs s3 o d).trans (h3.trans h2)
  refine Always.ite (fun _ => (oCalculateError_allocs B L c _).mono fun v h => h.trans h3) fun _ => Always.bind (oFree_allocs B L c _) fun v h4 => ?_
  obtain ⟨r, c, s4⟩ := v
  have h4 : s4.ctxs.count = s.ctxs.count + 1 := h4.2.2.trans h3
  exact Always.ite (fun _ => (oCalculateError_allocs B L c s4).mono fun v h => h.trans h4) fun _ => Always.pure' h4

theorem oKey_allocs (B : Backend) (L : Library) (ds bs : Nat) (env : OEnv) (key : Option Nat) (ks : Nat) (l : Loc) (s : OSt L.State) (hl : l.context = none) :
    Always (oKey B L ds bs env key ks l s) fun v => v.2.2.ctxs.count ≤ s.ctxs.count + 2 ∧ (v.1 = true → v.2.1.context = none ∧ v.2.2.ctxs.count = s.ctxs.count + if ks ≤ bs then 1 else 2) := by
  unfold oKey
  have h1 := oAlloc_allocs env bs s
  generalize oAlloc env bs s = q at h1
  obtain ⟨p, s1⟩ := q
  have h1 : s1.ctxs.count = s.ctxs.count + 1 := h1
  cases p with
  | none => exact Always.pure' ⟨by change s1.ctxs.count ≤ _; omega, by rintro ⟨⟩⟩
  | some p =>
    refine Always.ite (fun hle => ?_) fun hgt => ?_
    · cases oRegion s1 key ks with
      | none => exact Always.ub'
      | some k =>
        refine Always.skip fun _ => Always.skip fun _ => Always.skip fun _ => Always.bind (oStore_allocs _ _ _) fun s2 h2 => Always.pure' ⟨?_, fun _ => ⟨hl, ?_⟩⟩
        · change s2.ctxs.count ≤ _; omega
        · change s2.ctxs.count = _
          rw [if_pos hle]
          omega
    · refine Always.bind (oInitialize_allocs B L env _ s1) fun v h2 => ?_
      obtain ⟨r, c, s2⟩ := v
      have h2 : s2.ctxs.count = s.ctxs.count + 2 := by
        change s2.ctxs.count = s1.ctxs.count + (if l.context = none then 1 else 0) at h2
        rw [hl, if_pos rfl] at h2
        omega
      refine Always.ite (fun _ => Always.pure' ⟨Nat.le_of_eq h2, by rintro ⟨⟩⟩) fun _ => Always.bind (oUpdate_allocs B L c _ ks s2) fun v h3 => ?_
      obtain ⟨r, s3⟩ := v
      have h3 : s3.ctxs.count = s.ctxs.count + 2 := h3.trans h2
      refine Always.ite (fun _ => Always.pure' ⟨Nat.le_of_eq h3, by rintro ⟨⟩⟩) fun _ => Always.bind (oFinalize_allocs B L ds c _ _ s3) fun v h4 => ?_
      obtain ⟨r, d, s4⟩ := v
      have h4' : s4.ctxs.count = s.ctxs.count + 2 := h4.trans h3
      cases d with
      | none => exact Always.ub'
      | some d =>
        refine Always.ite (fun _ => Always.pure' ⟨Nat.le_of_eq h4', by rintro ⟨⟩⟩) fun _ => Always.bind (oFree_allocs B L c s4) fun v h5 => ?_
        obtain ⟨r, c', s5⟩ := v
        obtain ⟨-, hc, h5⟩ := h5
        have h5 : s5.ctxs.count = s.ctxs.count + 2 := h5.trans h4'
        refine Always.ite (fun _ => Always.pure' ⟨Nat.le_of_eq h5, by rintro ⟨⟩⟩) fun _ => Always.skip fun _ => ?_
        refine Always.ite (fun _ => Always.skip fun _ => ?_) fun _ => Always.skip fun _ => ?_
        all_goals
          refine Always.skip fun _ => Always.bind (oStore_allocs _ _ _) fun s6 h6 => Always.pure' ⟨Nat.le_of_eq (h6.trans h5), fun _ => ⟨hc, ?_⟩⟩
          rw [if_neg hgt]
          exact h6.trans h5

theorem oPass_allocs (B : Backend) (L : Library) (ds bs : Nat) (env : OEnv) (pad b : Option Nat) (size : Nat) (o : Option Nat) (n : Nat) (l : Loc) (s : OSt L.State) (hl : l.context = none) :
    Always (oPass B L ds bs env pad b size o n l s) fun v => v.2.2.ctxs.count = s.ctxs.count + 1 ∧ (v.1 = true → v.2.1.context = none) := by
  unfold oPass
  refine Always.bind (oInitialize_allocs B L env _ s) fun v h1 => ?_
  obtain ⟨r, c, s1⟩ := v
  have h1 : s1.ctxs.count = s.ctxs.count + 1 := by
    change s1.ctxs.count = s.ctxs.count + (if l.context = none then 1 else 0) at h1
    rw [hl, if_pos rfl] at h1
    exact h1
  refine Always.ite (fun _ => Always.pure' ⟨h1, by rintro ⟨⟩⟩) fun _ => Always.skip fun _ => Always.bind (oUpdate_allocs B L c _ _ s1) fun v h2 => ?_
  obtain ⟨r, s2⟩ := v
  have h2 : s2.ctxs.count = s.ctxs.count + 1 := h2.trans h1
  refine Always.ite (fun _ => Always.pure' ⟨h2, by rintro ⟨⟩⟩) fun _ => Always.bind (oUpdate_allocs B L c _ _ s2) fun v h3 => ?_
  obtain ⟨r, s3⟩ := v
  have h3 : s3.ctxs.count = s.ctxs.count + 1 := h3.trans h2
  refine Always.ite (fun _ => Always.pure' ⟨h3, by rintro ⟨⟩⟩) fun _ => Always.bind (oFinalize_allocs B L ds c _ _ s3) fun v h4 => ?_
  obtain ⟨r, d, s4⟩ := v
  have h4 : (oSetRegion s4 o d).ctxs.count = s.ctxs.count + 1 := (oSetRegion_allocs s4 o d).trans (h4.trans h3)
  refine Always.ite (fun _ => Always.pure' ⟨h4, by rintro ⟨⟩⟩) fun _ => Always.bind (oFree_allocs B L c _) fun v h5 => ?_
  obtain ⟨r, c', s5⟩ := v
  obtain ⟨-, hc, h5⟩ := h5
  have h5 : s5.ctxs.count = s.ctxs.count + 1 := h5.trans h4
  exact Always.ite (fun _ => Always.pure' ⟨h5, by rintro ⟨⟩⟩) fun _ => Always.pure' ⟨h5, fun _ => hc⟩

theorem oCalculateHmac_allocs (B : Backend) (L : Library) (ds bs : Nat) (env : OEnv) (kh : List Byte) (key : Option Nat) (ks : Nat) (b : Option Nat) (size : Nat) (o : Option Nat) (n : Nat) (s : OSt L.State) :
    Always (oCalculateHmac B L ds bs env kh key ks b size o n s) fun v => v.2.ctxs.count ≤ s.ctxs.count + 6 ∧ (v.1 = 1 → v.2.ctxs.count = s.ctxs.count + if ks ≤ bs then 5 else 6) := by
  unfold oCalculateHmac
  cases key with
  | none => exact Always.ok ⟨Nat.le_add_right _ _, by rintro ⟨⟩⟩
  | some k =>
    refine Always.ite (fun _ => Always.ok ⟨Nat.le_add_right _ _, by rintro ⟨⟩⟩) fun _ => Always.ite (fun _ => Always.ok ⟨Nat.le_add_right _ _, by rintro ⟨⟩⟩) fun _ => ?_
    have err : ∀ l (t : OSt L.State), t.ctxs.count ≤ s.ctxs.count + 6 → Always (oHmacError B L bs l t) fun v => v.2.ctxs.count ≤ s.ctxs.count + 6 ∧ (v.1 = 1 → v.2.ctxs.count = s.ctxs.count + if ks ≤ bs then 5 else 6) :=
      fun l t ht => (oHmacError_allocs B L bs l t).mono fun v h => ⟨h.2 ▸ ht, fun e => absurd (h.1.symm.trans e) (by decide)⟩
    refine Always.bind (oKey_allocs B L ds bs env (some k) ks _ s rfl) fun v h1 => ?_
    obtain ⟨ok, l, s1⟩ := v
    obtain ⟨h1, h1'⟩ := h1
    have h1 : s1.ctxs.count ≤ s.ctxs.count + 2 := h1
    refine Always.ite (fun _ => err l s1 (by omega)) fun hok => ?_
    obtain ⟨hl, h1'⟩ := h1' (by simpa using hok)
    have h1' : s1.ctxs.count = s.ctxs.count + if ks ≤ bs then 1 else 2 := h1'
    refine Always.bind (oPads_allocs bs env l s1) fun v h2 => ?_
    obtain ⟨ok, l2, s2⟩ := v
    obtain ⟨h2, hl2, h2'⟩ := h2
    have h2 : s2.ctxs.count ≤ s1.ctxs.count + 2 := h2
    refine Always.ite (fun _ => err l2 s2 (by omega)) fun hok => ?_
    have h2' : s2.ctxs.count = s1.ctxs.count + 2 := h2' (by simpa using hok)
    refine Always.bind (oPass_allocs B L ds bs env l2.inner b size o n l2 s2 (hl2.trans hl)) fun v h3 => ?_
    obtain ⟨ok, l3, s3⟩ := v
    obtain ⟨h3, hl3⟩ := h3
    have h3 : s3.ctxs.count = s2.ctxs.count + 1 := h3
    refine Always.ite (fun _ => err l3 s3 (by omega)) fun hok => ?_
    refine Always.bind (oPass_allocs B L ds bs env l3.outer o ds o n l3 s3 (hl3 (by simpa using hok))) fun v h4 => ?_
    obtain ⟨ok, l4, s4⟩ := v
    have h4 : s4.ctxs.count = s3.ctxs.count + 1 := h4.1
    refine Always.ite (fun _ => err l4 s4 (by omega)) fun hok => ?_
    refine Always.bind (oWipe_allocs bs _ s4) fun s5 h5 => Always.bind (oWipe_allocs bs _ s5) fun s6 h6 => Always.bind (oWipe_allocs bs _ s6) fun s7 h7 => Always.pure' ⟨?_, fun _ => ?_⟩
    · change s7.ctxs.count ≤ _
      omega
    · change s7.ctxs.count = _
      split at h1' <;> simp only [*, if_true, if_false] <;> omega

theorem hostBUpdate_allocs (hb : Nat) (B : Backend) (L : Library) (slot : Option Nat) (b : Option (List Byte)) (size : Nat) (s : BSt L.State) : Always (hostBUpdate hb B L slot b size s) fun v => v.2.count = s.count := by
  unfold hostBUpdate
  cases slot with
  | none => exact Always.ok rfl
  | some p =>
    cases b with
    | none => exact Always.ok rfl
    | some b => exact Always.ite (fun _ => Always.ok rfl) fun _ => Always.ite (fun _ => Always.ok rfl) fun _ => Always.skip fun _ => Always.skip fun _ => Always.bind (bSetState_allocs p _ _) fun v h => Always.pure' h

theorem hostBFinalize_allocs (hb : Nat) (B : Backend) (L : Library) (ds : Nat) (slot : Option Nat) (o : Option (List Byte)) (n : Nat) (s : BSt L.State) : Always (hostBFinalize hb B L ds slot o n s) fun v => v.2.2.count = s.count := by
  unfold hostBFinalize
  cases slot with
  | none => exact Always.ok rfl
  | some p =>
    cases o with
    | none => exact Always.ok rfl
    | some o => exact Always.ite (fun _ => Always.ok rfl) fun _ => Always.ite (fun _ => Always.ok rfl) fun _ => Always.skip fun st => Always.bind (bSetState_allocs p _ _) fun v h => Always.pure' h

theorem hostBStep_allocs (hb : Nat) (B : Backend) (L : Library) (ds : Nat) (al : Nat → Bool) (call : ApiCall) (slot : Option Nat) (s : BSt L.State) :
    Always (hostBStep hb B L ds al call slot s) fun v => v.2.2.count = s.count + stepAllocs call slot := by
  unfold hostBStep
  cases call with
  | init => exact Always.bind (bInitialize_allocs B L al slot s) fun v h => Always.pure' (by simpa [stepAllocs] using h)
  | initNull => exact Always.ok (by simp [stepAllocs])
  | free => exact Always.bind (bFree_allocs B L slot s) fun v h => Always.pure' (by simpa [stepAllocs] using h.2.2)
  | freeNull => exact Always.ok (by simp [stepAllocs])
  | update b size => exact Always.bind (hostBUpdate_allocs hb B L slot b size s) fun v h => Always.pure' (by simpa [stepAllocs] using h)
  | finalize o n => exact Always.bind (hostBFinalize_allocs hb B L ds slot o n s) fun v h => Always.pure' (by simpa [stepAllocs] using h)

theorem hostOUpdate_allocs (hb : Nat) (B : Backend) (L : Library) (slot : Option Nat) (b : Option (List Byte)) (size : Nat) (s : OSt L.State) : Always (hostOUpdate hb B L slot b size s) fun v => v.2.ctxs.count = s.ctxs.count :=
  Always.bind (hostBUpdate_allocs hb B L slot b size _) fun _ h => Always.pure' h

theorem hostOFinalize_allocs (hb : Nat) (B : Backend) (L : Library) (ds : Nat) (slot : Option Nat) (o : Option (List Byte)) (n : Nat) (s : OSt L.State) : Always (hostOFinalize hb B L ds slot o n s) fun v => v.2.2.ctxs.count = s.ctxs.count :=
  Always.bind (hostBFinalize_allocs hb B L ds slot o n _) fun _ h => Always.pure' h

theorem hostOCalculate_allocs (hb : Nat) (B : Backend) (L : Library) (ds : Nat) (env : OEnv) (b : Option Nat) (size : Nat) (o : Option Nat) (n : Nat) (s : OSt L.State) :
    Always (hostOCalculate hb B L ds env b size o n s) fun v => v.2.ctxs.count = s.ctxs.count + 1 := by
  unfold hostOCalculate
  refine Always.bind (oInitialize_allocs B L env none s) fun v h1 => ?_
  obtain ⟨r, c, s1⟩ := v
  have h1 : s1.ctxs.count = s.ctxs.count + 1 := h1
  refine Always.ite (fun _ => (oCalculateError_allocs B L c s1).mono fun v h => h.trans h1) fun _ => Always.bind (hostOUpdate_allocs hb B L c _ size s1) fun v h2 => ?_
  obtain ⟨r, s2⟩ := v
  have h2 := h2.trans h1
  refine Always.ite (fun _ => (oCalculateError_allocs B L c s2).mono fun v h => h.trans h2) fun _ => Always.bind (hostOFinalize_allocs hb B L ds c _ n s2) fun v h3 => ?_
  obtain ⟨r, d, s3⟩ := v
  have h3 : (oSetRegion s3 o d).ctxs.count = s.ctxs.count + 1 := (oSetRegion_allocs s3 o d).trans (h3.trans h2)
  refine Always.ite (fun _ => (oCalculateError_allocs B L c _).mono fun v h => h.trans h3) fun _ => Always.bind (oFree_allocs B L c _) fun v h4 => ?_
  obtain ⟨r, c, s4⟩ := v
  have h4 : s4.ctxs.count = s.ctxs.count + 1 := h4.2.2.trans h3
  exact Always.ite (fun _ => (oCalculateError_allocs B L c s4).mono fun v h => h.trans h4) fun _ => Always.pure' h4

theorem hostOKey_allocs (hb : Nat) (B : Backend) (L : Library) (ds bs : Nat) (env : OEnv) (key : Option Nat) (ks : Nat) (l : Loc) (s : OSt L.State) (hl : l.context = none) :
    Always (hostOKey hb B L ds bs env key ks l s) fun v => v.2.2.ctxs.count ≤ s.ctxs.count + 2 ∧ (v.1 = true → v.2.1.context = none ∧ v.2.2.ctxs.count = s.ctxs.count + if ks ≤ bs then 1 else 2) := by
  unfold hostOKey
  have h1 := oAlloc_allocs env bs s
  generalize oAlloc env bs s = q at h1
  obtain ⟨p, s1⟩ := q
  have h1 : s1.ctxs.count = s.ctxs.count + 1 := h1
  cases p with
  | none => exact Always.pure' ⟨by change s1.ctxs.count ≤ _; omega, by rintro ⟨⟩⟩
  | some p =>
    refine Always.ite (fun hle => ?_) fun hgt => ?_
    · cases oRegion s1 key ks with
      | none => exact Always.ub'
      | some k =>
        refine Always.skip fun _ => Always.skip fun _ => Always.skip fun _ => Always.bind (oStore_allocs _ _ _) fun s2 h2 => Always.pure' ⟨?_, fun _ => ⟨hl, ?_⟩⟩
        · change s2.ctxs.count ≤ _; omega
        · change s2.ctxs.count = _
          rw [if_pos hle]
          omega
    · refine Always.bind (oInitialize_allocs B L env _ s1) fun v h2 => ?_
      obtain ⟨r, c, s2⟩ := v
      have h2 : s2.ctxs.count = s.ctxs.count + 2 := by
        change s2.ctxs.count = s1.ctxs.count + (if l.context = none then 1 else 0) at h2
        rw [hl, if_pos rfl] at h2
        omega
      refine Always.ite (fun _ => Always.pure' ⟨Nat.le_of_eq h2, by rintro ⟨⟩⟩) fun _ => Always.bind (hostOUpdate_allocs hb B L c _ ks s2) fun v h3 => ?_
      obtain ⟨r, s3⟩ := v
      have h3 : s3.ctxs.count = s.ctxs.count + 2 := h3.trans h2
      refine Always.ite (fun _ => Always.pure' ⟨Nat.le_of_eq h3, by rintro ⟨⟩⟩) fun _ => Always.bind (hostOFinalize_allocs hb B L ds c _ _ s3) fun v h4 => ?_
      obtain ⟨r, d, s4⟩ := v
      have h4' : s4.ctxs.count = s.ctxs.count + 2 := h4.trans h3
      cases d with
      | none => exact Always.ub'
      | some d =>
        refine Always.ite (fun _ => Always.pure' ⟨Nat.le_of_eq h4', by rintro ⟨⟩⟩) fun _ => Always.bind (oFree_allocs B L c s4) fun v h5 => ?_
        obtain ⟨r, c', s5⟩ := v
        obtain ⟨-, hc, h5⟩ := h5
        have h5 : s5.ctxs.count = s.ctxs.count + 2 := h5.trans h4'
        refine Always.ite (fun _ => Always.pure' ⟨Nat.le_of_eq h5, by rintro ⟨⟩⟩) fun _ => Always.skip fun _ => ?_
        refine Always.ite (fun _ => Always.skip fun _ => ?_) fun _ => Always.skip fun _ => ?_
        all_goals
          refine Always.skip fun _ => Always.bind (oStore_allocs _ _ _) fun s6 h6 => Always.pure' ⟨Nat.le_of_eq (h6.trans h5), fun _ => ⟨hc, ?_⟩⟩
          rw [if_neg hgt]
          exact h6.trans h5

theorem hostOPass_allocs (hb : Nat) (B : Backend) (L : Library) (ds bs : Nat) (env : OEnv) (pad b : Option Nat) (size : Nat) (o : Option Nat) (n : Nat) (l : Loc) (s : OSt L.State) (hl : l.context = none) :
    Always (hostOPass hb B L ds bs env pad b size o n l s) fun v => v.2.2.ctxs.count = s.ctxs.count + 1 ∧ (v.1 = true → v.2.1.context = none) := by
  unfold hostOPass
  refine Always.bind (oInitialize_allocs B L env _ s) fun v h1 => ?_
  obtain ⟨r, c, s1⟩ := v
  have h1 : s1.ctxs.count = s.ctxs.count + 1 := by
    change s1.ctxs.count = s.ctxs.count + (if l.context = none then 1 else 0) at h1
    rw [hl, if_pos rfl] at h1
    exact h1
  refine Always.ite (fun _ => Always.pure' ⟨h1, by rintro ⟨⟩⟩) fun _ => Always.skip fun _ => Always.bind (hostOUpdate_allocs hb B L c _ _ s1) fun v h2 => ?_
  obtain ⟨r, s2⟩ := v
  have h2 : s2.ctxs.count = s.ctxs.count + 1 := h2.trans h1
  refine Always.ite (fun _ => Always.pure' ⟨h2, by rintro ⟨⟩⟩) fun _ => Always.bind (hostOUpdate_allocs hb B L c _ _ s2) fun v h3 => ?_
  obtain ⟨r, s3⟩ := v
  have h3 : s3.ctxs.count = s.ctxs.count + 1 := h3.trans h2
  refine Always.ite (fun _ => Always.pure' ⟨h3, by rintro ⟨⟩⟩) fun _ => Always.bind (hostOFinalize_allocs hb B L ds c _ _ s3) fun v h4 => ?_
  obtain ⟨r, d, s4⟩ := v
  have h4 : (oSetRegion s4 o d).ctxs.count = s.ctxs.count + 1 := (oSetRegion_allocs s4 o d).trans (h4.trans h3)
  refine Always.ite (fun _ => Always.pure' ⟨h4, by rintro ⟨⟩⟩) fun _ => Always.bind (oFree_allocs B L c _) fun v h5 => ?_
  obtain ⟨r, c', s5⟩ := v
  obtain ⟨-, hc, h5⟩ := h5
  have h5 : s5.ctxs.count = s.ctxs.count + 1 := h5.trans h4
  exact Always.ite (fun _ => Always.pure' ⟨h5, by rintro ⟨⟩⟩) fun _ => Always.pure' ⟨h5, fun _ => hc⟩

theorem hostOCalculateHmac_allocs (hb : Nat) (B : Backend) (L : Library) (ds bs : Nat) (env : OEnv) (kh : List Byte) (key : Option Nat) (ks : Nat) (b : Option Nat) (size : Nat) (o : Option Nat) (n : Nat) (s : OSt L.State) :
    Always (hostOCalculateHmac hb B L ds bs env kh key ks b size o n s) fun v => v.2.ctxs.count ≤ s.ctxs.count + 6 ∧ (v.1 = 1 → v.2.ctxs.count = s.ctxs.count + if ks ≤ bs then 5 else 6) := by
  unfold hostOCalculateHmac
  cases key with
  | none => exact Always.ok ⟨Nat.le_add_right _ _, by rintro ⟨⟩⟩
  | some k =>
    refine Always.ite (fun _ => Always.ok ⟨Nat.le_add_right _ _, by rintro ⟨⟩⟩) fun _ => Always.ite (fun _ => Always.ok ⟨Nat.le_add_right _ _, by rintro ⟨⟩⟩) fun _ => ?_
    have err : ∀ l (t : OSt L.State), t.ctxs.count ≤ s.ctxs.count + 6 → Always (oHmacError B L bs l t) fun v => v.2.ctxs.count ≤ s.ctxs.count + 6 ∧ (v.1 = 1 → v.2.ctxs.count = s.ctxs.count + if ks ≤ bs then 5 else 6) :=
      fun l t ht => (oHmacError_allocs B L bs l t).mono fun v h => ⟨h.2 ▸ ht, fun e => absurd (h.1.symm.trans e) (by decide)⟩
    refine Always.bind (hostOKey_allocs hb B L ds bs env (some k) ks _ s rfl) fun v h1 => ?_
    obtain ⟨ok, l, s1⟩ := v
    obtain ⟨h1, h1'⟩ := h1
    have h1 : s1.ctxs.count ≤ s.ctxs.count + 2 := h1
    refine Always.ite (fun _ => err l s1 (by omega)) fun hok => ?_
    obtain ⟨hl, h1'⟩ := h1' (by simpa using hok)
    have h1' : s1.ctxs.count = s.ctxs.count + if ks ≤ bs then 1 else 2 := h1'
    refine Always.bind (oPads_allocs bs env l s1) fun v h2 => ?_
    obtain ⟨ok, l2, s2⟩ := v
    obtain ⟨h2, hl2, h2'⟩ := h2
    have h2 : s2.ctxs.count ≤ s1.ctxs.count + 2 := h2
    refine Always.ite (fun _ => err l2 s2 (by omega)) fun hok => ?_
    have h2' : s2.ctxs.count = s1.ctxs.count + 2 := h2' (by simpa using hok)
    refine Always.bind (hostOPass_allocs hb B L ds bs env l2.inner b size o n l2 s2 (hl2.trans hl)) fun v h3 => ?_
    obtain ⟨ok, l3, s3⟩ := v
    obtain ⟨h3, hl3⟩ := h3
    have h3 : s3.ctxs.count = s2.ctxs.count + 1 := h3
    refine Always.ite (fun _ => err l3 s3 (by omega)) fun hok => ?_
    refine Always.bind (hostOPass_allocs hb B L ds bs env l3.outer o ds o n l3 s3 (hl3 (by simpa using hok))) fun v h4 => ?_
    obtain ⟨ok, l4, s4⟩ := v
    have h4 : s4.ctxs.count = s3.ctxs.count + 1 := h4.1
    refine Always.ite (fun _ => err l4 s4 (by omega)) fun hok => ?_
    refine Always.bind (oWipe_allocs bs _ s4) fun s5 h5 => Always.bind (oWipe_allocs bs _ s5) fun s6 h6 => Always.bind (oWipe_allocs bs _ s6) fun s7 h7 => Always.pure' ⟨?_, fun _ => ?_⟩
    · change s7.ctxs.count ≤ _
      omega
    · change s7.ctxs.count = _
      split at h1' <;> simp only [*, if_true, if_false] <;> omega

end crypto

/-- Each call attempts the allocations of `stepAllocs`, and an attempt is counted. -/
structure Contexts.Counted {M : Type} (C : Contexts M) : Prop where
  call : ∀ k c n slot m, Always (C.call k c n slot m) fun v => C.count v.2.2 = C.count m + stepAllocs c slot
  attempt : ∀ m, C.count (C.attempt m) = C.count m + 1

theorem builtin_counted (T : Tool) : (Contexts.builtin T).Counted :=
  ⟨fun _ _ _ _ _ => Always.bind (step_allocs _ _ _ _ _ _ _) fun _ h => Always.pure' h, fun _ => rfl⟩

theorem host_counted (hb : Nat) (T : Tool) : (Contexts.host hb T).Counted :=
  ⟨fun _ _ _ _ _ => Always.bind (hostStep_allocs hb _ _ _ _ _ _ _) fun _ h => Always.pure' h, fun _ => rfl⟩

theorem mixed_counted (ch : Kind → Choice) (L : Kind → Library) (T : Tool) : (Contexts.mixed ch L T).Counted := by
  refine ⟨fun k c n slot m => ?_, fun _ => rfl⟩
  dsimp only [Contexts.mixed]
  cases ch k with
  | builtin => exact Always.bind ((builtin_counted T).call k c n slot m.mem) fun _ h => Always.pure' h
  | crypto b => exact Always.bind (bStep_allocs b (L k) _ _ c slot _) fun _ h => Always.pure' h

theorem mixedHost_counted (hb : Nat) (ch : Kind → Choice) (L : Kind → Library) (T : Tool) : (Contexts.mixedHost hb ch L T).Counted := by
  refine ⟨fun k c n slot m => ?_, fun _ => rfl⟩
  dsimp only [Contexts.mixedHost]
  cases ch k with
  | builtin => exact Always.bind ((host_counted hb T).call k c n slot m.mem) fun _ h => Always.pure' h
  | crypto b => exact Always.bind (hostBStep_allocs hb b (L k) _ _ c slot _) fun _ h => Always.pure' h

namespace Builds

variable {M : Type} {C : Contexts M}

theorem allocBlock_allocs (hC : C.Counted) (T : Tool) (W : WorldOf M) : C.count (allocBlock T C W).2.mem = C.count W.mem + 1 := by
  unfold allocBlock
  split
  · exact hC.attempt _
  · exact hC.attempt _

theorem ctxCall_allocs (hC : C.Counted) (k : Kind) (c : ApiCall) (n : Nat) (h : Handle) (W : WorldOf M) : Always (ctxCall C k c n h W) fun v => C.count v.2.2.mem ≤ C.count W.mem + (if c = .init then 1 else 0) := by
  unfold ctxCall
  refine Always.bind (hC.call k c n _ _) fun v e => Always.pure' ?_
  change C.count v.2.2 ≤ _
  rw [e, stepAllocs]
  split <;> split <;> simp_all

theorem initHashes_allocs (hC : C.Counted) : ∀ (ks : List Kind) (h : Handle) (W : WorldOf M), Always (initHashes C ks h W) fun v => C.count v.2.2.mem ≤ C.count W.mem + ks.length
  | [], h, W => Always.ok (Nat.le_refl _)
  | k :: ks, h, W => by
    unfold initHashes
    refine Always.ite (fun _ => Always.bind (ctxCall_allocs hC k .init _ h W) fun v e => ?_) fun _ => (initHashes_allocs hC ks h W).mono fun v e => Nat.le_trans e (by simp)
    obtain ⟨r, h1, W1⟩ := v
    have e : C.count W1.mem ≤ C.count W.mem + 1 := e
    refine Always.ite (fun _ => Always.pure' ?_) fun _ => (initHashes_allocs hC ks h1 W1).mono fun v e' => ?_
    · change C.count W1.mem ≤ _
      simp only [List.length_cons]; omega
    · simp only [List.length_cons]; omega

theorem freeHash_allocs (hC : C.Counted) (k : Kind) (h : Handle) (W : WorldOf M) : Always (freeHash C k h W) fun v => C.count v.2.mem ≤ C.count W.mem := by
  unfold freeHash
  cases h.context k with
  | none => exact Always.ok (Nat.le_refl _)
  | some p => exact Always.bind (ctxCall_allocs hC k .free _ h W) fun v e => Always.pure' e

theorem initIntegrity_allocs (hC : C.Counted) (h : Handle) (W : WorldOf M) : Always (initIntegrity C h W) fun v => C.count v.2.2.mem ≤ C.count W.mem + 5 := by
  unfold initIntegrity
  refine Always.bind (initHashes_allocs hC digestOrder h W) fun v e => ?_
  obtain ⟨ok, h1, W1⟩ := v
  have e : C.count W1.mem ≤ C.count W.mem + 5 := e
  refine Always.ite (fun _ => Always.pure' e) fun _ => Always.bind (freeHash_allocs hC .sha1 h1 W1) fun v e2 => Always.bind (freeHash_allocs hC .md5 v.1 v.2) fun v' e3 => Always.pure' ?_
  exact Nat.le_trans e3 (Nat.le_trans e2 e)

theorem updateHashes_allocs (hC : C.Counted) (b : List Byte) (size : Nat) : ∀ (ks : List Kind) (h : Handle) (W : WorldOf M), Always (updateHashes C b size ks h W) fun v => C.count v.2.2.mem ≤ C.count W.mem
  | [], h, W => Always.ok (Nat.le_refl _)
  | k :: ks, h, W => by
    unfold updateHashes
    refine Always.ite (fun _ => Always.bind (ctxCall_allocs hC k _ _ h W) fun v e => ?_) fun _ => updateHashes_allocs hC b size ks h W
    exact Always.ite (fun _ => Always.pure' e) fun _ => (updateHashes_allocs hC b size ks v.2.1 v.2.2).mono fun v e' => Nat.le_trans e' e

theorem updateIntegrity_allocs (hC : C.Counted) (b : List Byte) (size : Nat) (h : Handle) (W : WorldOf M) : Always (updateIntegrity C b size h W) fun v => C.count v.2.2.mem ≤ C.count W.mem :=
  Always.ite (fun _ => Always.ok (Nat.le_refl _)) fun _ => updateHashes_allocs hC b size _ h W

theorem finalizeHashes_allocs (hC : C.Counted) (T : Tool) : ∀ (ks : List Kind) (h : Handle) (W : WorldOf M), Always (finalizeHashes T C ks h W) fun v => C.count v.2.2.mem ≤ C.count W.mem
  | [], h, W => Always.ok (Nat.le_refl _)
  | k :: ks, h, W => by
    unfold finalizeHashes
    refine Always.ite (fun _ => ?_) fun _ => finalizeHashes_allocs hC T ks h W
    cases h.hashString k with
    | none => exact Always.ok (Nat.le_refl _)
    | some p =>
      obtain ⟨p, str⟩ := p
      refine Always.bind (ctxCall_allocs hC k _ _ h W) fun v e => Always.ite (fun _ => Always.pure' e) fun _ => Always.skip fun x => ?_
      exact Always.ite (fun _ => Always.pure' e) fun _ => (finalizeHashes_allocs hC T ks _ v.2.2).mono fun v e' => Nat.le_trans e' e

theorem processLoop_allocs (hC : C.Counted) (inp : Input) (ab : Nat → Bool) (ms : Nat) : ∀ (fuel pc : Nat) (b : List Byte) (h : Handle) (W : WorldOf M),
    Always (processLoop C inp ab ms fuel pc b h W) fun v => C.count v.2.2.mem ≤ C.count W.mem := by
  intro fuel
  induction fuel with
  | zero =>
    intro pc b h W
    unfold processLoop
    exact Always.ite (fun _ => Always.diverge') fun _ => Always.ok (Nat.le_refl _)
  | succ fuel ih =>
    intro pc b h W
    unfold processLoop
    refine Always.ite (fun _ => ?_) fun _ => Always.ok (Nat.le_refl _)
    dsimp only
    generalize readInput C inp _ h = q
    obtain ⟨d, h1⟩ := q
    cases d with
    | none => exact Always.pure' (Nat.le_refl _)
    | some d =>
      refine Always.skip fun b => Always.ite (fun _ => Always.pure' (Nat.le_refl _)) fun _ => Always.bind (updateIntegrity_allocs hC b _ h1 W) fun v e => ?_
      refine Always.ite (fun _ => Always.pure' e) fun _ => Always.ite (fun _ => Always.pure' e) fun _ => (ih _ _ _ v.2.2).mono fun v e' => Nat.le_trans e' e

theorem freeBlock_mem (p : Nat) (W : WorldOf M) : Always (freeBlock p W) fun v => v.mem = W.mem := by
  unfold freeBlock
  exact Always.ite (fun _ => Always.ok rfl) fun _ => Always.ub'

theorem processError_allocs (p : Nat) (h : Handle) (W : WorldOf M) : Always (processError p h W) fun v => C.count v.2.2.mem ≤ C.count W.mem := by
  unfold processError
  exact Always.bind (freeBlock_mem p W) fun v e => Always.pure' (by change C.count v.mem ≤ _; rw [e])

theorem processInput_allocs (hC : C.Counted) (T : Tool) (inp : Input) (ab : Nat → Bool) (h : Handle) (W : WorldOf M) : Always (processInput T C inp ab h W) fun v => C.count v.2.2.mem ≤ C.count W.mem + 6 := by
  unfold processInput
  refine Always.ite (fun _ => Always.ok (Nat.le_add_right _ _)) fun _ => ?_
  cases inp.size with
  | none => exact Always.ok (Nat.le_add_right _ _)
  | some ms =>
    dsimp only
    have e1 := allocBlock_allocs hC T W
    generalize allocBlock T C W = q at e1
    obtain ⟨p, W1⟩ := q
    have e1 : C.count W1.mem = C.count W.mem + 1 := e1
    cases p with
    | none => exact Always.ok (by change C.count W1.mem ≤ _; omega)
    | some p =>
      refine Always.bind (initIntegrity_allocs hC h W1) fun v e2 => ?_
      obtain ⟨r, h2, W2⟩ := v
      have e2 : C.count W2.mem ≤ C.count W1.mem + 5 := e2
      refine Always.ite (fun _ => (processError_allocs (C := C) p h2 W2).mono fun v e => by omega) fun _ => Always.bind (processLoop_allocs hC inp ab ms ms 0 _ h2 W2) fun v e3 => ?_
      obtain ⟨ok, h3, W3⟩ := v
      have e3 : C.count W3.mem ≤ C.count W2.mem := e3
      refine Always.ite (fun _ => (processError_allocs (C := C) p h3 W3).mono fun v e => by omega) fun _ => Always.bind (freeBlock_mem p W3) fun W4 e4 => Always.bind (finalizeHashes_allocs hC T _ h3 W4) fun v e5 => ?_
      rw [e4] at e5
      refine Always.ite (fun _ => Always.pure' ?_) fun _ => Always.pure' ?_ <;> (change C.count v.2.2.mem ≤ _; omega)

theorem sumInitialize_allocs (hC : C.Counted) (T : Tool) (slot : Option Handle) (W : WorldOf M) : Always (sumInitialize T C slot W) fun v => C.count v.2.2.mem ≤ C.count W.mem + 3 := by
  unfold sumInitialize
  cases slot with
  | some h => exact Always.ok (Nat.le_add_right _ _)
  | none =>
    dsimp only
    have e1 := allocBlock_allocs hC T W
    generalize allocBlock T C W = q at e1
    obtain ⟨p, W1⟩ := q
    have e1 : C.count W1.mem = C.count W.mem + 1 := e1
    cases p with
    | none => exact Always.ok (by change C.count W1.mem ≤ _; omega)
    | some p =>
      dsimp only
      have e2 := allocBlock_allocs hC T W1
      generalize allocBlock T C W1 = q at e2
      obtain ⟨i, W2⟩ := q
      have e2 : C.count W2.mem = C.count W1.mem + 1 := e2
      cases i with
      | none => exact Always.bind (freeBlock_mem p W2) fun v e => Always.pure' (by change C.count v.mem ≤ _; rw [e]; omega)
      | some i =>
        dsimp only
        have e3 := allocBlock_allocs hC T W2
        generalize allocBlock T C W2 = q at e3
        obtain ⟨str, W3⟩ := q
        have e3 : C.count W3.mem = C.count W2.mem + 1 := e3
        cases str with
        | none => exact Always.bind (freeBlock_mem p W3) fun v e => Always.pure' (by change C.count v.mem ≤ _; rw [e]; omega)
        | some str => exact Always.ok (by change C.count W3.mem ≤ _; omega)

theorem freeOptBlock_mem (p : Option Nat) (W : WorldOf M) : Always (freeOptBlock p W) fun v => v.mem = W.mem := by
  cases p with
  | none => exact Always.ok rfl
  | some p => exact freeBlock_mem p W

theorem freeHashes_allocs (hC : C.Counted) : ∀ (ks : List Kind) (r : Int) (h : Handle) (W : WorldOf M), Always (freeHashes C ks r h W) fun v => C.count v.2.2.mem ≤ C.count W.mem
  | [], r, h, W => Always.ok (Nat.le_refl _)
  | k :: ks, r, h, W => by
    unfold freeHashes
    refine Always.bind (P := fun v => C.count v.2.2.mem ≤ C.count W.mem) ?_ fun v e => Always.bind (freeOptBlock_mem _ v.2.2) fun W2 e2 => (freeHashes_allocs hC ks _ _ W2).mono fun v' e3 => ?_
    · unfold freeContext
      cases h.context k with
      | none => exact Always.ok (Nat.le_refl _)
      | some p => exact Always.bind (ctxCall_allocs hC k .free _ h W) fun v e => Always.pure' e
    · rw [e2] at e3
      exact Nat.le_trans e3 e

theorem sumFree_allocs (hC : C.Counted) (ok : Bool) (slot : Option Handle) (W : WorldOf M) : Always (sumFree C ok slot W) fun v => C.count v.2.2.mem ≤ C.count W.mem := by
  unfold sumFree
  cases slot with
  | none => exact Always.ok (Nat.le_refl _)
  | some h =>
    refine Always.bind (freeHashes_allocs hC _ 1 h W) fun v e => Always.bind (freeOptBlock_mem _ v.2.2) fun W2 e2 => Always.bind (freeBlock_mem _ W2) fun W3 e3 => Always.pure' ?_
    change C.count W3.mem ≤ _
    rw [e3, e2]
    exact e

/-- The number of algorithms for which a hash string is still to be allocated. -/
def pending (h : Handle) (ks : List Kind) : Nat := ks.countP fun k => !h.calculate k

theorem enableDigests_allocs (hC : C.Counted) (T : Tool) (f : Kind → Bool) : ∀ (ks : List Kind) (h : Handle) (W : WorldOf M), ks.Nodup → C.count (enableDigests T C f ks h W).2.2.mem ≤ C.count W.mem + pending h ks
  | [], h, W, _ => Nat.le_refl _
  | k :: ks, h, W, hn => by
    unfold enableDigests
    have hp : pending h (k :: ks) = pending h ks + if h.calculate k then 0 else 1 := by
      unfold pending
      rw [List.countP_cons]
      cases h.calculate k <;> rfl
    rw [hp]
    by_cases hk : (f k && !h.calculate k) = true
    · rw [if_pos hk]
      have hc : h.calculate k = false := by
        rw [Bool.and_eq_true] at hk
        simpa using hk.2
      rw [hc]
      have e1 := allocBlock_allocs hC T W
      generalize allocBlock T C W = q at e1
      obtain ⟨p, W1⟩ := q
      have e1 : C.count W1.mem = C.count W.mem + 1 := e1
      cases p with
      | none =>
        change C.count W1.mem ≤ _
        simp only [Bool.false_eq_true, if_false]
        omega
      | some p =>
        refine Nat.le_trans (enableDigests_allocs hC T f ks _ W1 (List.nodup_cons.mp hn).2) ?_
        have : pending { h with calculate := Function.update h.calculate k true, hashString := Function.update h.hashString k (some (p, T.stringJunk k)) } ks = pending h ks := by
          unfold pending
          refine List.countP_congr fun x hx => ?_
          have : x ≠ k := fun e => (List.nodup_cons.mp hn).1 (e ▸ hx)
          simp [Function.update_of_ne this]
        rw [this]
        simp only [Bool.false_eq_true, if_false]
        omega
    · rw [if_neg hk]
      exact Nat.le_trans (enableDigests_allocs hC T f ks h W (List.nodup_cons.mp hn).2) (by omega)

theorem setDigestTypes_allocs (hC : C.Counted) (T : Tool) (mc a b : Bool) (str : List Nat) (h : Handle) (W : WorldOf M) :
    Always (setDigestTypes T C mc a b str h W) fun v => C.count v.2.2.mem ≤ C.count W.mem + pending h digestOrder := by
  unfold setDigestTypes
  refine Always.ite (fun _ => Always.ok (Nat.le_add_right _ _)) fun _ => Always.skip fun f => Always.pure' ?_
  exact enableDigests_allocs hC T f digestOrder h W (by decide)

theorem onError_allocs (hC : C.Counted) (E : Environment) (out : List Spec.Line) (slot : Option Handle) (W : WorldOf M) : Always (onError E C out slot W) fun v => C.count v.2.mem ≤ C.count W.mem :=
  Always.bind (sumFree_allocs hC _ slot W) fun _ e => Always.pure' e

theorem onAbort_allocs (hC : C.Counted) (E : Environment) (out : List Spec.Line) (h : Handle) (W : WorldOf M) : Always (onAbort E C out h W) fun v => C.count v.2.mem ≤ C.count W.mem := by
  unfold onAbort
  refine Always.ite (fun _ => onError_allocs hC E out _ W) fun _ => Always.bind (sumFree_allocs hC _ (some h) W) fun v e => ?_
  exact Always.ite (fun _ => (onError_allocs hC E out _ v.2.2).mono fun _ e' => Nat.le_trans e' e) fun _ => Always.ite (fun _ => Always.pure' e) fun _ => Always.pure' e

theorem processAndPrint_allocs (hC : C.Counted) (E : Environment) (inp : Input) (out : List Spec.Line) (h : Handle) (W : WorldOf M) : Always (processAndPrint E C inp out h W) fun v => C.count v.2.mem ≤ C.count W.mem + 6 := by
  unfold processAndPrint
  refine Always.bind (processInput_allocs hC _ inp _ h W) fun v e => Always.ite (fun _ => (onAbort_allocs hC E out v.2.1 v.2.2).mono fun _ e' => Nat.le_trans e' e) fun _ =>
    Always.ite (fun _ => (onError_allocs hC E out _ v.2.2).mono fun _ e' => Nat.le_trans e' e) fun _ => Always.skip fun ds => (onAbort_allocs hC E _ v.2.1 v.2.2).mono fun _ e' => Nat.le_trans e' e

theorem openAndProcess_allocs (hC : C.Counted) (E : Environment) (src : List Nat) (out : List Spec.Line) (h : Handle) (W : WorldOf M) : Always (openAndProcess E C src out h W) fun v => C.count v.2.mem ≤ C.count W.mem + 6 := by
  unfold openAndProcess
  have up : ∀ {x : Res (Exit × WorldOf M)}, (Always x fun v => C.count v.2.mem ≤ C.count W.mem) → Always x fun v => C.count v.2.mem ≤ C.count W.mem + 6 := fun h => h.mono fun _ e => Nat.le_trans e (Nat.le_add_right _ _)
  cases E.files src with
  | none => exact Always.ite (fun _ => up (onAbort_allocs hC E out _ W)) fun _ => up (onError_allocs hC E out _ W)
  | some inp => exact Always.ite (fun _ => up (onAbort_allocs hC E out _ W)) fun _ => processAndPrint_allocs hC E inp out _ W

theorem sumInitialize_calculate (T : Tool) (W : WorldOf M) : Always (sumInitialize T C none W) fun v => ∀ h, v.2.1 = some h → h.calculate = fun k => decide (k = .md5) := by
  unfold sumInitialize
  dsimp only
  split
  · exact Always.ok (by rintro _ ⟨⟩)
  · split
    · exact Always.skip fun _ => Always.pure' (by rintro _ ⟨⟩)
    · split
      · exact Always.skip fun _ => Always.pure' (by rintro _ ⟨⟩)
      · exact Always.ok (by rintro _ ⟨⟩; rfl)

theorem applyBufferSize_calculate (E : Environment) (o : Options) (h : Handle) : Always (applyBufferSize E C o h) fun v => v.2.calculate = h.calculate := by
  unfold applyBufferSize
  cases o.bufferSize with
  | none => exact Always.ok rfl
  | some str =>
    refine Always.bind (P := fun v => v.2.calculate = h.calculate) ?_ fun v e => Always.ite (fun _ => Always.pure' e) fun _ => Always.ite (fun _ => Always.pure' e) fun _ => Always.pure' e
    unfold setBufferSize
    refine Always.skip fun v => Always.ite (fun _ => Always.pure' rfl) fun _ => Always.ite (fun _ => ?_) fun _ => Always.pure' rfl
    obtain ⟨r, v⟩ := v
    cases v with
    | none => exact Always.ub'
    | some v => exact Always.ite (fun _ => Always.pure' rfl) fun _ => Always.pure' rfl

theorem runSource_allocs (hC : C.Counted) (E : Environment) (o : Options) (src : List Nat) (out : List Spec.Line) (W : WorldOf M) : Always (runSource E C o src out W) fun v => C.count v.2.mem ≤ C.count W.mem + 13 := by
  unfold runSource
  refine Always.bind (P := fun v => C.count v.2.2.mem ≤ C.count W.mem + 3 ∧ ∀ h, v.2.1 = some h → h.calculate = fun k => decide (k = .md5)) (fun a e => ⟨sumInitialize_allocs hC _ none W a e, sumInitialize_calculate _ W a e⟩) fun v e => ?_
  obtain ⟨r, slot, W1⟩ := v
  obtain ⟨e1, hc⟩ := e
  have e1 : C.count W1.mem ≤ C.count W.mem + 3 := e1
  refine Always.ite (fun _ => (onError_allocs hC E out slot W1).mono fun _ e => by omega) fun _ => ?_
  cases slot with
  | none => exact Always.ub'
  | some h =>
    have hc := hc h rfl
    refine Always.bind (applyBufferSize_calculate E o h) fun v e2 => ?_
    obtain ⟨ok, h2⟩ := v
    have hc2 : h2.calculate = fun k => decide (k = .md5) := Eq.trans e2 hc
    refine Always.ite (fun _ => (onError_allocs hC E out _ W1).mono fun _ e => by omega) fun _ => ?_
    refine Always.bind (P := fun v => C.count v.2.2.mem ≤ C.count W1.mem + 4) ?_ fun v e3 => ?_
    · unfold applyDigests
      cases o.digests with
      | none => exact Always.ok (Nat.le_add_right _ _)
      | some str =>
        refine Always.bind (setDigestTypes_allocs hC _ _ _ _ str h2 W1) fun v e => Always.pure' (Nat.le_trans e ?_)
        rw [pending, hc2]
        exact Nat.le_of_eq rfl
    · obtain ⟨ok, h3, W3⟩ := v
      have e3 : C.count W3.mem ≤ C.count W1.mem + 4 := e3
      exact Always.ite (fun _ => (onError_allocs hC E out _ W3).mono fun _ e => by omega) fun _ => (openAndProcess_allocs hC E src out h3 W3).mono fun _ e => by omega

theorem hmacsum_allocs (hC : C.Counted) (E : Environment) (args : List (List Nat)) (W : WorldOf M) : Always (hmacsum E C args W) fun v => C.count v.2.mem ≤ C.count W.mem + 13 := by
  unfold hmacsum
  have up : ∀ {x : Res (Exit × WorldOf M)}, (Always x fun v => C.count v.2.mem ≤ C.count W.mem) → Always x fun v => C.count v.2.mem ≤ C.count W.mem + 13 := fun h => h.mono fun _ e => Nat.le_trans e (Nat.le_add_right _ _)
  refine Always.ite (fun _ => up (onError_allocs hC E _ _ W)) fun _ => Always.ite (fun _ => up (onError_allocs hC E _ _ W)) fun _ => Always.skip fun p => ?_
  cases p with
  | invalid => exact up (onError_allocs hC E _ _ W)
  | help => exact Always.pure' (Nat.le_add_right _ _)
  | version => exact Always.pure' (Nat.le_add_right _ _)
  | missing => exact up (onError_allocs hC E _ _ W)
  | run o src => exact runSource_allocs hC E o src _ W

end Builds

end Model
