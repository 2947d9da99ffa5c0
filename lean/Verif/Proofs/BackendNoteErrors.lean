import Verif.Proofs.OneShotNotes
/-! Domain and code of every message of the builds over a crypto library are those of Model/BackendErrors and Model/BackendOneShotErrors, for all arguments in every state. -/

set_option linter.unusedSimpArgs false

namespace Model

open Spec (Err Note Fn ApiCall Reply)

theorem nbInitError_err {σ} (p : Nat) (s : BSt σ) (ns : List Note) : ebInitError p s (noteErrs ns) = nbInitError p s ns >>= fun x => .ok (x.1, x.2.1, x.2.2.1, noteErrs x.2.2.2) := by
  unfold ebInitError nbInitError
  note_step []

theorem nbInitError_err' {σ} (p : Nat) (s : BSt σ) (ns : List Note) (n : Note) :
    ebInitError p s (noteErrs ns ++ [n.err]) = nbInitError p s (ns ++ [n]) >>= fun x => .ok (x.1, x.2.1, x.2.2.1, noteErrs x.2.2.2) := by
  rw [← noteErrs_append, nbInitError_err]

theorem nbDigestInit_err (L : Library) (p : Nat) (evp : EvpPtr) (s : BSt L.State) (ns : List Note) :
    ebDigestInit L p evp s (noteErrs ns) = nbDigestInit L p evp s ns >>= fun x => .ok (x.1, x.2.1, x.2.2.1, noteErrs x.2.2.2) := by
  unfold ebDigestInit nbDigestInit
  cases L.init s.calls with
  | some st => cases evp <;> rfl
  | none =>
    cases evp with
    | null => rfl
    | embedded => exact nbInitError_err' p _ ns ⟨.ctxInitialize, .rtInitializeFailed, .initialize⟩
    | heap q =>
      simp only [Res.bind_assoc]
      exact Res.note_congr fun s1 => nbInitError_err' p s1 ns ⟨.ctxInitialize, .rtInitializeFailed, .initialize⟩

theorem nbInitialize_err (B : Backend) (L : Library) (al : Nat → Bool) (slot : Option Nat) (s : BSt L.State) (ns : List Note) :
    ebInitialize B L al slot s (noteErrs ns) = nbInitialize B L al slot s ns >>= fun x => .ok (x.1, x.2.1, x.2.2.1, noteErrs x.2.2.2) := by
  unfold ebInitialize nbInitialize
  cases slot with
  | some p => simp only [Res.ok_bind, noteErrs_append]
  | none =>
    simp only
    split
    · cases B with
      | direct b =>
        simp only
        cases L.init s.calls with
        | some st => rfl
        | none => exact nbInitError_err' _ _ ns ⟨.ctxInitialize, .rtInitializeFailed, .initialize⟩
      | evpEmbedded => exact nbDigestInit_err L _ _ _ ns
      | evpAllocated =>
        simp only
        split
        · exact nbDigestInit_err L _ _ _ ns
        · exact nbInitError_err' _ _ ns ⟨.ctxInitialize, .rtInitializeFailed, .createEvp⟩
    · simp only [Res.ok_bind, noteErrs_append]

theorem nbFree_err (B : Backend) (L : Library) (slot : Option Nat) (s : BSt L.State) (ns : List Note) :
    ebFree B L slot s (noteErrs ns) = nbFree B L slot s ns >>= fun x => .ok (x.1, x.2.1, x.2.2.1, noteErrs x.2.2.2) := by
  unfold ebFree nbFree
  cases slot with
  | none => rfl
  | some p =>
    simp only
    cases B with
    | direct b => cases getKey p s.live with
      | none => rfl
      | some o => cases o <;> simp only [Res.bind_assoc, Res.ok_bind, Res.pure_eq, Res.ub_bind]
    | evpEmbedded => cases getKey p s.live with
      | none => rfl
      | some o => cases o with
        | md st => rfl
        | ctx st evp => cases L.cleanup s.calls <;> simp only [Res.bind_assoc, Res.ok_bind, Res.pure_eq, noteErrs_append, if_true, if_false, Bool.false_eq_true]
    | evpAllocated => cases getKey p s.live with
      | none => rfl
      | some o => cases o with
        | md st => rfl
        | ctx st evp => cases evp <;> simp only [Res.bind_assoc, Res.ok_bind, Res.pure_eq, Res.ub_bind]

theorem nbUpdate_err (B : Backend) (L : Library) (slot : Option Nat) (buf : Option (List Byte)) (size : Nat) (s : BSt L.State) (ns : List Note) :
    ebUpdate B L slot buf size s (noteErrs ns) = nbUpdate B L slot buf size s ns >>= fun x => .ok (x.1, x.2.1, noteErrs x.2.2) := by
  unfold ebUpdate nbUpdate
  cases slot with
  | none => simp only [Res.ok_bind, noteErrs_append]
  | some p => cases buf with
    | none => simp only [Res.ok_bind, noteErrs_append]
    | some b =>
      simp only
      split
      · simp only [Res.ok_bind, noteErrs_append]
      · split
        · rfl
        · simp only [Res.bind_assoc]
          refine Res.note_congr fun st => Res.note_congr fun d => Res.note_congr fun s' => ?_
          simp only [Res.ok_bind, Res.pure_eq]
          split <;> simp only [noteErrs_append]

theorem nbFinalize_err (B : Backend) (L : Library) (n : Nat) (slot : Option Nat) (out : Option (List Byte)) (size : Nat) (s : BSt L.State) (ns : List Note) :
    ebFinalize B L n slot out size s (noteErrs ns) = nbFinalize B L n slot out size s ns >>= fun x => .ok (x.1, x.2.1, x.2.2.1, noteErrs x.2.2.2) := by
  unfold ebFinalize nbFinalize
  cases slot with
  | none => simp only [Res.ok_bind, noteErrs_append]
  | some p => cases out with
    | none => simp only [Res.ok_bind, noteErrs_append]
    | some o =>
      simp only
      split
      · cases B <;> simp only [Res.ok_bind, noteErrs_append]
      · split
        · cases B <;> simp only [Res.ok_bind, noteErrs_append]
        · simp only [Res.bind_assoc]
          refine Res.note_congr fun st => Res.note_congr fun s' => ?_
          simp only [Res.ok_bind, Res.pure_eq]
          split <;> simp only [noteErrs_append]

theorem nbStep_err (B : Backend) (L : Library) (n : Nat) (al : Nat → Bool) (c : ApiCall) (slot : Option Nat) (s : BSt L.State) (ns : List Note) :
    ebStep B L n al c slot s (noteErrs ns) = nbStep B L n al c slot s ns >>= fun x => .ok (x.1, x.2.1, x.2.2.1, noteErrs x.2.2.2) := by
  unfold ebStep nbStep
  cases c <;> note_step [nbInitialize_err, nbFree_err, nbUpdate_err, nbFinalize_err]

theorem nbRun_err (B : Backend) (L : Library) (n : Nat) (al : Nat → Bool) : ∀ (calls : List ApiCall) (slot : Option Nat) (s : BSt L.State),
    ebRun B L n al calls slot s = nbRun B L n al (calls.map fun c => (false, c)) slot s >>= fun x => .ok (x.1.map fun y => (y.1, noteErrs y.2), x.2.1, x.2.2)
  | [], _, _ => rfl
  | c :: cs, slot, s => by
    rw [List.map_cons]
    unfold ebRun nbRun
    have h := nbStep_err B L n al c slot s []
    change ebStep B L n al c slot s [] = _ at h
    rw [h]
    note_step [nbRun_err B L n al cs, if_true, if_false, Bool.false_eq_true, List.map_cons]

/-! ### The one-shot functions -/

variable {B : Backend} {L : Library}

/-- `no` with messages has domains and codes of `eo`. -/
def Erases {α} (eo : List Err → Res (α × List Err)) (no : List Note → Res (α × List Note)) : Prop := ∀ ns, eo (noteErrs ns) = no ns >>= fun x => .ok (x.1, noteErrs x.2)

theorem Erases.bind {α β} {eo : List Err → Res (α × List Err)} {no : List Note → Res (α × List Note)} {f : α × List Err → Res (β × List Err)} {g : α × List Note → Res (β × List Note)} (h : Erases eo no)
    (k : ∀ a, Erases (fun es => f (a, es)) (fun ns => g (a, ns))) : Erases (fun es => eo es >>= f) (fun ns => no ns >>= g) := by
  intro ns
  have e := h ns
  dsimp only
  rw [e]
  cases no ns with
  | ub => rfl
  | diverge => rfl
  | ok x =>
    obtain ⟨a, ns'⟩ := x
    exact k a ns'

theorem Erases.step {α β} {m : Res α} {f : α → List Err → Res (β × List Err)} {g : α → List Note → Res (β × List Note)} (k : ∀ a, Erases (f a) (g a)) :
    Erases (fun es => m >>= fun a => f a es) (fun ns => m >>= fun a => g a ns) := by
  intro ns
  cases m with
  | ub => rfl
  | diverge => rfl
  | ok a => exact k a ns

theorem Erases.ret {α} (a : α) : Erases (fun es => .ok (a, es)) (fun ns => .ok (a, ns)) := fun _ => rfl

theorem Erases.add {α} (a : α) (n : Note) : Erases (fun es => .ok (a, es ++ [n.err])) (fun ns => .ok (a, ns ++ [n])) := fun ns => by simp only [Res.ok_bind, noteErrs_append]

theorem Erases.ub {α} : Erases (α := α) (fun _ => .ub) (fun _ => .ub) := fun _ => rfl

theorem noInitialize_err (fn : Fn) (env : OEnv) (slot : Option Nat) (s : OSt L.State) : Erases (eoInitialize B L env slot s) (noInitialize fn B L env slot s) := by
  intro ns
  unfold eoInitialize noInitialize
  note_step [nbInitialize_err]

theorem noUpdate_err (fn : Fn) (slot : Option Nat) (buf : Option (List Byte)) (size : Nat) (s : OSt L.State) : Erases (eoUpdate B L slot buf size s) (noUpdate fn B L slot buf size s) := by
  intro ns
  unfold eoUpdate noUpdate
  note_step [nbUpdate_err]

theorem noFinalize_err (fn : Fn) (n : Nat) (slot : Option Nat) (out : Option (List Byte)) (size : Nat) (s : OSt L.State) : Erases (eoFinalize B L n slot out size s) (noFinalize fn B L n slot out size s) := by
  intro ns
  unfold eoFinalize noFinalize
  note_step [nbFinalize_err]

theorem noFree_err (fn : Fn) (slot : Option Nat) (s : OSt L.State) : Erases (eoFree B L slot s) (noFree fn B L slot s) := by
  intro ns
  unfold eoFree noFree
  note_step [nbFree_err]

theorem noCalculateError_err (slot : Option Nat) (s : OSt L.State) : Erases (eoCalculateError B L slot s) (noCalculateError B L slot s) := by
  unfold eoCalculateError noCalculateError
  exact Erases.step fun a => Erases.ret a

theorem noHmacError_err (b : Nat) (l : Loc) (s : OSt L.State) : Erases (eoHmacError B L b l s) (noHmacError B L b l s) := by
  unfold eoHmacError noHmacError
  exact Erases.step fun a => Erases.ret a

theorem noCalculate_err (n : Nat) (env : OEnv) (buffer : Option Nat) (size : Nat) (hash : Option Nat) (hashSize : Nat) (s : OSt L.State) :
    Erases (eoCalculate B L n env buffer size hash hashSize s) (noCalculate B L n env buffer size hash hashSize s) := by
  unfold eoCalculate noCalculate
  refine (noInitialize_err _ env none s).bind fun a => ?_
  obtain ⟨r, context, s⟩ := a
  dsimp only
  by_cases hr : r ≠ 1
  · simp only [if_pos hr]
    exact noCalculateError_err context s
  simp only [if_neg hr]
  refine (noUpdate_err _ context _ size s).bind fun a => ?_
  obtain ⟨r, s⟩ := a
  dsimp only
  by_cases hr : r ≠ 1
  · simp only [if_pos hr]
    exact noCalculateError_err context s
  simp only [if_neg hr]
  refine (noFinalize_err _ n context _ hashSize s).bind fun a => ?_
  obtain ⟨r, h, s⟩ := a
  dsimp only
  by_cases hr : r ≠ 1
  · simp only [if_pos hr]
    exact noCalculateError_err context _
  simp only [if_neg hr]
  refine (noFree_err _ context _).bind fun a => ?_
  obtain ⟨r, context, s⟩ := a
  dsimp only
  by_cases hr : r ≠ 1
  · simp only [if_pos hr]
    exact noCalculateError_err context s
  · simp only [if_neg hr]
    exact Erases.ret _

theorem noLongKey_err (n b : Nat) (env : OEnv) (key : Option Nat) (keySize : Nat) (l : Loc) (s : OSt L.State) : Erases (eoLongKey B L n b env key keySize l s) (noLongKey B L n b env key keySize l s) := by
  unfold eoLongKey noLongKey
  refine (noInitialize_err _ env _ s).bind fun a => ?_
  obtain ⟨r, context, s⟩ := a
  dsimp only
  by_cases hr : r ≠ 1
  · simp only [if_pos hr]
    exact Erases.ret _
  simp only [if_neg hr]
  refine (noUpdate_err _ context _ keySize s).bind fun a => ?_
  obtain ⟨r, s⟩ := a
  dsimp only
  by_cases hr : r ≠ 1
  · simp only [if_pos hr]
    exact Erases.ret _
  simp only [if_neg hr]
  refine (noFinalize_err _ n context _ n s).bind fun a => ?_
  obtain ⟨r, h, s⟩ := a
  dsimp only
  cases h with
  | none => exact Erases.ub
  | some h =>
  dsimp only
  by_cases hr : r ≠ 1
  · simp only [if_pos hr]
    exact Erases.ret _
  simp only [if_neg hr]
  refine (noFree_err _ context s).bind fun a => ?_
  obtain ⟨r, context, s⟩ := a
  dsimp only
  by_cases hr : r ≠ 1
  · simp only [if_pos hr]
    exact Erases.ret _
  simp only [if_neg hr]
  refine Erases.step fun d => ?_
  split
  · exact Erases.step fun d => Erases.step fun d => Erases.step fun s => Erases.ret _
  · exact Erases.step fun d => Erases.step fun d => Erases.step fun s => Erases.ret _

theorem noKey_err (n b : Nat) (env : OEnv) (key : Option Nat) (keySize : Nat) (l : Loc) (s : OSt L.State) : Erases (eoKey B L n b env key keySize l s) (noKey B L n b env key keySize l s) := by
  unfold eoKey noKey
  obtain ⟨p, s⟩ := oAlloc env b s
  cases p with
  | none => exact Erases.add _ ⟨.calculateHmac, .memInsufficient, .createKey⟩
  | some p =>
    dsimp only
    split
    · cases oRegion s key keySize with
      | none => exact Erases.ub
      | some k => exact Erases.step fun d => Erases.step fun d => Erases.step fun d => Erases.step fun s => Erases.ret _
    · exact noLongKey_err n b env key keySize _ s

theorem noPads_err {σ} (b : Nat) (env : OEnv) (l : Loc) (s : OSt σ) : Erases (eoPads b env l s) (noPads b env l s) := by
  unfold eoPads noPads
  obtain ⟨p, s⟩ := oAlloc env b s
  cases p with
  | none => exact Erases.add _ ⟨.calculateHmac, .memInsufficient, .createInner⟩
  | some p =>
    refine Erases.step fun d => Erases.step fun d => Erases.step fun s => ?_
    obtain ⟨q, s⟩ := oAlloc env b s
    cases q with
    | none => exact Erases.add _ ⟨.calculateHmac, .memInsufficient, .createOuter⟩
    | some q =>
      exact Erases.step fun d => Erases.step fun d => Erases.step fun s => Erases.step fun kd => Erases.step fun i => Erases.step fun o => Erases.step fun x => Erases.step fun s => Erases.step fun s => Erases.ret _

theorem noPass_err (n b : Nat) (env : OEnv) (padding buffer : Option Nat) (size : Nat) (hmac : Option Nat) (hmacSize : Nat) (l : Loc) (s : OSt L.State) :
    Erases (eoPass B L n b env padding buffer size hmac hmacSize l s) (noPass B L n b env padding buffer size hmac hmacSize l s) := by
  unfold eoPass noPass
  refine (noInitialize_err _ env _ s).bind fun a => ?_
  obtain ⟨r, context, s⟩ := a
  dsimp only
  by_cases hr : r ≠ 1
  · simp only [if_pos hr]
    exact Erases.ret _
  simp only [if_neg hr]
  refine Erases.step fun d => (noUpdate_err _ context _ b s).bind fun a => ?_
  obtain ⟨r, s⟩ := a
  dsimp only
  by_cases hr : r ≠ 1
  · simp only [if_pos hr]
    exact Erases.ret _
  simp only [if_neg hr]
  refine (noUpdate_err _ context _ size s).bind fun a => ?_
  obtain ⟨r, s⟩ := a
  dsimp only
  by_cases hr : r ≠ 1
  · simp only [if_pos hr]
    exact Erases.ret _
  simp only [if_neg hr]
  refine (noFinalize_err _ n context _ hmacSize s).bind fun a => ?_
  obtain ⟨r, h, s⟩ := a
  dsimp only
  by_cases hr : r ≠ 1
  · simp only [if_pos hr]
    exact Erases.ret _
  simp only [if_neg hr]
  refine (noFree_err _ context _).bind fun a => ?_
  obtain ⟨r, context, s⟩ := a
  dsimp only
  by_cases hr : r ≠ 1
  · simp only [if_pos hr]
    exact Erases.ret _
  · simp only [if_neg hr]
    exact Erases.ret _

theorem noCalculateHmac_err (n b : Nat) (env : OEnv) (kh : List Byte) (key : Option Nat) (keySize : Nat) (buffer : Option Nat) (size : Nat) (hmac : Option Nat) (hmacSize : Nat) (s : OSt L.State) :
    Erases (eoCalculateHmac B L n b env kh key keySize buffer size hmac hmacSize s) (noCalculateHmac B L n b env kh key keySize buffer size hmac hmacSize s) := by
  unfold eoCalculateHmac noCalculateHmac
  cases key with
  | none => exact Erases.add _ ⟨.calculateHmac, .argInvalid, .invalidKey⟩
  | some k =>
    dsimp only
    split
    · exact Erases.add _ ⟨.calculateHmac, .argExceeds, .keyExceeds⟩
    split
    · exact Erases.add _ ⟨.calculateHmac, .argTooSmall, .hmacTooSmall⟩
    refine (noKey_err n b env _ keySize _ s).bind fun a => ?_
    obtain ⟨ok, l, s⟩ := a
    dsimp only
    cases ok with
    | false => exact noHmacError_err b l s
    | true =>
    simp only [Bool.not_true, Bool.false_eq_true, if_false]
    refine (noPads_err b env l s).bind fun a => ?_
    obtain ⟨ok, l, s⟩ := a
    dsimp only
    cases ok with
    | false => exact noHmacError_err b l s
    | true =>
    simp only [Bool.not_true, Bool.false_eq_true, if_false]
    refine (noPass_err n b env _ _ _ _ _ l s).bind fun a => ?_
    obtain ⟨ok, l, s⟩ := a
    dsimp only
    cases ok with
    | false => exact noHmacError_err b l s
    | true =>
    simp only [Bool.not_true, Bool.false_eq_true, if_false]
    refine (noPass_err n b env _ _ _ _ _ l s).bind fun a => ?_
    obtain ⟨ok, l, s⟩ := a
    dsimp only
    cases ok with
    | false => exact noHmacError_err b l s
    | true =>
    simp only [Bool.not_true, Bool.false_eq_true, if_false]
    exact Erases.step fun x => Erases.ret x

/-! ### The texts -/

theorem txtText_ne_evp {k : Spec.Kind} {t : Spec.Txt} (h : txtText k t = "unable to initialize EVP message digest context.") : False := by
  cases k <;> cases t <;> simp [txtText] at h

theorem txtText_small {k : Spec.Kind} {t : Spec.Txt} (h : txtText k t = "invalid hash size value too small.") : t = .hashTooSmall := by
  cases k <;> cases t <;> first
    | rfl
    | (simp [txtText] at h)

/-- The three cases of a text. -/
theorem libraryText_cases (B : Backend) (k : Spec.Kind) (fn : Fn) (t : Spec.Txt) :
    (t = .initialize ∧ libraryText B k fn t = "unable to initialize EVP message digest context.") ∨ (t = .hashTooSmall ∧ libraryText B k fn t = "invalid hash size value too small.") ∨ libraryText B k fn t = txtText k t := by
  unfold libraryText
  split
  · exact .inl ⟨rfl, rfl⟩
  · exact .inl ⟨rfl, rfl⟩
  · exact .inr (.inl ⟨rfl, rfl⟩)
  · exact .inr (.inr rfl)

theorem libraryText_inj {B : Backend} {k : Spec.Kind} {fn : Fn} {t t' : Spec.Txt} (h : libraryText B k fn t = libraryText B k fn t') : t = t' := by
  rcases libraryText_cases B k fn t with ⟨h1, h2⟩ | ⟨h1, h2⟩ | h2 <;> rcases libraryText_cases B k fn t' with ⟨h3, h4⟩ | ⟨h3, h4⟩ | h4 <;> rw [h2, h4] at h
  · rw [h1, h3]
  · simp at h
  · exact (txtText_ne_evp h.symm).elim
  · simp at h
  · rw [h1, h3]
  · rw [h1, txtText_small h.symm]
  · exact (txtText_ne_evp h).elim
  · rw [h3, txtText_small h]
  · exact txtText_inj h

end Model
