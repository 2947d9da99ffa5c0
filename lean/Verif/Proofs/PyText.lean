import Verif.Model.PyText
import Verif.Props.PyError
/-! The texts of the exceptions of the Python module. -/

namespace Model

open Spec (Kind PyArg PyExc PyResult PyOp PyOutcome PyFn PyWhy pyReason pyText failureText replacedText)

/-- The arrays have their sizes, and the exception of `isinstance` can be described. -/
structure PyTexts.Ok (I : PyTexts) : Prop where
  exceptionString : I.exceptionString.length = 2048
  errorString : I.errorString.length = 2048
  sprint : ∀ s, I.sprint = some (some s) → s.length = 2048
  repr : I.fetched.repr.isSome

/-- The details that a text ends with. -/
def PyTexts.details (I : PyTexts) : PyWhy → Option (List Byte)
  | .library => I.sprint.join
  | .instance => if I.fetched.encodes then I.fetched.repr else none
  | _ => none

/-- The function that a text names. -/
def namedFn : PyFn → PyFn
  | .calculateHmac => .calculate
  | f => f

/-- What an exception tells. -/
def Told (kinds : Nat → Kind) (I : PyTexts) (op : PyOp) (x : PyExc) (t : List Byte) : Prop :=
  t = I.own ∧ Spec.pyOwn op x ∨
  (∃ k g p why, pyReason kinds op = some (k, g, p) ∧ p why ∧ x = why.cls g ∧ t = pyText k (namedFn g) g why (I.details why)) ∨
  ∃ i why, op = .create i true ∧ (why = .library ∨ why = .context) ∧ x = why.cls .free ∧ t = pyText (kinds i) .free .free why (I.details why)

namespace PyText

theorem ident_eq (k : Kind) : ident k = Spec.pyKindName k := by cases k <;> rfl
theorem title_eq (k : Kind) : title k = Spec.pyKindText k := by cases k <;> rfl

theorem name_init (k : Kind) : "pyhmac_" ++ ident k ++ "_context_init" = PyFn.init.name k := by rw [ident_eq]; rfl
theorem name_free (k : Kind) : "pyhmac_" ++ ident k ++ "_context_free" = PyFn.free.name k := by rw [ident_eq]; rfl
theorem name_update (k : Kind) : "pyhmac_" ++ ident k ++ "_context_update" = PyFn.update.name k := by rw [ident_eq]; rfl
theorem name_finalize (k : Kind) : "pyhmac_" ++ ident k ++ "_context_finalize" = PyFn.finalize.name k := by rw [ident_eq]; rfl
theorem name_calculate (k : Kind) : "pyhmac_" ++ ident k ++ "_calculate" = PyFn.calculate.name k := by rw [ident_eq]; rfl

theorem text_init (k : Kind) : "unable to initialize " ++ title k ++ " context." = PyWhy.library.text k .init := by rw [title_eq]; rfl
theorem text_free (k : Kind) : "unable to free libhmac " ++ title k ++ " context." = PyWhy.library.text k .free := by rw [title_eq]; rfl
theorem text_update (k : Kind) : "unable to update " ++ title k ++ " context from data." = PyWhy.library.text k .update := by rw [title_eq]; rfl
theorem text_finalize (k : Kind) : "unable to finalize " ++ title k ++ " context." = PyWhy.library.text k .finalize := by rw [title_eq]; rfl
theorem text_calculate (k : Kind) : "unable to calculate " ++ title k ++ " from data." = PyWhy.library.text k .calculate := by rw [title_eq]; rfl
theorem text_hmac (k : Kind) : "unable to calculate " ++ title k ++ " HMAC from data." = PyWhy.library.text k .calculateHmac := by rw [title_eq]; rfl
theorem text_context (k : Kind) : "invalid " ++ title k ++ " context - missing libhmac " ++ title k ++ " context." = PyWhy.context.text k .free := by rw [title_eq]; rfl
theorem text_convert (k : Kind) {f : PyFn} (h : f ≠ .calculateHmac) : "unable to convert " ++ title k ++ " hash into bytes object." = PyWhy.convert.text k f := by
  cases k <;> cases f <;> first | exact absurd rfl h | decide
theorem text_convert_hmac (k : Kind) : "unable to convert " ++ title k ++ " HMAC into bytes object." = PyWhy.convert.text k .calculateHmac := by
  cases k <;> decide

theorem pyText_library (k : Kind) (f g : PyFn) (d : Option (List Byte)) : failureText (message (f.name k) (PyWhy.library.text k g)) d = pyText k f g .library d := rfl
theorem pyText_context (k : Kind) (f g : PyFn) (d : Option (List Byte)) : message (f.name k) (PyWhy.context.text k g) = pyText k f g .context d := rfl
theorem pyText_convert (k : Kind) (f g : PyFn) (d : Option (List Byte)) : message (f.name k) (PyWhy.convert.text k g) = pyText k f g .convert d := rfl

theorem fail_eq {I : PyTexts} (h : I.Ok) (c : PyExc) (f t : String) : fail I c f t = .ok (.raised c (failureText (message f t) I.sprint.join)) := by
  rw [fail, Props.C57_failure_text c (message f t) I.sprint I.exceptionString h.exceptionString h.sprint]
  rfl

/-- What is wrong with the argument. -/
def dataText (I : PyTexts) (f : String) : Option PyArg → List Byte
  | none => I.own
  | some .broken => replacedText (message f "unable to determine if object is of type bytes.") (if I.fetched.encodes then I.fetched.repr else none)
  | some .other => message f "unsupported bytes object type"
  | some _ => message f "invalid data size value out of bounds."

theorem data_eq {I : PyTexts} (h : I.Ok) (f : String) (arg : Option PyArg) :
    data I f arg = .ok (match pyData arg with | .inl x => .inl (.raised x (dataText I f arg)) | .inr b => .inr b) := by
  rcases arg with _ | _ | _ | _ | _
  · rfl
  · simp only [data, pyData]
    split <;> rfl
  · rfl
  · rfl
  · obtain ⟨d, hd⟩ := Option.isSome_iff_exists.1 h.repr
    obtain ⟨refs, e, -⟩ := Props.C57_replaced_text_partial PyExc.runtime (message f "unable to determine if object is of type bytes.") d I.fetched.set I.fetched.encodes I.errorString h.errorString
    have hf : I.fetched = ⟨I.fetched.set, some d, I.fetched.encodes⟩ := by rw [← hd]
    rw [data, hf, e]
    simp only [Res.ok_bind, Res.pure_eq, PyRaised.outcome, pyData, dataText, hd]

theorem keyData_eq (f : String) (arg : PyArg) :
    keyData f arg = match pyKeyData arg with | .inl x => .inl (.raised x (message f "invalid argument key data size value out of bounds.")) | .inr b => .inr b := by
  rcases arg with _ | _ | _ | _
  · simp only [keyData, pyKeyData]
    split <;> rfl
  all_goals rfl

variable {M : Type} {P : PyLibrary M} {kinds : Nat → Kind} {e : PyEnv} {I : PyTexts}

theorem init_eq (h : I.Ok) (k : Kind) (m : M) : init P e I k m = (do
    let (r, slot, m) ← PyBuilds.init P e k m
    pure (if r = 0 then .none else .raised .memory (pyText k .init .init .library (I.details .library)), slot, m)) := by
  simp only [init, PyBuilds.init, name_init, text_init, fail_eq h, pyText_library, PyTexts.details]
  cases PyBuilds.acquire P e k none m with
  | ub => rfl
  | diverge => rfl
  | ok x =>
    obtain ⟨r, slot, m⟩ := x
    simp only [Res.ok_bind]
    split
    · rfl
    · rfl

/-- What a release says. -/
def freeWhy (x : PyExc) : PyWhy := if x = .value then .context else .library

theorem dealloc_eq (h : I.Ok) (k : Kind) (slot : Option Nat) (m : M) (n : Int) : dealloc P e I k slot m n = (do
    let (r, m, n) ← PyBuilds.dealloc P e k slot m n
    pure (match r with | .raised x => .raised x (pyText k .free .free (freeWhy x) (I.details (freeWhy x))) | _ => .none, m, n)) := by
  simp only [dealloc, PyBuilds.dealloc, name_free, text_free, text_context, fail_eq h, pyText_library]
  cases slot with
  | none => rfl
  | some p =>
    simp only
    cases PyBuilds.free P e k (some p) m with
    | ub => rfl
    | diverge => rfl
    | ok x =>
      obtain ⟨r, slot, m⟩ := x
      simp only [Res.ok_bind]
      by_cases hr : r ≠ 1
      · simp only [if_pos hr]; rfl
      · simp only [if_neg hr]; rfl

theorem dealloc_class {k : Kind} {slot : Option Nat} {m : M} {n : Int} {r : PyResult} {m' : M} {n' : Int} (h : PyBuilds.dealloc P e k slot m n = .ok (r, m', n')) :
    r = .none ∨ r = .raised .value ∨ r = .raised .memory := by
  unfold PyBuilds.dealloc at h
  cases slot with
  | none =>
    simp only [Res.ok.injEq, Prod.mk.injEq] at h
    exact .inr (.inl h.1.symm)
  | some p =>
    simp only at h
    cases hf : PyBuilds.free P e k (some p) m with
    | ub => rw [hf] at h; cases h
    | diverge => rw [hf] at h; cases h
    | ok x =>
      rw [hf] at h
      simp only [Res.ok_bind, Res.pure_eq, Res.ok.injEq, Prod.mk.injEq] at h
      obtain ⟨rfl, -⟩ := h
      split
      · exact .inr (.inr rfl)
      · exact .inl rfl

/-- The outcome of an operation with its text, given the result. -/
theorem feed_told (h : I.Ok) {k : Kind} {slot : Option Nat} {i : Nat} (hk : kinds i = k) {arg : Option PyArg} {m m' : M} {r : PyResult} (he : PyBuilds.feed P e k slot arg m = .ok (r, m')) :
    ∃ out, feed P e I k slot arg m = .ok (out, m') ∧ out.result = r ∧ ∀ x t, out = .raised x t → Told kinds I (.update i arg) x t := by
  simp only [feed, name_update, text_update, fail_eq h, pyText_library, data_eq h, Res.ok_bind]
  unfold PyBuilds.feed at he
  cases hd : pyData arg with
  | inl x =>
    rw [hd] at he
    simp only [Res.ok.injEq, Prod.mk.injEq] at he
    obtain ⟨rfl, rfl⟩ := he
    refine ⟨_, rfl, rfl, fun x' t hx => ?_⟩
    cases hx
    rcases arg with _ | b | _ | _ | _
    · cases hd; exact .inl ⟨rfl, .inr rfl⟩
    · simp only [pyData] at hd
      split at hd
      case isFalse => cases hd
      case isTrue hl =>
        cases hd
        have : ¬ b.length ≤ Spec.maxSize := by unfold Spec.maxSize; unfold ssizeMax at hl; omega
        exact .inr (.inl ⟨_, _, _, .size, rfl, by simp [Spec.pyDataWhy, this], rfl, by rw [hk]; rfl⟩)
    · cases hd; exact .inr (.inl ⟨_, _, _, .size, rfl, rfl, rfl, by rw [hk]; rfl⟩)
    · cases hd; exact .inr (.inl ⟨_, _, _, .type, rfl, rfl, rfl, by rw [hk]; rfl⟩)
    · cases hd; exact .inr (.inl ⟨_, _, _, .instance, rfl, rfl, rfl, by rw [hk]; rfl⟩)
  | inr b =>
    rw [hd] at he
    simp only at he ⊢
    cases hu : PyBuilds.update P e k slot (some b) b.length m with
    | ub => rw [hu] at he; cases he
    | diverge => rw [hu] at he; cases he
    | ok x =>
      rw [hu] at he
      simp only [Res.ok_bind, Res.pure_eq, Res.ok.injEq, Prod.mk.injEq] at he ⊢
      obtain ⟨rfl, rfl⟩ := he
      by_cases hr : x.1 ≠ 1
      · simp only [if_pos hr]
        refine ⟨_, rfl, rfl, fun x' t hx => ?_⟩
        cases hx
        have harg : ∃ b, arg = some (.bytes b) ∧ b.length ≤ Spec.maxSize := by
          rcases arg with _ | b' | _ | _ | _
          · cases hd
          · simp only [pyData] at hd
            split at hd
            case isTrue => cases hd
            case isFalse hl => exact ⟨b', rfl, by unfold Spec.maxSize; unfold ssizeMax at hl; omega⟩
          all_goals cases hd
        obtain ⟨b', rfl, hl⟩ := harg
        exact .inr (.inl ⟨_, _, _, .library, rfl, by simp [Spec.pyDataWhy, hl], rfl, by rw [hk]; rfl⟩)
      · simp only [if_neg hr]
        exact ⟨_, rfl, rfl, fun x' t hx => by cases hx⟩

theorem digest_told (h : I.Ok) {k : Kind} {slot : Option Nat} {i : Nat} (hk : kinds i = k) {ok : Bool} {m m' : M} {r : PyResult} (he : PyBuilds.digest P e k slot ok m = .ok (r, m')) :
    ∃ out, digest P e I k slot ok m = .ok (out, m') ∧ out.result = r ∧ ∀ x t, out = .raised x t → Told kinds I (.finalize i ok) x t := by
  simp only [digest, name_finalize, text_finalize, text_convert k (f := .finalize) (by decide), fail_eq h, pyText_library]
  unfold PyBuilds.digest at he
  cases hu : PyBuilds.finalize P e k slot (some (e.hash k)) k.hashSize m with
  | ub => rw [hu] at he; cases he
  | diverge => rw [hu] at he; cases he
  | ok x =>
    obtain ⟨r', hh, m1⟩ := x
    rw [hu] at he
    simp only [Res.ok_bind] at he ⊢
    cases hh with
    | none => cases he
    | some d =>
      simp only at he ⊢
      by_cases hr : r' ≠ 1
      · simp only [if_pos hr, Res.ok_bind, Res.pure_eq, Res.ok.injEq, Prod.mk.injEq] at he ⊢
        obtain ⟨rfl, rfl⟩ := he
        refine ⟨_, ⟨rfl, rfl⟩, rfl, fun x t hx => ?_⟩
        cases hx
        exact .inr (.inl ⟨_, _, _, .library, rfl, .inl rfl, rfl, by rw [hk]; rfl⟩)
      · simp only [if_neg hr, Res.pure_eq, Res.ok.injEq, Prod.mk.injEq] at he ⊢
        obtain ⟨rfl, rfl⟩ := he
        refine ⟨_, ⟨rfl, rfl⟩, by cases ok <;> rfl, fun x t hx => ?_⟩
        cases ok with
        | true => cases hx
        | false =>
          cases hx
          exact .inr (.inl ⟨_, _, _, .convert, rfl, .inr ⟨rfl, rfl⟩, rfl, by rw [hk]; rfl⟩)

theorem calculate_told (h : I.Ok) {k : Kind} {arg : Option PyArg} {ok : Bool} {st st' : PyState M} {r : PyResult} (he : PyBuilds.calculate P e k arg ok st = .ok (r, st')) :
    ∃ out, calculate P e I k arg ok st = .ok (out, st') ∧ out.result = r ∧ ∀ x t, out = .raised x t → Told kinds I (.calculate k arg ok) x t := by
  simp only [calculate, name_calculate, text_calculate, text_convert k (f := .calculate) (by decide), fail_eq h, pyText_library, data_eq h, Res.ok_bind]
  unfold PyBuilds.calculate at he
  cases hd : pyData arg with
  | inl x =>
    rw [hd] at he
    simp only [Res.ok.injEq, Prod.mk.injEq] at he
    obtain ⟨rfl, rfl⟩ := he
    refine ⟨_, rfl, rfl, fun x' t hx => ?_⟩
    cases hx
    rcases arg with _ | b | _ | _ | _
    · cases hd; exact .inl ⟨rfl, .inr rfl⟩
    · simp only [pyData] at hd
      split at hd
      case isFalse => cases hd
      case isTrue hl =>
        cases hd
        have : ¬ b.length ≤ Spec.maxSize := by unfold Spec.maxSize; unfold ssizeMax at hl; omega
        exact .inr (.inl ⟨_, _, _, .size, rfl, by simp [Spec.pyDataWhy, this], rfl, rfl⟩)
    · cases hd; exact .inr (.inl ⟨_, _, _, .size, rfl, rfl, rfl, rfl⟩)
    · cases hd; exact .inr (.inl ⟨_, _, _, .type, rfl, rfl, rfl, rfl⟩)
    · cases hd; exact .inr (.inl ⟨_, _, _, .instance, rfl, rfl, rfl, rfl⟩)
  | inr b =>
    rw [hd] at he
    have harg : ∃ b, arg = some (.bytes b) ∧ b.length ≤ Spec.maxSize := by
      rcases arg with _ | b' | _ | _ | _
      · cases hd
      · simp only [pyData] at hd
        split at hd
        case isTrue => cases hd
        case isFalse hl => exact ⟨b', rfl, by unfold Spec.maxSize; unfold ssizeMax at hl; omega⟩
      all_goals cases hd
    obtain ⟨b', rfl, hl⟩ := harg
    simp only at he ⊢
    cases hu : P.calculate e k b st.mem with
    | ub => rw [hu] at he; cases he
    | diverge => rw [hu] at he; cases he
    | ok x =>
      rw [hu] at he
      simp only [Res.ok_bind] at he ⊢
      by_cases hr : x.1 ≠ 1
      · simp only [if_pos hr, Res.ok_bind, Res.pure_eq, Res.ok.injEq, Prod.mk.injEq] at he ⊢
        obtain ⟨rfl, rfl⟩ := he
        refine ⟨_, ⟨rfl, rfl⟩, rfl, fun x' t hx => ?_⟩
        cases hx
        exact .inr (.inl ⟨_, _, _, .library, rfl, by simp [Spec.pyDataWhy, hl], rfl, rfl⟩)
      · simp only [if_neg hr, Res.pure_eq, Res.ok.injEq, Prod.mk.injEq] at he ⊢
        obtain ⟨rfl, rfl⟩ := he
        refine ⟨_, ⟨rfl, rfl⟩, by cases ok <;> rfl, fun x' t hx => ?_⟩
        cases ok with
        | true => cases hx
        | false =>
          cases hx
          exact .inr (.inl ⟨_, _, _, .convert, rfl, by simp [Spec.pyDataWhy, hl], rfl, rfl⟩)

theorem calculateHmac_told (h : I.Ok) {k : Kind} {args : Option (PyArg × PyArg)} {ok : Bool} {st st' : PyState M} {r : PyResult} (he : PyBuilds.calculateHmac P e k args ok st = .ok (r, st')) :
    ∃ out, calculateHmac P e I k args ok st = .ok (out, st') ∧ out.result = r ∧ ∀ x t, out = .raised x t → Told kinds I (.calculateHmac k args ok) x t := by
  simp only [calculateHmac, name_calculate, text_hmac, text_convert_hmac, fail_eq h, pyText_library, data_eq h, Res.ok_bind, keyData_eq]
  unfold PyBuilds.calculateHmac at he
  rcases args with _ | ⟨key, arg⟩
  · simp only [Res.ok.injEq, Prod.mk.injEq] at he
    obtain ⟨rfl, rfl⟩ := he
    refine ⟨_, rfl, rfl, fun x t hx => ?_⟩
    cases hx
    exact .inl ⟨rfl, .inr rfl⟩
  simp only at he ⊢
  cases hkd : pyKeyData key with
  | inl x =>
    rw [hkd] at he
    simp only [Res.ok.injEq, Prod.mk.injEq] at he
    obtain ⟨rfl, rfl⟩ := he
    refine ⟨_, rfl, rfl, fun x' t hx => ?_⟩
    cases hx
    have hx : x = .value ∧ (Spec.pyDataWhy key).isSome := by
      rcases key with b | _ | _ | _
      · simp only [pyKeyData] at hkd
        split at hkd
        case isFalse => cases hkd
        case isTrue hl =>
          cases hkd
          have : ¬ b.length ≤ Spec.maxSize := by unfold Spec.maxSize; unfold ssizeMax at hl; omega
          exact ⟨rfl, by simp [Spec.pyDataWhy, this]⟩
      all_goals cases hkd; exact ⟨rfl, rfl⟩
    obtain ⟨rfl, hx⟩ := hx
    exact .inr (.inl ⟨_, _, _, .keySize, rfl, by simp [hx], rfl, rfl⟩)
  | inr kb =>
    rw [hkd] at he
    have hkey : ∃ b, key = .bytes b ∧ b.length ≤ Spec.maxSize := by
      rcases key with b' | _ | _ | _
      · simp only [pyKeyData] at hkd
        split at hkd
        case isTrue => cases hkd
        case isFalse hl => exact ⟨b', rfl, by unfold Spec.maxSize; unfold ssizeMax at hl; omega⟩
      all_goals cases hkd
    obtain ⟨key', rfl, hkl⟩ := hkey
    simp only at he ⊢
    cases hd : pyData (some arg) with
    | inl x =>
      rw [hd] at he
      simp only [Res.ok.injEq, Prod.mk.injEq] at he
      obtain ⟨rfl, rfl⟩ := he
      refine ⟨_, rfl, rfl, fun x' t hx => ?_⟩
      cases hx
      rcases arg with b | _ | _ | _
      · simp only [pyData] at hd
        split at hd
        case isFalse => cases hd
        case isTrue hl =>
          cases hd
          have : ¬ b.length ≤ Spec.maxSize := by unfold Spec.maxSize; unfold ssizeMax at hl; omega
          exact .inr (.inl ⟨_, _, _, .size, rfl, by simp [Spec.pyDataWhy, this, hkl], rfl, rfl⟩)
      · cases hd; exact .inr (.inl ⟨_, _, _, .size, rfl, by simp [Spec.pyDataWhy, hkl], rfl, rfl⟩)
      · cases hd; exact .inr (.inl ⟨_, _, _, .type, rfl, by simp [Spec.pyDataWhy, hkl], rfl, rfl⟩)
      · cases hd; exact .inr (.inl ⟨_, _, _, .instance, rfl, by simp [Spec.pyDataWhy, hkl], rfl, rfl⟩)
    | inr b =>
      rw [hd] at he
      have harg : ∃ b, arg = .bytes b ∧ b.length ≤ Spec.maxSize := by
        rcases arg with b' | _ | _ | _
        · simp only [pyData] at hd
          split at hd
          case isTrue => cases hd
          case isFalse hl => exact ⟨b', rfl, by unfold Spec.maxSize; unfold ssizeMax at hl; omega⟩
        all_goals cases hd
      obtain ⟨b', rfl, hl⟩ := harg
      simp only at he ⊢
      cases hu : P.calculateHmac e k kb b st.mem with
      | ub => rw [hu] at he; cases he
      | diverge => rw [hu] at he; cases he
      | ok x =>
        rw [hu] at he
        simp only [Res.ok_bind] at he ⊢
        by_cases hr : x.1 ≠ 1
        · simp only [if_pos hr, Res.ok_bind, Res.pure_eq, Res.ok.injEq, Prod.mk.injEq] at he ⊢
          obtain ⟨rfl, rfl⟩ := he
          refine ⟨_, ⟨rfl, rfl⟩, rfl, fun x' t hx => ?_⟩
          cases hx
          exact .inr (.inl ⟨_, _, _, .library, rfl, by simp [Spec.pyDataWhy, hl, hkl], rfl, rfl⟩)
        · simp only [if_neg hr, Res.pure_eq, Res.ok.injEq, Prod.mk.injEq] at he ⊢
          obtain ⟨rfl, rfl⟩ := he
          refine ⟨_, ⟨rfl, rfl⟩, by cases ok <;> rfl, fun x' t hx => ?_⟩
          cases ok with
          | true => cases hx
          | false =>
            cases hx
            exact .inr (.inl ⟨_, _, _, .convert, rfl, by simp [Spec.pyDataWhy, hl, hkl], rfl, rfl⟩)

theorem init_result {k : Kind} {m m' : M} {r : Int} {slot : Option Nat} (h : PyBuilds.init P e k m = .ok (r, slot, m')) : r = 0 ∨ r = -1 := by
  unfold PyBuilds.init at h
  cases ha : PyBuilds.acquire P e k none m with
  | ub => rw [ha] at h; cases h
  | diverge => rw [ha] at h; cases h
  | ok x =>
    rw [ha] at h
    simp only [Res.ok_bind] at h
    split at h
    · cases h; exact .inr rfl
    · cases h; exact .inl rfl

theorem create_told (h : I.Ok) {k : Kind} {i : Nat} (hk : kinds i = k) {ok : Bool} {st st' : PyState M} {r : PyResult} (he : PyBuilds.create P e k i ok st = .ok (r, st')) :
    ∃ out, create P e I k i ok st = .ok (out, st') ∧ out.result = r ∧ ∀ x t, out = .raised x t → Told kinds I (.create i ok) x t := by
  unfold PyBuilds.create at he
  unfold create
  cases ok with
  | false =>
    simp only [Bool.false_eq_true, if_false, Res.ok.injEq, Prod.mk.injEq] at he ⊢
    obtain ⟨rfl, rfl⟩ := he
    refine ⟨_, ⟨rfl, rfl⟩, rfl, fun x t hx => ?_⟩
    cases hx
    exact .inl ⟨rfl, .inr ⟨rfl, rfl⟩⟩
  | true =>
    simp only [if_true, init_eq h] at he ⊢
    cases hi : PyBuilds.init P e k st.mem with
    | ub => rw [hi] at he; cases he
    | diverge => rw [hi] at he; cases he
    | ok x =>
      obtain ⟨r1, slot, m⟩ := x
      rw [hi] at he
      rcases init_result hi with rfl | rfl
      · simp only [Res.ok_bind, ne_eq, not_true_eq_false, if_false, if_true, Res.pure_eq, Res.ok.injEq, Prod.mk.injEq] at he ⊢
        obtain ⟨rfl, rfl⟩ := he
        exact ⟨_, ⟨rfl, rfl⟩, rfl, fun x t hx => by cases hx⟩
      · have hne : (-1 : Int) ≠ 0 := by decide
        simp only [Res.ok_bind, ne_eq, hne, not_false_eq_true, if_false, if_true, Res.pure_eq, reduceCtorEq, dealloc_eq h] at he ⊢
        cases hf : PyBuilds.dealloc P e k slot m (st.objects + 1) with
        | ub => rw [hf] at he; cases he
        | diverge => rw [hf] at he; cases he
        | ok y =>
          obtain ⟨r2, m2, n2⟩ := y
          rw [hf] at he
          simp only [Res.ok_bind, Res.ok.injEq, Prod.mk.injEq] at he ⊢
          obtain ⟨rfl, rfl⟩ := he
          rcases dealloc_class hf with rfl | rfl | rfl
          · refine ⟨_, ⟨rfl, rfl⟩, rfl, fun x t hx => ?_⟩
            cases hx
            exact .inr (.inl ⟨_, _, _, .library, rfl, rfl, rfl, by rw [hk]; rfl⟩)
          · refine ⟨_, ⟨rfl, rfl⟩, rfl, fun x t hx => ?_⟩
            cases hx
            exact .inr (.inr ⟨i, .context, rfl, .inr rfl, rfl, by rw [hk]; rfl⟩)
          · refine ⟨_, ⟨rfl, rfl⟩, rfl, fun x t hx => ?_⟩
            cases hx
            exact .inr (.inr ⟨i, .library, rfl, .inl rfl, rfl, by rw [hk]; rfl⟩)

theorem exec_told (h : I.Ok) {op : PyOp} {st st' : PyState M} {r : PyResult} (he : PyBuilds.exec P kinds e op st = .ok (r, st')) :
    ∃ out, exec P kinds e I op st = .ok (out, st') ∧ out.result = r ∧ ∀ x t, out = .raised x t → Told kinds I op x t := by
  have name : ∀ {st' : PyState M} {r : PyResult}, (Res.ok (PyResult.raised .name, st) : Res _) = .ok (r, st') →
      ∃ out, (Res.ok (PyOutcome.raised .name I.own, st) : Res _) = .ok (out, st') ∧ out.result = r ∧ ∀ x t, out = .raised x t → Told kinds I op x t := by
    intro st' r he
    cases he
    refine ⟨_, rfl, rfl, fun x t hx => ?_⟩
    cases hx
    exact .inl ⟨rfl, .inl rfl⟩
  cases op with
  | create i ok =>
    simp only [PyBuilds.exec, exec, PyBuilds.new, new] at he ⊢
    cases hv : st.vars i with
    | some _ => rw [hv] at he; exact name he
    | none =>
      rw [hv] at he
      simp only [Bool.false_eq_true, if_false] at he ⊢
      exact create_told h rfl he
  | createRaw i ok =>
    simp only [PyBuilds.exec, exec, PyBuilds.new, new] at he ⊢
    cases hv : st.vars i with
    | some _ => rw [hv] at he; exact name he
    | none =>
      rw [hv] at he
      cases ok with
      | true =>
        cases he
        exact ⟨_, rfl, rfl, fun x t hx => by cases hx⟩
      | false =>
        cases he
        refine ⟨_, rfl, rfl, fun x t hx => ?_⟩
        cases hx
        exact .inl ⟨rfl, .inr ⟨rfl, rfl⟩⟩
  | calculate k arg ok => exact calculate_told h he
  | calculateHmac k args ok => exact calculateHmac_told h he
  | reinit i =>
    simp only [PyBuilds.exec, exec, PyBuilds.on, on] at he ⊢
    cases hv : st.vars i with
    | none => rw [hv] at he; exact name he
    | some slot =>
      rw [hv] at he
      simp only [PyBuilds.method, method, init_eq h] at he ⊢
      cases hi : PyBuilds.init P e (kinds i) st.mem with
      | ub => rw [hi] at he; cases he
      | diverge => rw [hi] at he; cases he
      | ok x =>
        obtain ⟨r1, slot, m⟩ := x
        rw [hi] at he
        simp only [Res.ok_bind, Res.pure_eq, Res.ok.injEq, Prod.mk.injEq] at he ⊢
        obtain ⟨rfl, rfl⟩ := he
        rcases init_result hi with rfl | rfl
        · exact ⟨_, ⟨rfl, rfl⟩, rfl, fun x t hx => by cases hx⟩
        · refine ⟨_, ⟨rfl, rfl⟩, rfl, fun x t hx => ?_⟩
          cases hx
          exact .inr (.inl ⟨_, _, _, .library, rfl, rfl, rfl, rfl⟩)
  | update i arg =>
    simp only [PyBuilds.exec, exec, PyBuilds.on, on] at he ⊢
    cases hv : st.vars i with
    | none => rw [hv] at he; exact name he
    | some slot =>
      rw [hv] at he
      simp only [PyBuilds.method, method] at he ⊢
      cases hi : PyBuilds.feed P e (kinds i) slot arg st.mem with
      | ub => rw [hi] at he; cases he
      | diverge => rw [hi] at he; cases he
      | ok x =>
        rw [hi] at he
        obtain ⟨out, h1, h2, h3⟩ := feed_told (kinds := kinds) (i := i) h rfl hi
        simp only [Res.ok_bind, Res.pure_eq, Res.ok.injEq, Prod.mk.injEq] at he ⊢
        obtain ⟨rfl, rfl⟩ := he
        rw [h1]
        exact ⟨out, rfl, h2, h3⟩
  | finalize i ok =>
    simp only [PyBuilds.exec, exec, PyBuilds.on, on] at he ⊢
    cases hv : st.vars i with
    | none => rw [hv] at he; exact name he
    | some slot =>
      rw [hv] at he
      simp only [PyBuilds.method, method] at he ⊢
      cases hi : PyBuilds.digest P e (kinds i) slot ok st.mem with
      | ub => rw [hi] at he; cases he
      | diverge => rw [hi] at he; cases he
      | ok x =>
        rw [hi] at he
        obtain ⟨out, h1, h2, h3⟩ := digest_told (kinds := kinds) (i := i) h rfl hi
        simp only [Res.ok_bind, Res.pure_eq, Res.ok.injEq, Prod.mk.injEq] at he ⊢
        obtain ⟨rfl, rfl⟩ := he
        rw [h1]
        exact ⟨out, rfl, h2, h3⟩
  | release i =>
    simp only [PyBuilds.exec, exec, PyBuilds.on, on] at he ⊢
    cases hv : st.vars i with
    | none => rw [hv] at he; exact name he
    | some slot =>
      rw [hv] at he
      simp only [PyBuilds.method, method, dealloc_eq h] at he ⊢
      cases hi : PyBuilds.dealloc P e (kinds i) slot st.mem st.objects with
      | ub => rw [hi] at he; cases he
      | diverge => rw [hi] at he; cases he
      | ok x =>
        obtain ⟨r1, m, n⟩ := x
        rw [hi] at he
        simp only [Res.ok_bind, Res.pure_eq, Res.ok.injEq, Prod.mk.injEq] at he ⊢
        obtain ⟨rfl, rfl⟩ := he
        rcases dealloc_class hi with rfl | rfl | rfl
        · exact ⟨_, ⟨rfl, rfl⟩, rfl, fun x t hx => by cases hx⟩
        · refine ⟨_, ⟨rfl, rfl⟩, rfl, fun x t hx => ?_⟩
          cases hx
          exact .inr (.inl ⟨_, _, _, .context, rfl, .inr rfl, rfl, rfl⟩)
        · refine ⟨_, ⟨rfl, rfl⟩, rfl, fun x t hx => ?_⟩
          cases hx
          exact .inr (.inl ⟨_, _, _, .library, rfl, .inl rfl, rfl, rfl⟩)

/-- What is told by the statements of a program. -/
theorem program_told : ∀ (prog : List (PyOp × PyEnv × PyTexts)) (st : PyState M) {rs : List PyResult} {st' : PyState M}, (∀ x ∈ prog, x.2.2.Ok) →
    PyBuilds.program P kinds (prog.map fun x => (x.1, x.2.1)) st = .ok (rs, st') →
    ∃ outs, program P kinds prog st = .ok (outs, st') ∧ outs.map PyOutcome.result = rs ∧
      ∀ (j : Nat) (op : PyOp) (e : PyEnv) (I : PyTexts) (x : PyExc) (t : List Byte), prog[j]? = some (op, e, I) → outs[j]? = some (.raised x t) → Told kinds I op x t := by
  intro prog
  induction prog with
  | nil =>
    intro st rs st' _ h
    cases h
    exact ⟨[], rfl, rfl, fun j op e I x t hj => by simp at hj⟩
  | cons a t ih =>
    obtain ⟨op, e, I⟩ := a
    intro st rs st' hok h
    simp only [List.map_cons, PyBuilds.program] at h
    cases he : PyBuilds.exec P kinds e op st with
    | ub => rw [he] at h; cases h
    | diverge => rw [he] at h; cases h
    | ok y =>
      obtain ⟨r, st1⟩ := y
      rw [he] at h
      simp only [Res.ok_bind] at h
      cases hp : PyBuilds.program P kinds (t.map fun x => (x.1, x.2.1)) st1 with
      | ub => rw [hp] at h; cases h
      | diverge => rw [hp] at h; cases h
      | ok z =>
        obtain ⟨rs1, st2⟩ := z
        rw [hp] at h
        simp only [Res.ok_bind, Res.pure_eq, Res.ok.injEq, Prod.mk.injEq] at h
        obtain ⟨rfl, rfl⟩ := h
        obtain ⟨out, h1, h2, h3⟩ := exec_told (I := I) (hok (op, e, I) (by simp)) he
        obtain ⟨outs, h4, h5, h6⟩ := ih st1 (fun x hx => hok x (by simp [hx])) hp
        refine ⟨out :: outs, ?_, by simp [h2, h5], fun j op' e' I' x t' hj hx => ?_⟩
        · simp only [program, h1, h4, Res.ok_bind, Res.pure_eq]
        · cases j with
          | zero =>
            simp only [List.getElem?_cons_zero, Option.some.injEq] at hj hx
            cases hj
            exact h3 _ _ hx
          | succ j => exact h6 j op' e' I' x t' (by simpa using hj) (by simpa using hx)

end PyText

end Model
