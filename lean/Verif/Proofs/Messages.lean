import Verif.Model.Messages
import Verif.Proofs.Hmacsum
/-! The main program with its messages. -/

namespace Model

open Spec (Line Message Selected)

variable {E : Environment} {C : SystemCalls}

theorem Res.bind_eq_ok {α β} {x : Res α} {f : α → Res β} {b : β} (h : (x >>= f) = .ok b) : ∃ a, x = .ok a ∧ f a = .ok b := by
  cases x with
  | ok a => exact ⟨a, rfl, h⟩
  | ub => cases h
  | diverge => cases h

theorem Res.bind_same {α β} {x : Res α} {f g : α → Res β} (h : ∀ a, f a = g a) : (x >>= f) = (x >>= g) := by rw [funext h]

/-! ### Without the messages it is the same program -/

/-- Without the messages. -/
def erase (r : Res (ExitM × World)) : Res (Exit × World) := r >>= fun y => pure (y.1.exit, y.2)

theorem erase_bind {α} (x : Res α) (f : α → Res (ExitM × World)) : erase (x >>= f) = x >>= fun a => erase (f a) := by cases x <;> rfl

theorem mOnError_erase (out : List Line) (err : List Message) (slot : Option Handle) (W : World) : erase (mOnError E out err slot W) = onError E out slot W := by
  unfold mOnError onError
  rw [erase_bind]
  rfl

theorem mOnAbort_erase (out : List Line) (err : List Message) (h : Handle) (W : World) : erase (mOnAbort E C out err h W) = onAbort E out h W := by
  unfold mOnAbort onAbort
  split
  · exact mOnError_erase ..
  · rw [erase_bind]
    refine Res.bind_same fun a => ?_
    obtain ⟨r, slot, W⟩ := a
    dsimp only
    split
    · exact mOnError_erase ..
    split <;> rfl

theorem mProcessAndPrint_erase (inp : Input) (out : List Line) (err : List Message) (h : Handle) (W : World) : erase (mProcessAndPrint E C inp out err h W) = processAndPrint E inp out h W := by
  unfold mProcessAndPrint processAndPrint
  rw [erase_bind]
  refine Res.bind_same fun a => ?_
  obtain ⟨r, h, W⟩ := a
  dsimp only
  split
  · exact mOnAbort_erase ..
  split
  · exact mOnError_erase ..
  · rw [erase_bind]
    exact Res.bind_same fun a => mOnAbort_erase ..

theorem mOpenAndProcess_erase (source : List Nat) (out : List Line) (err : List Message) (h : Handle) (W : World) : erase (mOpenAndProcess E C source out err h W) = openAndProcess E source out h W := by
  unfold mOpenAndProcess openAndProcess
  cases E.files source with
  | none =>
    dsimp only
    split
    · exact mOnAbort_erase ..
    · exact mOnError_erase ..
  | some inp =>
    dsimp only
    split
    · exact mOnAbort_erase ..
    · exact mProcessAndPrint_erase ..

theorem mApplyBufferSize_erase (o : Options) (err : List Message) (h : Handle) : (mApplyBufferSize E o err h >>= fun y => pure (y.1, y.2.1)) = applyBufferSize E o h := by
  unfold mApplyBufferSize applyBufferSize
  cases o.bufferSize with
  | none => rfl
  | some s =>
    dsimp only
    rw [Res.bind_assoc]
    refine Res.bind_same fun a => ?_
    split
    · rfl
    split <;> rfl

theorem mApplyDigests_erase (o : Options) (err : List Message) (h : Handle) (W : World) : (mApplyDigests E o err h W >>= fun y => pure (y.1, y.2.1, y.2.2.1)) = applyDigests E o h W := by
  unfold mApplyDigests applyDigests
  cases o.digests with
  | none => rfl
  | some s =>
    dsimp only
    rw [Res.bind_assoc]
    exact Res.bind_same fun a => rfl

theorem mRunSource_erase (o : Options) (source : List Nat) (out : List Line) (W : World) : erase (mRunSource E C o source out W) = runSource E o source out W := by
  unfold mRunSource runSource
  rw [erase_bind]
  refine Res.bind_same fun a => ?_
  obtain ⟨r, slot, W⟩ := a
  dsimp only
  split
  · exact mOnError_erase ..
  cases slot with
  | none => rfl
  | some h =>
    dsimp only
    rw [erase_bind, ← mApplyBufferSize_erase o [] h, Res.bind_assoc]
    refine Res.bind_same fun b => ?_
    obtain ⟨ok, h, err⟩ := b
    simp only [Res.pure_eq, Res.ok_bind]
    split
    · exact mOnError_erase ..
    rw [erase_bind, ← mApplyDigests_erase o err h W, Res.bind_assoc]
    refine Res.bind_same fun b => ?_
    obtain ⟨ok, h, W, err⟩ := b
    simp only [Res.pure_eq, Res.ok_bind]
    split
    · exact mOnError_erase ..
    · exact mOpenAndProcess_erase ..

theorem mParseOptions_erase (mc : Bool) (args : List (List Nat)) : ∀ (fuel : Nat) (o : Options) (s : OptState),
    (mParseOptions mc args fuel o s >>= fun y => pure y.1) = parseOptions mc args fuel o s
  | 0, _, _ => rfl
  | fuel + 1, o, s => by
    rw [mParseOptions, parseOptions, Res.bind_assoc]
    refine Res.bind_same fun a => ?_
    obtain ⟨c, s⟩ := a
    cases c with
    | none =>
      dsimp only
      split
      · rfl
      · rw [Res.bind_assoc]
        rfl
    | some c =>
      dsimp only
      split
      · rw [Res.bind_assoc]
        exact Res.bind_same fun a => mParseOptions_erase mc args fuel _ _
      split
      · rfl
      split
      · rw [Res.bind_assoc]
        exact Res.bind_same fun a => mParseOptions_erase mc args fuel _ _
      split
      · exact mParseOptions_erase mc args fuel _ _
      split
      · rfl
      · rw [Res.bind_assoc]
        rfl

theorem mHmacsum_erase (args : List (List Nat)) (W : World) :
    erase (mHmacsum E C args W) = hmacsum { E with outputOk := C.bufferOut && C.bufferErr } args W := by
  unfold mHmacsum hmacsum
  split
  · exact mOnError_erase ..
  have h : outputInitialize 2 C.bufferOut C.bufferErr ≠ 1 ↔ (!(C.bufferOut && C.bufferErr)) = true := by
    cases C.bufferOut <;> cases C.bufferErr <;> decide
  simp only [h]
  split
  · exact mOnError_erase ..
  rw [erase_bind, ← mParseOptions_erase, Res.bind_assoc]
  refine Res.bind_same fun a => ?_
  obtain ⟨p, arg⟩ := a
  cases p with
  | run o source => exact mRunSource_erase ..
  | help => rfl
  | version => rfl
  | invalid => exact mOnError_erase ..
  | missing => exact mOnError_erase ..

/-- A result of the program with messages from one of the program without. -/
theorem of_erase {r : Res (ExitM × World)} {x : Exit} {W : World} (h : erase r = .ok (x, W)) : ∃ err, r = .ok (⟨x, err⟩, W) := by
  obtain ⟨⟨⟨y, err⟩, V⟩, e, h⟩ := Res.bind_eq_ok h
  cases h
  exact ⟨err, e⟩

/-! ### The form of the output -/

/-- Only warnings. -/
def Warnings (err : List Message) : Prop := ∀ m ∈ err, m.isWarning = true

/-- Success: only warnings. Failure: warnings followed by one message that is none, or warnings and the line "ABORTED" after a signal. -/
def Shape (E : Environment) (x : ExitM) : Prop :=
  x.exit.status = true ∧ Warnings x.err ∨
    x.exit.status = false ∧ ((∃ ws m, x.err = ws ++ [m] ∧ Warnings ws ∧ m.isWarning = false) ∨ Warnings x.err ∧ x.exit.out.getLast? = some .aborted ∧ E.arrival.atFinal = true)

theorem Warnings.snoc {err : List Message} {m : Message} (h : Warnings err) (hm : m.isWarning = true) : Warnings (err ++ [m]) := fun y hy => by
  rcases List.mem_append.mp hy with hy | hy
  · exact h y hy
  · rw [List.mem_singleton.mp hy]
    exact hm

theorem mOnError_shape {out : List Line} {err : List Message} {m : Message} {slot : Option Handle} {W W' : World} {x : ExitM} (he : Warnings err) (hm : m.isWarning = false)
    (h : mOnError E out (err ++ [m]) slot W = .ok (x, W')) : Shape E x := by
  obtain ⟨a, -, h⟩ := Res.bind_eq_ok h
  cases h
  exact .inr ⟨rfl, .inl ⟨err, m, rfl, he, hm⟩⟩

theorem mOnAbort_shape {out : List Line} {err : List Message} {hd : Handle} {W W' : World} {x : ExitM} (he : Warnings err) (h : mOnAbort E C out err hd W = .ok (x, W')) : Shape E x := by
  unfold mOnAbort at h
  split at h
  · exact mOnError_shape he rfl h
  have hw : Warnings (if signalDetach C.detach ≠ 1 then err ++ [.detach] else err) := by
    split
    · exact he.snoc rfl
    · exact he
  obtain ⟨⟨r, slot, V⟩, -, h⟩ := Res.bind_eq_ok h
  dsimp only at h
  split at h
  · exact mOnError_shape hw rfl h
  split at h
  · rename_i ha
    cases h
    exact .inr ⟨rfl, .inr ⟨hw, by simp, ha⟩⟩
  · cases h
    exact .inl ⟨rfl, hw⟩

theorem mProcessAndPrint_shape {inp : Input} {out : List Line} {err : List Message} {hd : Handle} {W W' : World} {x : ExitM} (he : Warnings err)
    (h : mProcessAndPrint E C inp out err hd W = .ok (x, W')) : Shape E x := by
  obtain ⟨⟨r, h2, V⟩, -, h⟩ := Res.bind_eq_ok h
  dsimp only at h
  split at h
  · exact mOnAbort_shape he h
  split at h
  · exact mOnError_shape he rfl h
  obtain ⟨ds, -, h⟩ := Res.bind_eq_ok h
  exact mOnAbort_shape he h

theorem mOpenAndProcess_shape {source : List Nat} {out : List Line} {err : List Message} {hd : Handle} {W W' : World} {x : ExitM} (he : Warnings err)
    (h : mOpenAndProcess E C source out err hd W = .ok (x, W')) : Shape E x := by
  unfold mOpenAndProcess at h
  split at h
  · split at h
    · exact mOnAbort_shape he h
    · exact mOnError_shape he rfl h
  · split at h
    · exact mOnAbort_shape he h
    · exact mProcessAndPrint_shape he h

theorem mRunSource_shape {o : Options} {source : List Nat} {out : List Line} {W W' : World} {x : ExitM} (h : mRunSource E C o source out W = .ok (x, W')) : Shape E x := by
  have h0 : Warnings [] := fun _ h => by cases h
  obtain ⟨⟨r, slot, V⟩, -, h⟩ := Res.bind_eq_ok h
  dsimp only at h
  split at h
  · exact mOnError_shape (err := []) h0 rfl h
  cases slot with
  | none => cases h
  | some hd =>
    dsimp only at h
    obtain ⟨⟨ok, hd, err⟩, hb, h⟩ := Res.bind_eq_ok h
    have hb : if ok then Warnings err else err = [.bufferSize] := by
      unfold mApplyBufferSize at hb
      split at hb
      · cases hb
        exact h0
      · obtain ⟨⟨r, h2⟩, -, hb⟩ := Res.bind_eq_ok hb
        dsimp only at hb
        split at hb
        · cases hb
          rfl
        split at hb
        · cases hb
          exact h0.snoc rfl
        · cases hb
          exact h0
    dsimp only at h
    cases ok with
    | false =>
      rw [show err = [.bufferSize] from hb] at h
      exact mOnError_shape (err := []) h0 rfl h
    | true =>
      have hb : Warnings err := hb
      simp only [Bool.not_true, if_false, Bool.false_eq_true] at h
      obtain ⟨⟨ok, hd, V, err2⟩, hd', h⟩ := Res.bind_eq_ok h
      have hd' : if ok then Warnings err2 else err2 = err ++ [.digestTypes] := by
        unfold mApplyDigests at hd'
        split at hd'
        · cases hd'
          exact hb
        · obtain ⟨⟨r, h2, V2⟩, -, hd'⟩ := Res.bind_eq_ok hd'
          dsimp only at hd'
          by_cases hr : r = -1
          · cases hd'
            simp [hr]
          · cases hd'
            simpa [hr] using hb
      dsimp only at h
      cases ok with
      | false =>
        rw [show err2 = err ++ [.digestTypes] from hd'] at h
        exact mOnError_shape hb rfl h
      | true =>
        simp only [Bool.not_true, if_false, Bool.false_eq_true] at h
        refine mOpenAndProcess_shape ?_ h
        split
        · exact Warnings.snoc hd' rfl
        · exact hd'

theorem mHmacsum_shape {args : List (List Nat)} {W W' : World} {x : ExitM} (h : mHmacsum E C args W = .ok (x, W')) : Shape E x := by
  have h0 : Warnings [] := fun _ h => by cases h
  unfold mHmacsum at h
  split at h
  · exact mOnError_shape (err := []) h0 rfl h
  split at h
  · exact mOnError_shape (err := []) h0 rfl h
  obtain ⟨⟨p, arg⟩, -, h⟩ := Res.bind_eq_ok h
  cases p with
  | run o source => exact mRunSource_shape h
  | help => cases h; exact .inl ⟨rfl, h0⟩
  | version => cases h; exact .inl ⟨rfl, h0⟩
  | invalid => exact mOnError_shape (err := []) h0 rfl h
  | missing => exact mOnError_shape (err := []) h0 rfl h

end Model
