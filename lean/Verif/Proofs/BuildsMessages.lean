import Verif.Model.BuildsMessages
import Verif.Proofs.Messages
import Verif.Proofs.Builds
import Verif.Proofs.BuildsMain
/-! The main program with its messages, over any implementation of the contexts. -/

namespace Model.Builds

open Model
open Spec (Line Message Selected)

variable {M : Type} {E : Environment} {C : Contexts M} {S : SystemCalls}

/-! ### Without the messages it is the same program -/

/-- Without the messages. -/
def erase (r : Res (ExitM × WorldOf M)) : Res (Exit × WorldOf M) := r >>= fun y => pure (y.1.exit, y.2)

theorem erase_bind {α} (x : Res α) (f : α → Res (ExitM × WorldOf M)) : erase (x >>= f) = x >>= fun a => erase (f a) := by cases x <;> rfl

theorem mOnError_erase (out : List Line) (err : List Message) (slot : Option Handle) (W : WorldOf M) : erase (mOnError E C out err slot W) = onError E C out slot W := by
  unfold mOnError onError
  rw [erase_bind]
  rfl

theorem mOnAbort_erase (out : List Line) (err : List Message) (h : Handle) (W : WorldOf M) : erase (mOnAbort E C S out err h W) = onAbort E C out h W := by
  unfold mOnAbort onAbort
  split
  · exact mOnError_erase ..
  · rw [erase_bind]
    refine Res.bind_same fun a => ?_
    obtain ⟨r, slot, W⟩ := a
    dsimp only
    split
    · exact mOnError_erase ..
    split <;> rfl

theorem mProcessAndPrint_erase (inp : Input) (out : List Line) (err : List Message) (h : Handle) (W : WorldOf M) : erase (mProcessAndPrint E C S inp out err h W) = processAndPrint E C inp out h W := by
  unfold mProcessAndPrint processAndPrint
  rw [erase_bind]
  refine Res.bind_same fun a => ?_
  obtain ⟨r, h, W⟩ := a
  dsimp only
  split
  · exact mOnAbort_erase ..
  split
  · exact mOnError_erase ..
  · rw [erase_bind]
    exact Res.bind_same fun a => mOnAbort_erase ..

theorem mOpenAndProcess_erase (source : List Nat) (out : List Line) (err : List Message) (h : Handle) (W : WorldOf M) : erase (mOpenAndProcess E C S source out err h W) = openAndProcess E C source out h W := by
  unfold mOpenAndProcess openAndProcess
  cases E.files source with
  | none =>
    dsimp only
    split
    · exact mOnAbort_erase ..
    · exact mOnError_erase ..
  | some inp =>
    dsimp only
    split
    · exact mOnAbort_erase ..
    · exact mProcessAndPrint_erase ..

theorem mApplyBufferSize_erase (o : Options) (err : List Message) (h : Handle) : (mApplyBufferSize E C o err h >>= fun y => pure (y.1, y.2.1)) = applyBufferSize E C o h := by
  unfold mApplyBufferSize applyBufferSize
  cases o.bufferSize with
  | none => rfl
  | some s =>
    dsimp only
    rw [Res.bind_assoc]
    refine Res.bind_same fun a => ?_
    split
    · rfl
    split <;> rfl

theorem mApplyDigests_erase (o : Options) (err : List Message) (h : Handle) (W : WorldOf M) : (mApplyDigests E C o err h W >>= fun y => pure (y.1, y.2.1, y.2.2.1)) = applyDigests E C o h W := by
  unfold mApplyDigests applyDigests
  cases o.digests with
  | none => rfl
  | some s =>
    dsimp only
    rw [Res.bind_assoc]
    exact Res.bind_same fun a => rfl

theorem mRunSource_erase (o : Options) (source : List Nat) (out : List Line) (W : WorldOf M) : erase (mRunSource E C S o source out W) = runSource E C o source out W := by
  unfold mRunSource runSource
  rw [erase_bind]
  refine Res.bind_same fun a => ?_
  obtain ⟨r, slot, W⟩ := a
  dsimp only
  split
  · exact mOnError_erase ..
  cases slot with
  | none => rfl
  | some h =>
    dsimp only
    rw [erase_bind, ← mApplyBufferSize_erase o [] h, Res.bind_assoc]
    refine Res.bind_same fun b => ?_
    obtain ⟨ok, h, err⟩ := b
    simp only [Res.pure_eq, Res.ok_bind]
    split
    · exact mOnError_erase ..
    rw [erase_bind, ← mApplyDigests_erase o err h W, Res.bind_assoc]
    refine Res.bind_same fun b => ?_
    obtain ⟨ok, h, W, err⟩ := b
    simp only [Res.pure_eq, Res.ok_bind]
    split
    · exact mOnError_erase ..
    · exact mOpenAndProcess_erase ..

theorem mHmacsum_erase (args : List (List Nat)) (W : WorldOf M) :
    erase (mHmacsum E C S args W) = hmacsum { E with outputOk := S.bufferOut && S.bufferErr } C args W := by
  unfold mHmacsum hmacsum
  split
  · exact mOnError_erase ..
  have h : outputInitialize 2 S.bufferOut S.bufferErr ≠ 1 ↔ (!(S.bufferOut && S.bufferErr)) = true := by
    cases S.bufferOut <;> cases S.bufferErr <;> decide
  simp only [h]
  split
  · exact mOnError_erase ..
  rw [erase_bind, ← mParseOptions_erase, Res.bind_assoc]
  refine Res.bind_same fun a => ?_
  obtain ⟨p, arg⟩ := a
  cases p with
  | run o source => exact mRunSource_erase ..
  | help => rfl
  | version => rfl
  | invalid => exact mOnError_erase ..
  | missing => exact mOnError_erase ..

/-- A result of the program with messages from one of the program without. -/
theorem of_erase {r : Res (ExitM × WorldOf M)} {x : Exit} {W : WorldOf M} (h : erase r = .ok (x, W)) : ∃ err, r = .ok (⟨x, err⟩, W) := by
  obtain ⟨⟨⟨y, err⟩, V⟩, e, h⟩ := Res.bind_eq_ok h
  cases h
  exact ⟨err, e⟩

/-! ### The form of the output -/

theorem mOnError_shape {out : List Line} {err : List Message} {m : Message} {slot : Option Handle} {W W' : WorldOf M} {x : ExitM} (he : Warnings err) (hm : m.isWarning = false)
    (h : mOnError E C out (err ++ [m]) slot W = .ok (x, W')) : Shape E x := by
  obtain ⟨a, -, h⟩ := Res.bind_eq_ok h
  cases h
  exact .inr ⟨rfl, .inl ⟨err, m, rfl, he, hm⟩⟩

theorem mOnAbort_shape {out : List Line} {err : List Message} {hd : Handle} {W W' : WorldOf M} {x : ExitM} (he : Warnings err) (h : mOnAbort E C S out err hd W = .ok (x, W')) : Shape E x := by
  unfold mOnAbort at h
  split at h
  · exact mOnError_shape he rfl h
  have hw : Warnings (if signalDetach S.detach ≠ 1 then err ++ [.detach] else err) := by
    split
    · exact he.snoc rfl
    · exact he
  obtain ⟨⟨r, slot, V⟩, -, h⟩ := Res.bind_eq_ok h
  dsimp only at h
  split at h
  · exact mOnError_shape hw rfl h
  split at h
  · rename_i ha
    cases h
    exact .inr ⟨rfl, .inr ⟨hw, by simp, ha⟩⟩
  · cases h
    exact .inl ⟨rfl, hw⟩

theorem mProcessAndPrint_shape {inp : Input} {out : List Line} {err : List Message} {hd : Handle} {W W' : WorldOf M} {x : ExitM} (he : Warnings err)
    (h : mProcessAndPrint E C S inp out err hd W = .ok (x, W')) : Shape E x := by
  obtain ⟨⟨r, h2, V⟩, -, h⟩ := Res.bind_eq_ok h
  dsimp only at h
  split at h
  · exact mOnAbort_shape he h
  split at h
  · exact mOnError_shape he rfl h
  obtain ⟨ds, -, h⟩ := Res.bind_eq_ok h
  exact mOnAbort_shape he h

theorem mOpenAndProcess_shape {source : List Nat} {out : List Line} {err : List Message} {hd : Handle} {W W' : WorldOf M} {x : ExitM} (he : Warnings err)
    (h : mOpenAndProcess E C S source out err hd W = .ok (x, W')) : Shape E x := by
  unfold mOpenAndProcess at h
  split at h
  · split at h
    · exact mOnAbort_shape he h
    · exact mOnError_shape he rfl h
  · split at h
    · exact mOnAbort_shape he h
    · exact mProcessAndPrint_shape he h

theorem mRunSource_shape {o : Options} {source : List Nat} {out : List Line} {W W' : WorldOf M} {x : ExitM} (h : mRunSource E C S o source out W = .ok (x, W')) : Shape E x := by
  have h0 : Warnings [] := fun _ h => by cases h
  obtain ⟨⟨r, slot, V⟩, -, h⟩ := Res.bind_eq_ok h
  dsimp only at h
  split at h
  · exact mOnError_shape (err := []) h0 rfl h
  cases slot with
  | none => cases h
  | some hd =>
    dsimp only at h
    obtain ⟨⟨ok, hd, err⟩, hb, h⟩ := Res.bind_eq_ok h
    have hb : if ok then Warnings err else err = [.bufferSize] := by
      unfold mApplyBufferSize at hb
      split at hb
      · cases hb
        exact h0
      · obtain ⟨⟨r, h2⟩, -, hb⟩ := Res.bind_eq_ok hb
        dsimp only at hb
        split at hb
        · cases hb
          rfl
        split at hb
        · cases hb
          exact h0.snoc rfl
        · cases hb
          exact h0
    dsimp only at h
    cases ok with
    | false =>
      rw [show err = [.bufferSize] from hb] at h
      exact mOnError_shape (err := []) h0 rfl h
    | true =>
      have hb : Warnings err := hb
      simp only [Bool.not_true, if_false, Bool.false_eq_true] at h
      obtain ⟨⟨ok, hd, V, err2⟩, hd', h⟩ := Res.bind_eq_ok h
      have hd' : if ok then Warnings err2 else err2 = err ++ [.digestTypes] := by
        unfold mApplyDigests at hd'
        split at hd'
        · cases hd'
          exact hb
        · obtain ⟨⟨r, h2, V2⟩, -, hd'⟩ := Res.bind_eq_ok hd'
          dsimp only at hd'
          by_cases hr : r = -1
          · cases hd'
            simp [hr]
          · cases hd'
            simpa [hr] using hb
      dsimp only at h
      cases ok with
      | false =>
        rw [show err2 = err ++ [.digestTypes] from hd'] at h
        exact mOnError_shape hb rfl h
      | true =>
        simp only [Bool.not_true, if_false, Bool.false_eq_true] at h
        refine mOpenAndProcess_shape ?_ h
        split
        · exact Warnings.snoc hd' rfl
        · exact hd'

theorem mHmacsum_shape {args : List (List Nat)} {W W' : WorldOf M} {x : ExitM} (h : mHmacsum E C S args W = .ok (x, W')) : Shape E x := by
  have h0 : Warnings [] := fun _ h => by cases h
  unfold mHmacsum at h
  split at h
  · exact mOnError_shape (err := []) h0 rfl h
  split at h
  · exact mOnError_shape (err := []) h0 rfl h
  obtain ⟨⟨p, arg⟩, -, h⟩ := Res.bind_eq_ok h
  cases p with
  | run o source => exact mRunSource_shape h
  | help => cases h; exact .inl ⟨rfl, h0⟩
  | version => cases h; exact .inl ⟨rfl, h0⟩
  | invalid => exact mOnError_shape (err := []) h0 rfl h
  | missing => exact mOnError_shape (err := []) h0 rfl h

/-! ### With the built-in functions it is the program of Model/Messages -/

theorem mOnError_builtin (out : List Line) (err : List Message) (slot : Option Handle) (W : World) : mOnError E (.builtin E.tool) out err slot W = Model.mOnError E out err slot W := by
  simp only [mOnError, Model.mOnError, sumFree_builtin]

theorem mOnAbort_builtin (out : List Line) (err : List Message) (h : Handle) (W : World) : mOnAbort E (.builtin E.tool) S out err h W = Model.mOnAbort E S out err h W := by
  simp only [mOnAbort, Model.mOnAbort, sumFree_builtin, mOnError_builtin]

theorem mProcessAndPrint_builtin (inp : Input) (out : List Line) (err : List Message) (h : Handle) (W : World) :
    mProcessAndPrint E (.builtin E.tool) S inp out err h W = Model.mProcessAndPrint E S inp out err h W := by
  simp only [mProcessAndPrint, Model.mProcessAndPrint, processInput_builtin, mOnAbort_builtin, mOnError_builtin]

theorem mOpenAndProcess_builtin (source : List Nat) (out : List Line) (err : List Message) (h : Handle) (W : World) :
    mOpenAndProcess E (.builtin E.tool) S source out err h W = Model.mOpenAndProcess E S source out err h W := by
  simp only [mOpenAndProcess, Model.mOpenAndProcess, mProcessAndPrint_builtin, mOnAbort_builtin, mOnError_builtin]
  rfl

theorem mApplyBufferSize_builtin (o : Options) (err : List Message) (h : Handle) : mApplyBufferSize E (.builtin E.tool) o err h = Model.mApplyBufferSize E o err h := by
  unfold mApplyBufferSize Model.mApplyBufferSize
  simp only [setBufferSize_eq (C := .builtin E.tool) rfl]
  rfl

theorem mApplyDigests_builtin (o : Options) (err : List Message) (h : Handle) (W : World) : mApplyDigests E (.builtin E.tool) o err h W = Model.mApplyDigests E o err h W := by
  simp only [mApplyDigests, Model.mApplyDigests, setDigestTypes_builtin]
  rfl

theorem mRunSource_builtin (o : Options) (source : List Nat) (out : List Line) (W : World) : mRunSource E (.builtin E.tool) S o source out W = Model.mRunSource E S o source out W := by
  simp only [mRunSource, Model.mRunSource, sumInitialize_builtin, mApplyBufferSize_builtin, mApplyDigests_builtin, mOpenAndProcess_builtin, mOnError_builtin]
  rfl

theorem mHmacsum_builtin (args : List (List Nat)) (W : World) : mHmacsum E (.builtin E.tool) S args W = Model.mHmacsum E S args W := by
  simp only [mHmacsum, Model.mHmacsum, mRunSource_builtin, mOnError_builtin]
  rfl

/-! ### Success and its warnings -/

theorem mOnError_status {out : List Line} {err : List Message} {slot : Option Handle} {W W' : WorldOf M} {x : ExitM} (h : mOnError E C out err slot W = .ok (x, W')) : x.exit.status = false := by
  obtain ⟨a, -, h⟩ := Res.bind_eq_ok h
  cases h
  rfl

theorem mOnAbort_warned {out : List Line} {err : List Message} {hd : Handle} {W W' : WorldOf M} {x : ExitM} (h : mOnAbort E C S out err hd W = .ok (x, W')) (hx : x.exit.status = true) :
    x.err = err ++ if S.detach then [] else [.detach] := by
  unfold mOnAbort at h
  split at h
  · exact absurd ((mOnError_status h).symm.trans hx) (by decide)
  obtain ⟨⟨r, slot, V⟩, -, h⟩ := Res.bind_eq_ok h
  dsimp only at h
  split at h
  · exact absurd ((mOnError_status h).symm.trans hx) (by decide)
  split at h
  · cases h
    cases hx
  · cases h
    cases S.detach <;> simp [signalDetach]

theorem mOpenAndProcess_warned {source : List Nat} {out : List Line} {err : List Message} {hd : Handle} {W W' : WorldOf M} {x : ExitM}
    (h : mOpenAndProcess E C S source out err hd W = .ok (x, W')) (hx : x.exit.status = true) : x.err = err ++ if S.detach then [] else [.detach] := by
  unfold mOpenAndProcess at h
  split at h
  · split at h
    · exact mOnAbort_warned h hx
    · exact absurd ((mOnError_status h).symm.trans hx) (by decide)
  · split at h
    · exact mOnAbort_warned h hx
    · unfold mProcessAndPrint at h
      obtain ⟨⟨r, h2, V⟩, -, h⟩ := Res.bind_eq_ok h
      dsimp only at h
      split at h
      · exact mOnAbort_warned h hx
      split at h
      · exact absurd ((mOnError_status h).symm.trans hx) (by decide)
      obtain ⟨ds, -, h⟩ := Res.bind_eq_ok h
      exact mOnAbort_warned h hx

end Model.Builds
