import Verif.Model.Builds
import Verif.Proofs.Hmacsum
import Verif.Proofs.BackendOneShot
/-! The tool over any implementation of the contexts. -/

namespace Model

open Spec (Kind IterHash ApiCall Reply ApiState hex Line Selected DigestLines printOrder)

namespace Builds

/-! ### With the built-in contexts -/

section

variable (T : Tool)

theorem allocBlock_builtin (W : World) : allocBlock T (.builtin T) W = Model.allocBlock T W := rfl

theorem ctxCall_builtin (k : Kind) (c : ApiCall) (n : Nat) (h : Handle) (W : World) : ctxCall (.builtin T) k c n h W = Model.ctxCall T k c n h W := by
  simp only [ctxCall, Model.ctxCall, Contexts.builtin]
  cases step (algOf k) (T.unrolled k) { T.envs k.width with allocOk := T.alloc } c (T.scr k n) (h.context k) (W.mem.view k.width) <;> rfl

theorem initHashes_builtin : ∀ (ks : List Kind) (h : Handle) (W : World), initHashes (.builtin T) ks h W = Model.initHashes T ks h W
  | [], _, _ => rfl
  | k :: ks, h, W => by simp only [initHashes, Model.initHashes, ctxCall_builtin, initHashes_builtin ks]

theorem freeHash_builtin (k : Kind) (h : Handle) (W : World) : freeHash (.builtin T) k h W = Model.freeHash T k h W := by
  simp only [freeHash, Model.freeHash, ctxCall_builtin]
  cases h.context k <;> rfl

theorem initIntegrity_builtin (h : Handle) (W : World) : initIntegrity (.builtin T) h W = Model.initIntegrity T h W := by
  simp only [initIntegrity, Model.initIntegrity, initHashes_builtin, freeHash_builtin]

theorem updateHashes_builtin (buffer : List Byte) (size : Nat) : ∀ (ks : List Kind) (h : Handle) (W : World),
    updateHashes (.builtin T) buffer size ks h W = Model.updateHashes T buffer size ks h W
  | [], _, _ => rfl
  | k :: ks, h, W => by simp only [updateHashes, Model.updateHashes, ctxCall_builtin, updateHashes_builtin buffer size ks]

theorem updateIntegrity_builtin (buffer : List Byte) (size : Nat) (h : Handle) (W : World) :
    updateIntegrity (.builtin T) buffer size h W = Model.updateIntegrity T buffer size h W := by
  simp only [updateIntegrity, Model.updateIntegrity, updateHashes_builtin]
  rfl

theorem finalizeHashes_builtin : ∀ (ks : List Kind) (h : Handle) (W : World), finalizeHashes T (.builtin T) ks h W = Model.finalizeHashes T ks h W
  | [], _, _ => rfl
  | k :: ks, h, W => by simp only [finalizeHashes, Model.finalizeHashes, ctxCall_builtin, finalizeHashes_builtin ks]; rfl

theorem bind_inv {α β : Type} {x : Res α} {f : α → Res β} {b : β} (e : (x >>= f) = .ok b) : ∃ a, x = .ok a ∧ f a = .ok b := by
  cases x with
  | ub => cases e
  | diverge => cases e
  | ok a => exact ⟨a, rfl, e⟩

theorem ctxCall_bufferSize {k : Kind} {c : ApiCall} {n : Nat} {h : Handle} {W : World} {r : Reply} {h' : Handle} {W' : World} (e : Model.ctxCall T k c n h W = .ok (r, h', W')) : h'.bufferSize = h.bufferSize := by
  obtain ⟨⟨r1, s1, m1⟩, -, e⟩ := bind_inv e
  cases e
  rfl

theorem initHashes_bufferSize : ∀ (ks : List Kind) {h : Handle} {W : World} {r : Bool} {h' : Handle} {W' : World}, Model.initHashes T ks h W = .ok (r, h', W') → h'.bufferSize = h.bufferSize
  | [], h, W, r, h', W', e => by cases e; rfl
  | k :: ks, h, W, r, h', W', e => by
    rw [Model.initHashes] at e
    split at e
    · obtain ⟨⟨r1, h1, W1⟩, e1, e⟩ := bind_inv e
      dsimp only at e
      split at e
      · cases e
        exact ctxCall_bufferSize T e1
      · exact (initHashes_bufferSize ks e).trans (ctxCall_bufferSize T e1)
    · exact initHashes_bufferSize ks e

theorem freeHash_bufferSize {k : Kind} {h : Handle} {W : World} {h' : Handle} {W' : World} (e : Model.freeHash T k h W = .ok (h', W')) : h'.bufferSize = h.bufferSize := by
  unfold Model.freeHash at e
  split at e
  · cases e
    rfl
  · obtain ⟨⟨r1, h1, W1⟩, e1, e⟩ := bind_inv e
    cases e
    exact ctxCall_bufferSize T e1

theorem initIntegrity_bufferSize {h : Handle} {W : World} {r : Int} {h' : Handle} {W' : World} (e : Model.initIntegrity T h W = .ok (r, h', W')) : h'.bufferSize = h.bufferSize := by
  obtain ⟨⟨r1, h1, W1⟩, e1, e⟩ := bind_inv e
  dsimp only at e
  split at e
  · cases e
    exact initHashes_bufferSize T _ e1
  · obtain ⟨⟨h2, W2⟩, e2, e⟩ := bind_inv e
    obtain ⟨⟨h3, W3⟩, e3, e⟩ := bind_inv e
    cases e
    exact (freeHash_bufferSize T e3).trans ((freeHash_bufferSize T e2).trans (initHashes_bufferSize T _ e1))

theorem updateHashes_bufferSize (buffer : List Byte) (size : Nat) : ∀ (ks : List Kind) {h : Handle} {W : World} {r : Int} {h' : Handle} {W' : World},
    Model.updateHashes T buffer size ks h W = .ok (r, h', W') → h'.bufferSize = h.bufferSize
  | [], h, W, r, h', W', e => by cases e; rfl
  | k :: ks, h, W, r, h', W', e => by
    rw [Model.updateHashes] at e
    split at e
    · obtain ⟨⟨r1, h1, W1⟩, e1, e⟩ := bind_inv e
      dsimp only at e
      split at e
      · cases e
        exact ctxCall_bufferSize T e1
      · exact (updateHashes_bufferSize buffer size ks e).trans (ctxCall_bufferSize T e1)
    · exact updateHashes_bufferSize buffer size ks e

theorem readInput_eq {M : Type} {C : Contexts M} (h64 : C.bits = 64) (inp : Input) (size : Nat) (h : Handle) : readInput C inp size h = Model.readInput inp size h := by
  unfold readInput Model.readInput Contexts.sizeMax
  rw [h64]
  rfl

theorem processLoop_builtin (inp : Input) (aborted : Nat → Bool) (size : Nat) : ∀ (fuel pc : Nat) (buffer : List Byte) (h : Handle) (W : World), h.bufferSize ≤ ssizeMax →
    processLoop (.builtin T) inp aborted size fuel pc buffer h W = Model.processLoop T inp aborted size fuel pc buffer h W
  | 0, pc, buffer, h, W, _ => by rw [processLoop, Model.processLoop]
  | fuel + 1, pc, buffer, h, W, hs => by
    rw [processLoop, Model.processLoop]
    have hrs : (if size - pc < h.bufferSize then (size - pc) % 2 ^ (Contexts.builtin T).bits else h.bufferSize) = if size - pc < h.bufferSize then size - pc else h.bufferSize := by
      split
      · exact Nat.mod_eq_of_lt (by unfold ssizeMax at hs; show _ < 2 ^ 64; omega)
      · rfl
    simp only [updateIntegrity_builtin, readInput_eq (C := .builtin T) rfl, hrs]
    split
    · generalize (if size - pc < h.bufferSize then size - pc else h.bufferSize) = rs
      cases hr : Model.readInput inp rs h with
      | mk x h1 =>
      have h1s : h1.bufferSize = h.bufferSize := by
        unfold Model.readInput at hr
        split at hr
        · cases hr; rfl
        · split at hr <;> cases hr <;> rfl
      cases x with
      | none => rfl
      | some d =>
        dsimp only
        cases memCopy buffer 0 d 0 d.length with
        | ub => rfl
        | diverge => rfl
        | ok buffer =>
          simp only [Res.ok_bind]
          split
          · rfl
          · cases hu : Model.updateIntegrity T buffer d.length h1 W with
            | ub => rfl
            | diverge => rfl
            | ok x =>
              obtain ⟨r, h2, W2⟩ := x
              have h2s : h2.bufferSize = h1.bufferSize := by
                unfold Model.updateIntegrity at hu
                split at hu
                · cases hu; rfl
                · exact updateHashes_bufferSize T _ _ _ hu
              simp only [Res.ok_bind]
              rw [processLoop_builtin inp aborted size fuel]
              show h2.bufferSize ≤ _
              omega
    · rfl

theorem processInput_builtin (inp : Input) (aborted : Nat → Bool) (h : Handle) (W : World) : processInput T (.builtin T) inp aborted h W = Model.processInput T inp aborted h W := by
  simp only [processInput, Model.processInput, allocBlock_builtin, initIntegrity_builtin, finalizeHashes_builtin]
  by_cases hs : h.bufferSize = 0 ∨ ssizeMax < h.bufferSize
  · rw [if_pos hs, if_pos (show h.bufferSize = 0 ∨ (Contexts.builtin T).sizeMax < h.bufferSize from hs)]
  rw [if_neg hs, if_neg (show ¬ (h.bufferSize = 0 ∨ (Contexts.builtin T).sizeMax < h.bufferSize) from hs)]
  cases inp.size with
  | none => rfl
  | some n =>
    rcases Model.allocBlock T W with ⟨_ | p, W'⟩
    · rfl
    · dsimp only
      cases hi : Model.initIntegrity T h W' with
      | ub => rfl
      | diverge => rfl
      | ok x =>
        obtain ⟨r, h1, W1⟩ := x
        have h1s : h1.bufferSize = h.bufferSize := initIntegrity_bufferSize T hi
        simp only [Res.ok_bind]
        rw [processLoop_builtin T inp aborted n n 0 _ h1 W1 (by omega)]

theorem sumInitialize_builtin (slot : Option Handle) (W : World) : sumInitialize T (.builtin T) slot W = Model.sumInitialize T slot W := by
  simp only [sumInitialize, Model.sumInitialize, allocBlock_builtin]
  cases slot with
  | some h => rfl
  | none =>
    rcases Model.allocBlock T W with ⟨_ | p, W1⟩
    · rfl
    · dsimp only
      rcases Model.allocBlock T W1 with ⟨_ | p, W2⟩
      · rfl
      · dsimp only
        rcases Model.allocBlock T W2 with ⟨_ | p, W3⟩ <;> rfl

theorem freeContext_builtin (k : Kind) (r : Int) (h : Handle) (W : World) : freeContext (.builtin T) k r h W = Model.freeContext T k r h W := by
  simp only [freeContext, Model.freeContext, ctxCall_builtin]
  cases h.context k <;> rfl

theorem freeHashes_builtin : ∀ (ks : List Kind) (r : Int) (h : Handle) (W : World), freeHashes (.builtin T) ks r h W = Model.freeHashes T ks r h W
  | [], _, _, _ => rfl
  | k :: ks, r, h, W => by simp only [freeHashes, Model.freeHashes, freeContext_builtin, freeHashes_builtin ks]

theorem sumFree_builtin (closeOk : Bool) (slot : Option Handle) (W : World) : sumFree (.builtin T) closeOk slot W = Model.sumFree T closeOk slot W := by
  simp only [sumFree, Model.sumFree, freeHashes_builtin]
  rfl

theorem enableDigests_builtin (f : Kind → Bool) : ∀ (ks : List Kind) (h : Handle) (W : World), enableDigests T (.builtin T) f ks h W = Model.enableDigests T f ks h W
  | [], _, _ => rfl
  | k :: ks, h, W => by
    simp only [enableDigests, Model.enableDigests, allocBlock_builtin, enableDigests_builtin f ks]
    rcases Model.allocBlock T W with ⟨_ | p, W'⟩ <;> rfl

theorem setDigestTypes_builtin (mc splitOk splitFreeOk : Bool) (string : List Nat) (h : Handle) (W : World) :
    setDigestTypes T (.builtin T) mc splitOk splitFreeOk string h W = Model.setDigestTypes T mc splitOk splitFreeOk string h W := by
  simp only [setDigestTypes, Model.setDigestTypes, enableDigests_builtin]

end

section

variable (E : Environment)

theorem onError_builtin (out : List Line) (slot : Option Handle) (W : World) : onError E (.builtin E.tool) out slot W = Model.onError E out slot W := by
  simp only [onError, Model.onError, sumFree_builtin]

theorem onAbort_builtin (out : List Line) (h : Handle) (W : World) : onAbort E (.builtin E.tool) out h W = Model.onAbort E out h W := by
  simp only [onAbort, Model.onAbort, sumFree_builtin, onError_builtin]

theorem processAndPrint_builtin (inp : Input) (out : List Line) (h : Handle) (W : World) :
    processAndPrint E (.builtin E.tool) inp out h W = Model.processAndPrint E inp out h W := by
  simp only [processAndPrint, Model.processAndPrint, processInput_builtin, onAbort_builtin, onError_builtin]

theorem openAndProcess_builtin (source : List Nat) (out : List Line) (h : Handle) (W : World) :
    openAndProcess E (.builtin E.tool) source out h W = Model.openAndProcess E source out h W := by
  simp only [openAndProcess, Model.openAndProcess, processAndPrint_builtin, onAbort_builtin, onError_builtin]
  rfl

theorem setBufferSize_eq {M : Type} {C : Contexts M} (h64 : C.bits = 64) (verbose : Bool) (dp : Option Nat) (string : List Nat) (h : Handle) :
    setBufferSize C verbose dp string h = Model.setBufferSize verbose dp string h := by
  unfold setBufferSize Model.setBufferSize Contexts.sizeMax
  rw [h64]
  congr 1
  funext ⟨r, v⟩
  dsimp only
  split
  · rfl
  · split
    · cases v with
      | none => rfl
      | some v => simp only [Nat.mod_eq_of_lt v.isLt]; rfl
    · rfl

theorem applyBufferSize_eq {M : Type} {C : Contexts M} (h64 : C.bits = 64) (o : Options) (h : Handle) : applyBufferSize E C o h = Model.applyBufferSize E o h := by
  unfold applyBufferSize Model.applyBufferSize
  simp only [setBufferSize_eq h64, Contexts.sizeMax, h64]
  rfl

theorem applyDigests_builtin (o : Options) (h : Handle) (W : World) : applyDigests E (.builtin E.tool) o h W = Model.applyDigests E o h W := by
  simp only [applyDigests, Model.applyDigests, setDigestTypes_builtin]
  rfl

theorem runSource_builtin (o : Options) (source : List Nat) (out : List Line) (W : World) : runSource E (.builtin E.tool) o source out W = Model.runSource E o source out W := by
  simp only [runSource, Model.runSource, sumInitialize_builtin, applyBufferSize_eq E (C := .builtin E.tool) rfl, applyDigests_builtin, openAndProcess_builtin, onError_builtin]
  rfl

theorem hmacsum_builtin (args : List (List Nat)) (W : World) : hmacsum E (.builtin E.tool) args W = Model.hmacsum E args W := by
  simp only [hmacsum, Model.hmacsum, runSource_builtin, onError_builtin]
  rfl

end

end Builds

end Model
