import Verif.Model.FileCalls
import Verif.Proofs.Messages
import Verif.Proofs.BuildsMain
import Verif.Proofs.BuildsSignal
/-! The calls that hmacsum makes of libcfile. -/

namespace Model.Builds

open Model
open Spec (Kind Line FileCall ReadsWithin bytesRead ApiCall Reply)

variable {M : Type} {E : Environment} {C : Contexts M}

/-! ### Without the list of calls it is the same program -/

/-- Without the calls. -/
def fErase (r : Res (ExitF × WorldOf M)) : Res (Exit × WorldOf M) := r >>= fun y => pure (y.1.exit, y.2)

theorem fErase_bind {α} (x : Res α) (f : α → Res (ExitF × WorldOf M)) : fErase (x >>= f) = x >>= fun a => fErase (f a) := by cases x <;> rfl

theorem fSumInitialize_erase (T : Tool) (slot : Option Handle) (W : WorldOf M) : (fSumInitialize T C slot W >>= fun y => pure (y.1, y.2.1, y.2.2.1)) = sumInitialize T C slot W := by
  unfold fSumInitialize sumInitialize
  cases slot with
  | some h => rfl
  | none =>
    dsimp only
    rcases allocBlock T C W with ⟨_ | self, W1⟩
    · rfl
    dsimp only
    rcases allocBlock T C W1 with ⟨_ | input, W2⟩
    · dsimp only
      rw [Res.bind_assoc]
      exact Res.bind_same fun _ => rfl
    dsimp only
    rcases allocBlock T C W2 with ⟨_ | str, W3⟩
    · dsimp only
      rw [Res.bind_assoc]
      exact Res.bind_same fun _ => rfl
    · rfl

theorem fReadInput_erase (inp : Input) (size : Nat) (h : Handle) : readInput C inp size h = ((fReadInput C inp size h).1, (fReadInput C inp size h).2.1) := by
  unfold readInput fReadInput
  split
  · rfl
  cases inp.reads h.readCount <;> rfl

theorem fProcessLoop_erase (inp : Input) (aborted : Nat → Bool) (size : Nat) : ∀ (fuel pc : Nat) (buffer : List Byte) (h : Handle) (W : WorldOf M) (calls : List FileCall),
    (fProcessLoop C inp aborted size fuel pc buffer h W calls >>= fun y => pure (y.1, y.2.1, y.2.2.1)) = processLoop C inp aborted size fuel pc buffer h W
  | 0, pc, buffer, h, W, calls => by
    rw [fProcessLoop, processLoop]
    split <;> rfl
  | fuel + 1, pc, buffer, h, W, calls => by
    rw [fProcessLoop, processLoop]
    split
    · dsimp only
      rw [fReadInput_erase]
      rcases fReadInput C inp (if size - pc < h.bufferSize then (size - pc) % 2 ^ C.bits else h.bufferSize) h with ⟨_ | d, h1, c⟩
      · rfl
      dsimp only
      rw [Res.bind_assoc]
      refine Res.bind_same fun b => ?_
      split
      · rfl
      rw [Res.bind_assoc]
      refine Res.bind_same fun a => ?_
      obtain ⟨r, h2, W2⟩ := a
      dsimp only
      split
      · rfl
      split
      · rfl
      · exact fProcessLoop_erase inp aborted size fuel _ _ _ _ _
    · rfl

theorem fProcessInput_erase (T : Tool) (inp : Input) (aborted : Nat → Bool) (h : Handle) (W : WorldOf M) (calls : List FileCall) :
    (fProcessInput T C inp aborted h W calls >>= fun y => pure (y.1, y.2.1, y.2.2.1)) = processInput T C inp aborted h W := by
  unfold fProcessInput processInput
  split
  · rfl
  rcases inp.size with _ | size
  · rfl
  dsimp only
  rcases allocBlock T C W with ⟨_ | p, W⟩
  · rfl
  dsimp only
  rw [Res.bind_assoc]
  refine Res.bind_same fun a => ?_
  obtain ⟨r, h, W⟩ := a
  dsimp only
  split
  · rw [Res.bind_assoc]
    show (processError _ h W >>= fun a => pure a) = processError _ h W
    cases processError _ h W <;> rfl
  rw [Res.bind_assoc, ← fProcessLoop_erase inp aborted _ _ _ _ _ _ (calls ++ [.size _]), Res.bind_assoc]
  refine Res.bind_same fun a => ?_
  obtain ⟨ok, h, W, c⟩ := a
  simp only [Res.pure_eq, Res.ok_bind]
  split
  · rw [Res.bind_assoc]
    show (processError _ h W >>= fun a => pure a) = processError _ h W
    cases processError _ h W <;> rfl
  rw [Res.bind_assoc]
  refine Res.bind_same fun W => ?_
  rw [Res.bind_assoc]
  refine Res.bind_same fun a => ?_
  split <;> rfl

theorem fOnError_erase (out : List Line) (calls : List FileCall) (slot : Option Handle) (W : WorldOf M) : fErase (fOnError E C out calls slot W) = onError E C out slot W := by
  unfold fOnError onError
  rw [fErase_bind]
  rfl

theorem fOnAbort_erase (out : List Line) (calls : List FileCall) (h : Handle) (W : WorldOf M) : fErase (fOnAbort E C out calls h W) = onAbort E C out h W := by
  unfold fOnAbort onAbort
  split
  · exact fOnError_erase ..
  · rw [fErase_bind]
    refine Res.bind_same fun a => ?_
    obtain ⟨r, slot, W⟩ := a
    dsimp only
    split
    · exact fOnError_erase ..
    split <;> rfl

theorem fProcessAndPrint_erase (inp : Input) (out : List Line) (calls : List FileCall) (h : Handle) (W : WorldOf M) : fErase (fProcessAndPrint E C inp out calls h W) = processAndPrint E C inp out h W := by
  unfold fProcessAndPrint processAndPrint
  rw [fErase_bind, ← fProcessInput_erase E.tool inp E.arrival.atRead h W calls, Res.bind_assoc]
  refine Res.bind_same fun a => ?_
  obtain ⟨r, h, W, c⟩ := a
  simp only [Res.pure_eq, Res.ok_bind]
  split
  · exact fOnAbort_erase ..
  split
  · exact fOnError_erase ..
  · rw [fErase_bind]
    exact Res.bind_same fun a => fOnAbort_erase ..

theorem fOpenAndProcess_erase (source : List Nat) (out : List Line) (calls : List FileCall) (h : Handle) (W : WorldOf M) : fErase (fOpenAndProcess E C source out calls h W) = openAndProcess E C source out h W := by
  unfold fOpenAndProcess openAndProcess
  cases E.files source with
  | none =>
    dsimp only
    split
    · exact fOnAbort_erase ..
    · exact fOnError_erase ..
  | some inp =>
    dsimp only
    split
    · exact fOnAbort_erase ..
    · exact fProcessAndPrint_erase ..

theorem fRunSource_erase (o : Options) (source : List Nat) (out : List Line) (W : WorldOf M) : fErase (fRunSource E C o source out W) = runSource E C o source out W := by
  unfold fRunSource runSource
  rw [fErase_bind, ← fSumInitialize_erase, Res.bind_assoc]
  refine Res.bind_same fun a => ?_
  obtain ⟨r, slot, W, c⟩ := a
  simp only [Res.pure_eq, Res.ok_bind]
  split
  · exact fOnError_erase ..
  cases slot with
  | none => rfl
  | some h =>
    dsimp only
    rw [fErase_bind]
    refine Res.bind_same fun b => ?_
    obtain ⟨ok, h⟩ := b
    dsimp only
    split
    · exact fOnError_erase ..
    rw [fErase_bind]
    refine Res.bind_same fun b => ?_
    obtain ⟨ok, h, W⟩ := b
    dsimp only
    split
    · exact fOnError_erase ..
    · exact fOpenAndProcess_erase ..

theorem fHmacsum_erase (args : List (List Nat)) (W : WorldOf M) : fErase (fHmacsum E C args W) = hmacsum E C args W := by
  unfold fHmacsum hmacsum
  split
  · exact fOnError_erase ..
  split
  · exact fOnError_erase ..
  rw [fErase_bind]
  refine Res.bind_same fun p => ?_
  cases p with
  | run o source => exact fRunSource_erase ..
  | help => rfl
  | version => rfl
  | invalid => exact fOnError_erase ..
  | missing => exact fOnError_erase ..

/-! ### What does not touch the size of the buffer and the abort flag -/

/-- The buffer size and the abort flag. -/
def kept (h : Handle) : Nat × Bool := (h.bufferSize, h.abort)

theorem ctxCall_kept {k : Kind} {c : ApiCall} {n : Nat} {h h' : Handle} {W W' : WorldOf M} {r : Reply} (e : ctxCall C k c n h W = .ok (r, h', W')) : kept h' = kept h := by
  obtain ⟨⟨r1, s1, m1⟩, -, e⟩ := Res.bind_eq_ok e
  cases e
  rfl

theorem initHashes_kept : ∀ (ks : List Kind) {h h' : Handle} {W W' : WorldOf M} {r : Bool}, initHashes C ks h W = .ok (r, h', W') → kept h' = kept h
  | [], h, h', W, W', r, e => by cases e; rfl
  | k :: ks, h, h', W, W', r, e => by
    rw [initHashes] at e
    split at e
    · obtain ⟨⟨r1, h1, W1⟩, e1, e⟩ := Res.bind_eq_ok e
      dsimp only at e
      split at e
      · cases e
        exact ctxCall_kept e1
      · exact (initHashes_kept ks e).trans (ctxCall_kept e1)
    · exact initHashes_kept ks e

theorem freeHash_kept {k : Kind} {h h' : Handle} {W W' : WorldOf M} (e : freeHash C k h W = .ok (h', W')) : kept h' = kept h := by
  unfold freeHash at e
  split at e
  · cases e
    rfl
  · obtain ⟨⟨r1, h1, W1⟩, e1, e⟩ := Res.bind_eq_ok e
    cases e
    exact ctxCall_kept e1

theorem initIntegrity_kept {h h' : Handle} {W W' : WorldOf M} {r : Int} (e : initIntegrity C h W = .ok (r, h', W')) : kept h' = kept h := by
  obtain ⟨⟨r1, h1, W1⟩, e1, e⟩ := Res.bind_eq_ok e
  dsimp only at e
  split at e
  · cases e
    exact initHashes_kept _ e1
  · obtain ⟨⟨h2, W2⟩, e2, e⟩ := Res.bind_eq_ok e
    obtain ⟨⟨h3, W3⟩, e3, e⟩ := Res.bind_eq_ok e
    cases e
    exact (freeHash_kept e3).trans ((freeHash_kept e2).trans (initHashes_kept _ e1))

theorem updateHashes_kept (buffer : List Byte) (size : Nat) : ∀ (ks : List Kind) {h h' : Handle} {W W' : WorldOf M} {r : Int}, updateHashes C buffer size ks h W = .ok (r, h', W') → kept h' = kept h
  | [], h, h', W, W', r, e => by cases e; rfl
  | k :: ks, h, h', W, W', r, e => by
    rw [updateHashes] at e
    split at e
    · obtain ⟨⟨r1, h1, W1⟩, e1, e⟩ := Res.bind_eq_ok e
      dsimp only at e
      split at e
      · cases e
        exact ctxCall_kept e1
      · exact (updateHashes_kept buffer size ks e).trans (ctxCall_kept e1)
    · exact updateHashes_kept buffer size ks e

theorem updateIntegrity_kept {buffer : List Byte} {size : Nat} {h h' : Handle} {W W' : WorldOf M} {r : Int} (e : updateIntegrity C buffer size h W = .ok (r, h', W')) : kept h' = kept h := by
  unfold updateIntegrity at e
  split at e
  · cases e
    rfl
  · exact updateHashes_kept _ _ _ e

/-! ### The calls -/

/-- Reads as calls. -/
def readCalls (rs : List (Nat × Option Nat)) : List FileCall := rs.map fun r => .read r.1 r.2

theorem hostMax_lt (hb : Nat) : hostMax hb < 2 ^ hb := by
  have : 2 ^ (hb - 1) ≤ 2 ^ hb := Nat.pow_le_pow_right (by decide) (by omega)
  have : 0 < 2 ^ hb := Nat.two_pow_pos hb
  unfold hostMax
  omega

/-- A read asks for what it is told to, and gets no more. -/
theorem fReadInput_calls {inp : Input} {size : Nat} {h h' : Handle} {d : Option (List Byte)} {c : List FileCall} (hs : size ≤ C.sizeMax) (e : fReadInput C inp size h = (d, h', c)) :
    c = readCalls [(size, d.map List.length)] ∧ (∀ x, d = some x → x.length ≤ size) ∧ kept h' = kept h := by
  unfold fReadInput at e
  rw [if_neg (by omega)] at e
  cases hr : inp.reads h.readCount with
  | none =>
    rw [hr] at e
    cases e
    exact ⟨rfl, by simp, rfl⟩
  | some n =>
    rw [hr] at e
    cases e
    refine ⟨rfl, fun x hx => ?_, rfl⟩
    cases hx
    rw [List.length_take]
    omega

theorem fProcessLoop_calls (inp : Input) (aborted : Nat → Bool) (size : Nat) : ∀ (fuel pc : Nat) (buffer : List Byte) (h : Handle) (W : WorldOf M) (calls : List FileCall) (ok : Bool) (h' : Handle) (W' : WorldOf M) (calls' : List FileCall),
    0 < h.bufferSize → h.bufferSize ≤ C.sizeMax → h.abort = false → fProcessLoop C inp aborted size fuel pc buffer h W calls = .ok (ok, h', W', calls') →
    ∃ rs, calls' = calls ++ readCalls rs ∧ ReadsWithin (size - pc) rs ∧ (∀ r ∈ rs, r.1 ≤ h.bufferSize) ∧ (ok = true → bytesRead rs = size - pc ∨ aborted h'.readCount = true)
  | 0, pc, buffer, h, W, calls, ok, h', W', calls', h0, hs, ha, e => by
    rw [fProcessLoop] at e
    split at e
    · cases e
    · cases e
      exact ⟨[], by simp [readCalls], trivial, by simp, fun _ => .inl (by simp [bytesRead]; omega)⟩
  | fuel + 1, pc, buffer, h, W, calls, ok, h', W', calls', h0, hs, ha, e => by
    rw [fProcessLoop] at e
    split at e
    · rename_i hlt
      have hmax := hostMax_lt C.bits
      have hask : (if size - pc < h.bufferSize then (size - pc) % 2 ^ C.bits else h.bufferSize) = min (size - pc) h.bufferSize := by
        unfold Contexts.sizeMax at hs
        split
        · rw [Nat.mod_eq_of_lt (by omega)]
          omega
        · omega
      rw [hask] at e
      rcases hr : fReadInput C inp (min (size - pc) h.bufferSize) h with ⟨_ | d, h1, c⟩
      · obtain ⟨hc, -, -⟩ := fReadInput_calls (by omega) hr
        simp only [hr] at e
        cases e
        refine ⟨[(min (size - pc) h.bufferSize, none)], by rw [hc]; rfl, ⟨by omega, by omega, rfl⟩, ?_, by simp⟩
        intro x hx
        rw [List.mem_singleton.mp hx]
        dsimp only
        omega
      · obtain ⟨hc, hd, hk⟩ := fReadInput_calls (by omega) hr
        have hd := hd d rfl
        simp only [hr] at e
        have one : ∀ w, calls ++ c = w → ∃ rs, w = calls ++ readCalls rs ∧ ReadsWithin (size - pc) rs ∧ (∀ r ∈ rs, r.1 ≤ h.bufferSize) := by
          rintro w rfl
          refine ⟨[(min (size - pc) h.bufferSize, some d.length)], by rw [hc]; rfl, ⟨by omega, by omega, hd, fun _ => rfl, trivial⟩, ?_⟩
          intro x hx
          rw [List.mem_singleton.mp hx]
          dsimp only
          omega
        obtain ⟨b, -, e⟩ := Res.bind_eq_ok e
        split at e
        · cases e
          obtain ⟨rs, q1, q2, q3⟩ := one _ rfl
          exact ⟨rs, q1, q2, q3, by simp⟩
        rename_i hnz
        obtain ⟨⟨r, h2, W2⟩, e2, e⟩ := Res.bind_eq_ok e
        have hk2 := updateIntegrity_kept e2
        dsimp only at e
        split at e
        · cases e
          obtain ⟨rs, q1, q2, q3⟩ := one _ rfl
          exact ⟨rs, q1, q2, q3, by simp⟩
        have hk3 : kept h2 = kept h := hk2.trans hk
        simp only [kept, Prod.mk.injEq] at hk3
        obtain ⟨k1, k2⟩ := hk3
        split at e
        · rename_i hab
          cases e
          obtain ⟨rs, q1, q2, q3⟩ := one _ rfl
          rw [k2, ha, Bool.false_or] at hab
          exact ⟨rs, q1, q2, q3, fun _ => .inr hab⟩
        · rename_i hab
          obtain ⟨rs, q1, q2, q3, q4⟩ := fProcessLoop_calls inp aborted size fuel (pc + d.length) b _ W2 (calls ++ c) ok h' W' calls' (by dsimp only; omega) (by dsimp only; omega) (by simpa using hab) e
          refine ⟨(min (size - pc) h.bufferSize, some d.length) :: rs, ?_, ⟨by omega, by omega, hd, fun h => absurd h hnz, ?_⟩, ?_, fun hok => ?_⟩
          · rw [q1, hc, List.append_assoc]
            rfl
          · rw [Nat.sub_sub]
            exact q2
          · intro x hx
            rcases List.mem_cons.mp hx with rfl | hx
            · dsimp only
              omega
            · have := q3 x hx
              dsimp only at this
              omega
          · rcases q4 hok with q | q
            · left
              simp only [bytesRead, List.map_cons, List.sum_cons, Option.getD_some] at q ⊢
              omega
            · exact .inr q
    · cases e
      exact ⟨[], by simp [readCalls], trivial, by simp, fun _ => .inl (by simp [bytesRead]; omega)⟩

/-- What `sum_handle_process_input` calls: nothing, or it asks for the size and then reads. -/
structure Processed (inp : Input) (aborted : Nat → Bool) (bufferSize : Nat) (ok : Bool) (t : List FileCall) : Prop where
  shape : t = [] ∨ t = [.size none] ∧ inp.size = none ∨
    ∃ n rs, inp.size = some n ∧ t = .size (some n) :: readCalls rs ∧ ReadsWithin n rs ∧ (∀ r ∈ rs, r.1 ≤ bufferSize)
  whole : ok = true → ∃ n rs, inp.size = some n ∧ t = .size (some n) :: readCalls rs ∧ ReadsWithin n rs ∧ (bytesRead rs = n ∨ ∃ n, aborted n = true)

theorem processError_fails {p : Nat} {h h' : Handle} {W W' : WorldOf M} {r : Int} (e : processError p h W = .ok (r, h', W')) : r ≠ 1 := by
  unfold processError at e
  obtain ⟨W1, -, e⟩ := Res.bind_eq_ok e
  cases e
  decide

/-- The last test of the abort flag is that after the last read. -/
theorem fProcessInput_tested {T : Tool} {inp : Input} {aborted : Nat → Bool} {h h' : Handle} {W W' : WorldOf M} {calls calls' : List FileCall} {r : Int} (ha : h.abort = false)
    (e : fProcessInput T C inp aborted h W calls = .ok (r, h', W', calls')) : ∃ t, calls' = calls ++ t ∧ Processed inp (fun _ => aborted h'.readCount) h.bufferSize (r = 1) t := by
  unfold fProcessInput at e
  split at e
  · cases e
    exact ⟨[], by simp, .inl rfl, by simp⟩
  rename_i hb
  cases hsz : inp.size with
  | none =>
    rw [hsz] at e
    cases e
    exact ⟨_, rfl, .inr (.inl ⟨rfl, hsz⟩), by simp⟩
  | some n =>
    rw [hsz] at e
    dsimp only at e
    have none : ∀ w, calls ++ [.size (some n)] = w → ∃ t, w = calls ++ t ∧ (t = [] ∨ t = [.size none] ∧ inp.size = none ∨ ∃ n rs, inp.size = some n ∧ t = .size (some n) :: readCalls rs ∧ ReadsWithin n rs ∧ (∀ r ∈ rs, r.1 ≤ h.bufferSize)) := by
      rintro w rfl
      exact ⟨_, rfl, .inr (.inr ⟨n, [], hsz, rfl, trivial, by simp⟩)⟩
    rcases hal : allocBlock T C W with ⟨_ | p, W1⟩
    · rw [hal] at e
      cases e
      obtain ⟨t, q1, q2⟩ := none _ rfl
      exact ⟨t, q1, q2, by simp⟩
    rw [hal] at e
    dsimp only at e
    obtain ⟨⟨r1, h1, W2⟩, e1, e⟩ := Res.bind_eq_ok e
    have hk := initIntegrity_kept e1
    simp only [kept, Prod.mk.injEq] at hk
    dsimp only at e
    split at e
    · obtain ⟨⟨r2, h2, W3⟩, e2, e⟩ := Res.bind_eq_ok e
      cases e
      obtain ⟨t, q1, q2⟩ := none _ rfl
      exact ⟨t, q1, q2, by simp [processError_fails e2]⟩
    obtain ⟨⟨ok, h2, W3, c⟩, e2, e⟩ := Res.bind_eq_ok e
    obtain ⟨rs, q1, q2, q3, q4⟩ := fProcessLoop_calls inp aborted n n 0 _ h1 W2 _ ok h2 W3 c (by omega) (by omega) (by rw [hk.2]; exact ha) e2
    rw [List.append_assoc] at q1
    rw [Nat.sub_zero] at q2 q4
    rw [hk.1] at q3
    have shape : calls' = c ∧ (r = 1 → ok = true ∧ h'.readCount = h2.readCount) := by
      dsimp only at e
      split at e
      · obtain ⟨⟨r3, h3, W4⟩, e3, e⟩ := Res.bind_eq_ok e
        cases e
        exact ⟨rfl, fun h => absurd h (processError_fails e3)⟩
      · rename_i hok
        obtain ⟨W4, -, e⟩ := Res.bind_eq_ok e
        obtain ⟨⟨r3, h3, W5⟩, e3, e⟩ := Res.bind_eq_ok e
        have hrc := finalizeHashes_readCount e3
        dsimp only at e
        split at e <;> cases e <;> exact ⟨rfl, fun _ => ⟨by simpa using hok, hrc⟩⟩
    obtain ⟨rfl, hok⟩ := shape
    refine ⟨_, q1, .inr (.inr ⟨n, rs, hsz, rfl, q2, q3⟩), fun h => ⟨n, rs, hsz, rfl, q2, ?_⟩⟩
    obtain ⟨k1, k2⟩ := hok (by simpa using h)
    rw [k2]
    exact (q4 k1).imp id fun q => ⟨0, q⟩

theorem fProcessInput_calls {T : Tool} {inp : Input} {aborted : Nat → Bool} {h h' : Handle} {W W' : WorldOf M} {calls calls' : List FileCall} {r : Int} (ha : h.abort = false)
    (e : fProcessInput T C inp aborted h W calls = .ok (r, h', W', calls')) : ∃ t, calls' = calls ++ t ∧ Processed inp aborted h.bufferSize (r = 1) t := by
  obtain ⟨t, h1, h2⟩ := fProcessInput_tested ha e
  refine ⟨t, h1, h2.shape, fun h => ?_⟩
  obtain ⟨n, rs, a, b, c, d⟩ := h2.whole h
  exact ⟨n, rs, a, b, c, d.imp id fun ⟨_, q⟩ => ⟨_, q⟩⟩

theorem fOnError_calls {out : List Line} {calls : List FileCall} {slot : Option Handle} {W W' : WorldOf M} {x : ExitF} (e : fOnError E C out calls slot W = .ok (x, W')) :
    x.exit.status = false ∧ x.calls = calls ++ freeCalls E.freeOk slot := by
  unfold fOnError at e
  obtain ⟨a, -, e⟩ := Res.bind_eq_ok e
  cases e
  exact ⟨rfl, rfl⟩

theorem sumFree_end {ok : Bool} {h : Handle} {W W' : WorldOf M} {r : Int} {slot : Option Handle} (e : sumFree C ok (some h) W = .ok (r, slot, W')) : slot = none ∧ (r = 1 → ok = true) := by
  unfold sumFree at e
  obtain ⟨⟨r1, h1, W1⟩, -, e⟩ := Res.bind_eq_ok e
  obtain ⟨W2, -, e⟩ := Res.bind_eq_ok e
  obtain ⟨W3, -, e⟩ := Res.bind_eq_ok e
  cases e
  refine ⟨rfl, fun h => ?_⟩
  cases ok
  · simp at h
  · rfl

theorem fOnAbort_calls {out : List Line} {calls : List FileCall} {h : Handle} {W W' : WorldOf M} {x : ExitF} (e : fOnAbort E C out calls h W = .ok (x, W')) :
    x.calls = calls ++ [.close E.closeOk, .free E.freeOk] ∧ (x.exit.status = true → E.closeOk = true ∧ E.freeOk = true ∧ E.arrival.atFinal = false) := by
  unfold fOnAbort at e
  split at e
  · obtain ⟨h1, h2⟩ := fOnError_calls e
    rw [h1, h2]
    exact ⟨by simp [freeCalls], by simp⟩
  rename_i hc
  have hc : E.closeOk = true := by
    revert hc
    cases E.closeOk <;> decide
  obtain ⟨⟨r, slot, W1⟩, e1, e⟩ := Res.bind_eq_ok e
  obtain ⟨hs, hr⟩ := sumFree_end e1
  dsimp only at e
  split at e
  · obtain ⟨h1, h2⟩ := fOnError_calls e
    rw [h1, h2, hs]
    exact ⟨by simp [freeCalls], by simp⟩
  rename_i hr1
  have hf := hr (by simpa using hr1)
  split at e
  · cases e
    exact ⟨by simp [freeCalls], by simp⟩
  · rename_i hfin
    cases e
    exact ⟨by simp [freeCalls], fun _ => ⟨hc, hf, by simpa using hfin⟩⟩

/-- The calls of a run of hmacsum on `source`. -/
inductive FileTrace (E : Environment) (source : List Nat) (x : ExitF) : Prop
  /-- the handle could not be created -/
  | start (hx : x.exit.status = false) (h : x.calls = [] ∨ x.calls = [.create false] ∨ x.calls = [.create true])
  /-- the options are refused -/
  | options (hx : x.exit.status = false) (h : x.calls = [.create true, .free E.freeOk])
  /-- the source cannot be opened -/
  | noFile (hf : E.files source = none) (hx : x.exit.status = false)
      (h : x.calls = [.create true, .open source false, .free E.freeOk] ∨ E.arrival.atOpen = true ∧ x.calls = [.create true, .open source false, .close E.closeOk, .free E.freeOk])
  /-- the source is opened -/
  | file (inp : Input) (size : Nat) (t : List FileCall) (hf : E.files source = some inp) (hp : Processed inp E.arrival.atRead size x.exit.status t)
      (h : x.exit.status = false ∧ x.calls = .create true :: .open source true :: t ++ [.free E.freeOk] ∨
        x.calls = .create true :: .open source true :: t ++ [.close E.closeOk, .free E.freeOk] ∧ (x.exit.status = true → E.closeOk = true ∧ E.freeOk = true ∧ E.arrival.atFinal = false))

theorem Processed.weaken {inp : Input} {aborted : Nat → Bool} {size : Nat} {ok ok' : Bool} {t : List FileCall} (h : Processed inp aborted size ok t) (hw : ok' = true → ok = true) : Processed inp aborted size ok' t :=
  ⟨h.shape, fun q => h.whole (hw q)⟩

theorem fSumInitialize_calls {T : Tool} {W W' : WorldOf M} {r : Int} {slot : Option Handle} {calls : List FileCall} (e : fSumInitialize T C none W = .ok (r, slot, W', calls)) :
    (slot = none ∧ r = -1 ∧ (calls = [] ∨ calls = [.create false] ∨ calls = [.create true])) ∨ ∃ h, slot = some h ∧ h.abort = false ∧ calls = [.create true] ∧ r = 1 := by
  unfold fSumInitialize at e
  dsimp only at e
  rcases h1 : allocBlock T C W with ⟨_ | self, W1⟩
  · simp only [h1] at e
    cases e
    exact .inl ⟨rfl, rfl, .inl rfl⟩
  simp only [h1] at e
  rcases h2 : allocBlock T C W1 with ⟨_ | input, W2⟩
  · simp only [h2] at e
    obtain ⟨a, -, e⟩ := Res.bind_eq_ok e
    cases e
    exact .inl ⟨rfl, rfl, .inr (.inl rfl)⟩
  simp only [h2] at e
  rcases h3 : allocBlock T C W2 with ⟨_ | str, W3⟩
  · simp only [h3] at e
    obtain ⟨a, -, e⟩ := Res.bind_eq_ok e
    cases e
    exact .inl ⟨rfl, rfl, .inr (.inr rfl)⟩
  · simp only [h3] at e
    cases e
    exact .inr ⟨_, rfl, rfl, rfl, rfl⟩

theorem applyBufferSize_abort {o : Options} {h h' : Handle} {ok : Bool} (e : applyBufferSize E C o h = .ok (ok, h')) : h'.abort = h.abort := by
  unfold applyBufferSize at e
  cases hs : o.bufferSize with
  | none =>
    rw [hs] at e
    cases e
    rfl
  | some s =>
    rw [hs] at e
    dsimp only at e
    obtain ⟨⟨r, h1⟩, e1, e⟩ := Res.bind_eq_ok e
    have k : h1.abort = h.abort := by
      unfold setBufferSize at e1
      obtain ⟨⟨c, v⟩, -, e1⟩ := Res.bind_eq_ok e1
      dsimp only at e1
      split at e1
      · cases e1; rfl
      split at e1
      · cases v with
        | none => cases e1
        | some v =>
          dsimp only at e1
          split at e1 <;> cases e1 <;> rfl
      · cases e1; rfl
    dsimp only at e
    split at e
    · cases e; exact k
    split at e <;> cases e <;> exact k

theorem enableDigests_abort (T : Tool) (f : Kind → Bool) : ∀ (ks : List Kind) (h : Handle) (W : WorldOf M), (enableDigests T C f ks h W).2.1.abort = h.abort
  | [], h, W => rfl
  | k :: ks, h, W => by
    rw [enableDigests]
    split
    · rcases hal : allocBlock T C W with ⟨_ | p, W1⟩
      · rfl
      · dsimp only
        rw [enableDigests_abort T f ks]
    · exact enableDigests_abort T f ks h W

theorem applyDigests_abort {o : Options} {h h' : Handle} {W W' : WorldOf M} {ok : Bool} (e : applyDigests E C o h W = .ok (ok, h', W')) : h'.abort = h.abort := by
  unfold applyDigests at e
  cases hs : o.digests with
  | none =>
    rw [hs] at e
    cases e
    rfl
  | some s =>
    rw [hs] at e
    dsimp only at e
    obtain ⟨⟨r, h1, W1⟩, e1, e⟩ := Res.bind_eq_ok e
    cases e
    unfold setDigestTypes at e1
    split at e1
    · cases e1; rfl
    · obtain ⟨f, -, e1⟩ := Res.bind_eq_ok e1
      have k := enableDigests_abort (C := C) E.tool f digestOrder h W
      generalize enableDigests E.tool C f digestOrder h W = y at *
      obtain ⟨a, b, c⟩ := y
      cases e1
      exact k

theorem fRunSource_calls {o : Options} {source : List Nat} {out : List Line} {W W' : WorldOf M} {x : ExitF} (e : fRunSource E C o source out W = .ok (x, W')) : FileTrace E source x := by
  unfold fRunSource at e
  obtain ⟨⟨r, slot, W1, calls⟩, e1, e⟩ := Res.bind_eq_ok e
  dsimp only at e
  rcases fSumInitialize_calls e1 with ⟨rfl, rfl, hc⟩ | ⟨h, rfl, ha, rfl, rfl⟩
  · rw [if_pos (by decide)] at e
    obtain ⟨h1, h2⟩ := fOnError_calls e
    exact .start h1 (by rw [h2]; simpa [freeCalls] using hc)
  rw [if_neg (by decide)] at e
  obtain ⟨⟨ok, h1⟩, e2, e⟩ := Res.bind_eq_ok e
  have k1 := applyBufferSize_abort e2
  dsimp only at e
  split at e
  · obtain ⟨q1, q2⟩ := fOnError_calls e
    exact .options q1 (by rw [q2]; rfl)
  obtain ⟨⟨ok, h2, W2⟩, e3, e⟩ := Res.bind_eq_ok e
  have k2 := applyDigests_abort e3
  dsimp only at e
  split at e
  · obtain ⟨q1, q2⟩ := fOnError_calls e
    exact .options q1 (by rw [q2]; rfl)
  unfold fOpenAndProcess at e
  cases hf : E.files source with
  | none =>
    rw [hf] at e
    dsimp only at e
    split at e
    · rename_i hat
      obtain ⟨q1, q2⟩ := fOnAbort_calls e
      have hx : x.exit.status = false := by
        cases hx : x.exit.status
        · rfl
        · have := (q2 hx).2.2
          revert this hat
          cases E.arrival <;> simp [Arrival.atOpen, Arrival.atFinal]
      exact .noFile hf hx (.inr ⟨hat, q1⟩)
    · obtain ⟨q1, q2⟩ := fOnError_calls e
      exact .noFile hf q1 (.inl q2)
  | some inp =>
    rw [hf] at e
    dsimp only at e
    have h0 : (openInput true h2).2.abort = false := by
      show h2.abort = false
      rw [k2, k1, ha]
    split at e
    · rename_i hat
      obtain ⟨q1, q2⟩ := fOnAbort_calls e
      have hx : x.exit.status = false := by
        cases hx : x.exit.status
        · rfl
        · have := (q2 hx).2.2
          revert this hat
          cases E.arrival <;> simp [Arrival.atOpen, Arrival.atFinal]
      exact .file inp 0 [] hf ⟨.inl rfl, by simp [hx]⟩ (.inr ⟨q1, q2⟩)
    · unfold fProcessAndPrint at e
      obtain ⟨⟨r, h3, W3, c⟩, e4, e⟩ := Res.bind_eq_ok e
      obtain ⟨t, rfl, hp⟩ := fProcessInput_calls h0 e4
      dsimp only at e
      split at e
      · rename_i hat
        obtain ⟨q1, q2⟩ := fOnAbort_calls e
        have hx : x.exit.status = false := by
          cases hx : x.exit.status
          · rfl
          · have := (q2 hx).2.2
            revert this hat
            cases E.arrival <;> simp [Arrival.atProcessed, Arrival.atFinal]
        exact .file inp _ t hf (hp.weaken (by simp [hx])) (.inr ⟨q1, q2⟩)
      split at e
      · obtain ⟨q1, q2⟩ := fOnError_calls e
        exact .file inp _ t hf (hp.weaken (by simp [q1])) (.inl ⟨q1, q2⟩)
      · rename_i hr
        obtain ⟨ds, -, e⟩ := Res.bind_eq_ok e
        obtain ⟨q1, q2⟩ := fOnAbort_calls e
        exact .file inp _ t hf (hp.weaken (fun _ => by simpa using hr)) (.inr ⟨q1, q2⟩)

end Model.Builds
