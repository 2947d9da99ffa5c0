import Verif.Proofs.BuildsSignalPrompt
/-! The main program with signals, over any implementation of the contexts: with the built-in functions, and the number of reads. -/

namespace Model.Builds

open Spec (Kind Line Message)

/-! ### With the built-in functions it is the program of Model/Signal -/

/-- The same state of the process. -/
def Proc.base (p : Proc Mem) : Model.Proc := ⟨p.attached, p.abort, p.stdin, p.error, p.var, p.out, p.err, p.world, p.handled, p.reads⟩

/-- The same end of the process. -/
def Fate.base : Fate Mem → Model.Fate
  | .exited x p => .exited x p.base
  | .killed p => .killed p.base

/-- An outcome with the states replaced. -/
def toBase (r : Res (Fate Mem)) : Res Model.Fate := r >>= fun f => pure f.base

theorem toBase_bind {α : Type} (x : Res α) (f : α → Res (Fate Mem)) : toBase (x >>= f) = x >>= fun a => toBase (f a) := by cases x <;> rfl

theorem deliver_builtin (resets : Bool) : ∀ (n : Nat) (p : Proc Mem), (deliver resets n p >>= fun y => pure (y.1, y.2.base)) = Model.deliver resets n p.base
  | 0, p => rfl
  | n + 1, p => by
    unfold deliver Model.deliver
    by_cases ha : p.attached = true
    · rw [if_neg (by simp [ha]), if_neg (by simp [Proc.base, ha])]
      unfold signalHandler Model.signalHandler
      rcases hv : p.var with _ | h | _
      · simp only [Proc.base, hv, Res.ok_bind]
        exact deliver_builtin resets n _
      · simp only [Proc.base, hv, Res.ok_bind]
        exact deliver_builtin resets n _
      · simp only [Proc.base, hv]
        rfl
    · rw [if_pos (by simpa using ha), if_pos (by simpa [Proc.base] using ha)]
      rfl

theorem pass_builtin {S : Signals} {pt : Point} {p : Proc Mem} {k : Proc Mem → Res (Fate Mem)} {k' : Model.Proc → Res Model.Fate} (hk : ∀ q, toBase (k q) = k' q.base) :
    toBase (pass S pt p k) = Model.pass S pt p.base k' := by
  unfold pass Model.pass
  rw [← deliver_builtin, toBase_bind]
  rw [Res.bind_assoc]
  refine Res.bind_same fun a => ?_
  rcases a with ⟨dead, q⟩
  simp only [Res.pure_eq, Res.ok_bind]
  cases dead
  · exact hk q
  · rfl

theorem passReads_builtin {S : Signals} {k : Proc Mem → Res (Fate Mem)} {k' : Model.Proc → Res Model.Fate} (hk : ∀ q, toBase (k q) = k' q.base) : ∀ (n i : Nat) (p : Proc Mem),
    toBase (passReads S i n p k) = Model.passReads S i n p.base k'
  | 0, _, p => hk p
  | n + 1, i, _ => pass_builtin fun q => passReads_builtin hk n (i + 1) q

theorem passLines_builtin {S : Signals} {k : Proc Mem → Res (Fate Mem)} {k' : Model.Proc → Res Model.Fate} (hk : ∀ q, toBase (k q) = k' q.base) : ∀ (ls : List Line) (i : Nat) (p : Proc Mem),
    toBase (passLines S i ls p k) = Model.passLines S i ls p.base k'
  | [], _, _ => pass_builtin hk
  | l :: ls, i, _ => pass_builtin fun q => passLines_builtin hk ls (i + 1) { q with out := q.out ++ [l] }

variable {E : Environment} {Y : SystemCalls} {S : Signals}

theorem leave_builtin (b : Bool) (p : Proc Mem) : toBase (leave b p) = Model.leave b p.base := rfl

theorem sOnError_builtin (p : Proc Mem) : toBase (sOnError E (.builtin E.tool) S p) = Model.sOnError E S p.base := by
  refine pass_builtin (p := { p with error := false }) fun q => ?_
  rcases hv : q.var with _ | h | _
  · rw [show q.base.var = .null from hv]
    exact pass_builtin (leave_builtin false)
  · simp only [Proc.base, hv, toBase_bind, sumFree_builtin]
    refine Res.bind_same fun a => ?_
    exact pass_builtin fun q => pass_builtin (p := { q with var := .null }) (leave_builtin false)
  · simp only [Proc.base, hv]
    rfl

theorem sOnAbort_builtin (p : Proc Mem) : toBase (sOnAbort E (.builtin E.tool) Y S p) = Model.sOnAbort E Y S p.base := by
  unfold sOnAbort Model.sOnAbort
  split
  · exact sOnError_builtin { p with err := p.err ++ [.closeHandle], error := true }
  refine pass_builtin fun q => ?_
  have hd : (if signalDetach Y.detach ≠ 1 then { q.base with err := q.base.err ++ [.detach], error := false } else { q.base with attached := false } : Model.Proc) =
      (if signalDetach Y.detach ≠ 1 then { q with err := q.err ++ [.detach], error := false } else { q with attached := false } : Proc Mem).base := by split <;> rfl
  rw [hd]
  refine pass_builtin fun q => ?_
  rcases hv : q.var with _ | h | _
  · simp only [Proc.base, hv]
    rfl
  · simp only [Proc.base, hv, toBase_bind, sumFree_builtin]
    refine Res.bind_same fun a => ?_
    refine pass_builtin (p := { q with var := .freed, world := a.2.2 }) fun q => ?_
    split
    · exact sOnError_builtin { q with var := .null, err := q.err ++ [.freeHandle], error := true }
    · refine pass_builtin (p := { q with var := .null }) fun q => ?_
      show _ = if q.abort = true then _ else _
      split
      · exact pass_builtin (p := { q with out := q.out ++ [.aborted] }) (leave_builtin false)
      · exact pass_builtin (leave_builtin true)
  · simp only [Proc.base, hv]
    rfl

theorem sProcessAndPrint_builtin (inp : Input) (p : Proc Mem) : toBase (sProcessAndPrint E (.builtin E.tool) Y S inp p) = Model.sProcessAndPrint E Y S inp p.base := by
  unfold sProcessAndPrint Model.sProcessAndPrint
  rcases hv : p.var with _ | h | _
  · simp only [Proc.base, hv]
    rfl
  · simp only [Proc.base, hv, toBase_bind, processInput_builtin]
    refine Res.bind_same fun a => ?_
    refine passReads_builtin (fun q => ?_) _ _ { p with var := .live a.2.1, world := a.2.2, error := a.1 ≠ 1, reads := a.2.1.readCount }
    refine pass_builtin fun q => ?_
    show _ = if q.abort = true then _ else _
    split
    · exact sOnAbort_builtin q
    split
    · exact sOnError_builtin { q with err := q.err ++ [.processInput] }
    rcases hv : q.var with _ | h | _
    · simp only [Proc.base, hv]
      rfl
    · simp only [Proc.base, hv, toBase_bind]
      refine Res.bind_same fun ds => ?_
      have := passLines_builtin (S := S) (k := sOnAbort E (.builtin E.tool) Y S) (k' := Model.sOnAbort E Y S) sOnAbort_builtin (ds.map fun d => .digest d.1 d.2) 0 q
      rw [this]
      simp only [Proc.base, hv]
    · simp only [Proc.base, hv]
      rfl
  · simp only [Proc.base, hv]
    rfl

theorem sOpenAndProcess_builtin (source : List Nat) (p : Proc Mem) : toBase (sOpenAndProcess E (.builtin E.tool) Y S source p) = Model.sOpenAndProcess E Y S source p.base := by
  unfold sOpenAndProcess Model.sOpenAndProcess
  rcases hv : p.var with _ | h | _
  · simp only [Proc.base, hv]
    rfl
  · simp only [Proc.base, hv]
    refine pass_builtin (p := { p with var := .live (openInput (E.files source).isSome h).2, error := (openInput (E.files source).isSome h).1 ≠ 1 }) fun q => ?_
    show _ = if q.abort = true then _ else _
    split
    · exact sOnAbort_builtin q
    cases E.files source with
    | none => exact sOnError_builtin { q with err := q.err ++ [.openInput] }
    | some inp => exact sProcessAndPrint_builtin inp q
  · simp only [Proc.base, hv]
    rfl

theorem sRunSource_builtin (o : Options) (source : List Nat) (p : Proc Mem) : toBase (sRunSource E (.builtin E.tool) Y S o source p) = Model.sRunSource E Y S o source p.base := by
  refine pass_builtin fun q => ?_
  simp only [toBase_bind, sumInitialize_builtin]
  refine Res.bind_same fun a => ?_
  rcases a with ⟨r, slot, W⟩
  dsimp only
  split
  · exact sOnError_builtin { q with world := W, var := Var.ofSlot slot, err := q.err ++ [.createHandle], error := true }
  cases slot with
  | none => rfl
  | some h =>
    simp only [toBase_bind, mApplyBufferSize_builtin]
    refine Res.bind_same fun a => ?_
    rcases a with ⟨ok, h, err⟩
    dsimp only
    split
    · exact sOnError_builtin { q with world := W, var := .live h, err := err, error := true }
    simp only [toBase_bind, mApplyDigests_builtin]
    refine Res.bind_same fun a => ?_
    rcases a with ⟨ok, h, W, err⟩
    dsimp only
    split
    · exact sOnError_builtin { q with world := W, var := .live h, err := err, error := true }
    refine pass_builtin (p := { q with world := W, var := .live h, err := err }) fun q => ?_
    rw [sOpenAndProcess_builtin]
    congr 1
    split <;> rfl

theorem sHmacsum_builtin (args : List (List Nat)) (W : World) : toBase (sHmacsum E (.builtin E.tool) Y S args W) = Model.sHmacsum E Y S args W := by
  refine pass_builtin (p := { attached := false, abort := false, stdin := true, error := false, var := .null, out := [], err := [], world := W, handled := 0, reads := 0 }) fun q => ?_
  split
  · exact sOnError_builtin { q with err := [.locale], error := true }
  split
  · exact sOnError_builtin { q with err := [.output], error := true }
  refine pass_builtin (p := { q with out := [.version] }) fun q => ?_
  rw [toBase_bind]
  refine Res.bind_same fun a => ?_
  rcases a with ⟨r, arg⟩
  cases r with
  | invalid => exact sOnError_builtin { q with out := [.version, .usage], err := [.invalidArgument arg] }
  | missing => exact sOnError_builtin { q with out := [.version, .usage], err := [.missingSource] }
  | help => exact pass_builtin (p := { q with out := [.version, .usage] }) (leave_builtin true)
  | version => exact pass_builtin (p := { q with out := [.version, .copyright] }) (leave_builtin true)
  | run o source => exact sRunSource_builtin o source q

/-! ### The number of reads -/

section reads

variable {M : Type} {C : Contexts M}

theorem updateHashes_size {buffer : List Byte} {size : Nat} : ∀ {ks : List Kind} {h h' : Handle} {W W' : WorldOf M} {r : Int}, updateHashes C buffer size ks h W = .ok (r, h', W') → h'.bufferSize = h.bufferSize
  | [], h, h', W, W', ok, e => by cases e; rfl
  | k :: ks, h, h', W, W', ok, e => by
    unfold updateHashes at e
    split at e
    · obtain ⟨⟨r, h1, W1⟩, e1, e⟩ := Res.bind_eq_ok e
      have : h1.bufferSize = h.bufferSize := by
        obtain ⟨a, -, e1⟩ := Res.bind_eq_ok e1
        cases e1
        rfl
      dsimp only at e
      split at e
      · cases e; exact this
      · exact (updateHashes_size e).trans this
    · exact updateHashes_size e

/-- A loop that is not aborted made enough reads for the size of the file. -/
theorem processLoop_reads {inp : Input} {f : Nat → Bool} {m : Nat} : ∀ {fuel c : Nat} {buffer : List Byte} {h h' : Handle} {W W' : WorldOf M},
    processLoop C inp f m fuel c buffer h W = .ok (true, h', W') → h'.abort = false → h.readCount ≤ h'.readCount ∧ m ≤ c + (h'.readCount - h.readCount) * h.bufferSize := by
  intro fuel
  induction fuel with
  | zero =>
    intro c buffer h h' W W' e ha
    unfold processLoop at e
    split at e
    · cases e
    · cases e
      exact ⟨le_refl _, by omega⟩
  | succ fuel ih =>
    intro c buffer h h' W W' e ha
    unfold processLoop at e
    split at e
    · dsimp only at e
      have hsz : (if m - c < h.bufferSize then (m - c) % 2 ^ C.bits else h.bufferSize) ≤ h.bufferSize := by
        have := Nat.mod_le (m - c) (2 ^ C.bits)
        split <;> omega
      generalize (if m - c < h.bufferSize then (m - c) % 2 ^ C.bits else h.bufferSize) = sz at e hsz
      have hrd : ∀ d, (readInput C inp sz h).1 = some d → d.length ≤ sz ∧ (readInput C inp sz h).2.readCount = h.readCount + 1 ∧ (readInput C inp sz h).2.bufferSize = h.bufferSize := fun d hd => by
        unfold readInput at hd ⊢
        split at hd
        · cases hd
        · rename_i hle
          rw [if_neg hle]
          split at hd
          · cases hd
          · rename_i n hn
            cases hd
            exact ⟨by simp only [List.length_take]; omega, rfl, rfl⟩
      generalize readInput C inp sz h = rd at e hrd
      rcases rd with ⟨_ | d, h1⟩
      · cases e
      · obtain ⟨hd, hc1, hb1⟩ := hrd d rfl
        dsimp only at e hc1 hb1
        obtain ⟨buf, -, e⟩ := Res.bind_eq_ok e
        split at e
        · cases e
        · obtain ⟨⟨r, h2, W2⟩, e1, e⟩ := Res.bind_eq_ok e
          have h2c : h2.readCount = h1.readCount ∧ h2.bufferSize = h1.bufferSize := by
            unfold updateIntegrity at e1
            split at e1
            · cases e1; exact ⟨rfl, rfl⟩
            · exact ⟨updateHashes_readCount e1, updateHashes_size e1⟩
          dsimp only at e
          split at e
          · cases e
          · split at e
            · rename_i hab
              cases e
              exact absurd (ha.symm.trans hab) (by decide)
            · obtain ⟨h3, h4⟩ := ih e ha
              dsimp only at h3 h4
              rw [h2c.1, hc1] at h3 h4
              rw [h2c.2, hb1] at h4
              refine ⟨by omega, ?_⟩
              have : h'.readCount - h.readCount = (h'.readCount - (h.readCount + 1)) + 1 := by omega
              rw [this, Nat.add_mul]
              omega
    · cases e
      exact ⟨le_refl _, by omega⟩

theorem freeHash_size {k : Kind} {h h' : Handle} {W W' : WorldOf M} (e : freeHash C k h W = .ok (h', W')) : h'.bufferSize = h.bufferSize := by
  unfold freeHash at e
  split at e
  · cases e; rfl
  · obtain ⟨⟨r, h1, W1⟩, e1, e⟩ := Res.bind_eq_ok e
    cases e
    obtain ⟨a, -, e1⟩ := Res.bind_eq_ok e1
    cases e1
    rfl

theorem initHashes_size : ∀ {ks : List Kind} {h h' : Handle} {W W' : WorldOf M} {ok : Bool}, initHashes C ks h W = .ok (ok, h', W') → h'.bufferSize = h.bufferSize
  | [], h, h', W, W', ok, e => by cases e; rfl
  | k :: ks, h, h', W, W', ok, e => by
    unfold initHashes at e
    split at e
    · obtain ⟨⟨r, h1, W1⟩, e1, e⟩ := Res.bind_eq_ok e
      have : h1.bufferSize = h.bufferSize := by
        obtain ⟨a, -, e1⟩ := Res.bind_eq_ok e1
        cases e1
        rfl
      dsimp only at e
      split at e
      · cases e; exact this
      · exact (initHashes_size e).trans this
    · exact initHashes_size e

theorem finalizeHashes_abort {T : Tool} : ∀ {ks : List Kind} {h h' : Handle} {W W' : WorldOf M} {r : Int}, finalizeHashes T C ks h W = .ok (r, h', W') → h'.abort = h.abort
  | [], h, h', W, W', ok, e => by cases e; rfl
  | k :: ks, h, h', W, W', ok, e => by
    unfold finalizeHashes at e
    split at e
    · split at e
      · cases e; rfl
      · obtain ⟨⟨r, h1, W1⟩, e1, e⟩ := Res.bind_eq_ok e
        have : h1.abort = h.abort := by
          obtain ⟨a, -, e1⟩ := Res.bind_eq_ok e1
          cases e1
          rfl
        dsimp only at e
        split at e
        · cases e; exact this
        · obtain ⟨⟨c, s⟩, -, e⟩ := Res.bind_eq_ok e
          dsimp only at e
          split at e
          · cases e; exact this
          · exact (finalizeHashes_abort e).trans this
    · exact finalizeHashes_abort e

/-- A file that was processed and not aborted took enough reads for its size. -/
theorem processInput_reads {T : Tool} {inp : Input} {f : Nat → Bool} {h h' : Handle} {W W' : WorldOf M} (e : processInput T C inp f h W = .ok (1, h', W')) (ha : h'.abort = false) :
    ∃ size, inp.size = some size ∧ size ≤ (h'.readCount - h.readCount) * h.bufferSize := by
  unfold processInput at e
  split at e
  · cases e
  cases hs : inp.size with
  | none =>
    rw [hs] at e
    cases e
  | some size =>
    rw [hs] at e
    dsimp only at e
    generalize allocBlock T C W = al at e
    rcases al with ⟨_ | q, W1⟩
    · cases e
    · dsimp only at e
      obtain ⟨⟨r1, h1, W2⟩, e1, e⟩ := Res.bind_eq_ok e
      have h1c : h1.readCount = h.readCount ∧ h1.bufferSize = h.bufferSize := by
        unfold initIntegrity at e1
        obtain ⟨⟨r0, h0, W0⟩, e0, e1⟩ := Res.bind_eq_ok e1
        have h0c := initHashes_readCount e0
        have h0b := initHashes_size e0
        dsimp only at e1
        split at e1
        · cases e1
          exact ⟨h0c, h0b⟩
        · obtain ⟨⟨h2, W2⟩, e2, e1⟩ := Res.bind_eq_ok e1
          obtain ⟨⟨h3, W3⟩, e3, e1⟩ := Res.bind_eq_ok e1
          cases e1
          exact ⟨(freeHash_readCount e3).trans ((freeHash_readCount e2).trans h0c), (freeHash_size e3).trans ((freeHash_size e2).trans h0b)⟩
      dsimp only at e
      split at e
      · obtain ⟨W3, -, e⟩ := Res.bind_eq_ok e
        cases e
      · obtain ⟨⟨ok, h2, W3⟩, e2, e⟩ := Res.bind_eq_ok e
        dsimp only at e
        split at e
        · obtain ⟨W4, -, e⟩ := Res.bind_eq_ok e
          cases e
        · rename_i hok
          obtain ⟨W4, -, e⟩ := Res.bind_eq_ok e
          obtain ⟨⟨r5, h5, W5⟩, e5, e⟩ := Res.bind_eq_ok e
          have hc := finalizeHashes_readCount e5
          have hb := finalizeHashes_abort e5
          have hok : ok = true := by simpa using hok
          subst hok
          dsimp only at e
          have h5' : h' = h5 := by
            split at e <;> cases e
            rfl
          subst h5'
          obtain ⟨-, h4⟩ := processLoop_reads e2 (hb.symm.trans ha)
          rw [h1c.1, h1c.2] at h4
          exact ⟨size, rfl, by rw [hc]; omega⟩

theorem updateHashes_abort {buffer : List Byte} {size : Nat} : ∀ {ks : List Kind} {h h' : Handle} {W W' : WorldOf M} {r : Int}, updateHashes C buffer size ks h W = .ok (r, h', W') → h'.abort = h.abort
  | [], h, h', W, W', ok, e => by cases e; rfl
  | k :: ks, h, h', W, W', ok, e => by
    unfold updateHashes at e
    split at e
    · obtain ⟨⟨r, h1, W1⟩, e1, e⟩ := Res.bind_eq_ok e
      have : h1.abort = h.abort := by
        obtain ⟨a, -, e1⟩ := Res.bind_eq_ok e1
        cases e1
        rfl
      dsimp only at e
      split at e
      · cases e; exact this
      · exact (updateHashes_abort e).trans this
    · exact updateHashes_abort e

theorem processLoop_unaborted {inp : Input} {m : Nat} : ∀ {fuel c : Nat} {buffer : List Byte} {h h' : Handle} {W W' : WorldOf M} {ok : Bool},
    processLoop C inp (fun _ => false) m fuel c buffer h W = .ok (ok, h', W') → h'.abort = h.abort := by
  intro fuel
  induction fuel with
  | zero =>
    intro c buffer h h' W W' ok e
    unfold processLoop at e
    split at e <;> cases e
    rfl
  | succ fuel ih =>
    intro c buffer h h' W W' ok e
    unfold processLoop at e
    split at e
    · dsimp only at e
      generalize (if m - c < h.bufferSize then (m - c) % 2 ^ C.bits else h.bufferSize) = sz at e
      have hrd : (readInput C inp sz h).2.abort = h.abort := by
        unfold readInput
        split
        · rfl
        · split <;> rfl
      generalize readInput C inp sz h = rd at e hrd
      rcases rd with ⟨_ | d, h1⟩
      · cases e
        exact hrd
      · dsimp only at e hrd
        obtain ⟨buf, -, e⟩ := Res.bind_eq_ok e
        split at e
        · cases e
          exact hrd
        · obtain ⟨⟨r, h2, W2⟩, e1, e⟩ := Res.bind_eq_ok e
          have h2c : h2.abort = h1.abort := by
            unfold updateIntegrity at e1
            split at e1
            · cases e1; rfl
            · exact updateHashes_abort e1
          dsimp only at e
          split at e
          · cases e
            exact h2c.trans hrd
          · split at e
            · cases e
              simp only [Bool.or_false]
              exact h2c.trans hrd
            · have h3 := ih e
              simp only [Bool.or_false] at h3
              exact h3.trans (h2c.trans hrd)
    · cases e
      rfl

theorem freeHash_abort {k : Kind} {h h' : Handle} {W W' : WorldOf M} (e : freeHash C k h W = .ok (h', W')) : h'.abort = h.abort := by
  unfold freeHash at e
  split at e
  · cases e; rfl
  · obtain ⟨⟨r, h1, W1⟩, e1, e⟩ := Res.bind_eq_ok e
    cases e
    obtain ⟨a, -, e1⟩ := Res.bind_eq_ok e1
    cases e1
    rfl

theorem initHashes_abort : ∀ {ks : List Kind} {h h' : Handle} {W W' : WorldOf M} {ok : Bool}, initHashes C ks h W = .ok (ok, h', W') → h'.abort = h.abort
  | [], h, h', W, W', ok, e => by cases e; rfl
  | k :: ks, h, h', W, W', ok, e => by
    unfold initHashes at e
    split at e
    · obtain ⟨⟨r, h1, W1⟩, e1, e⟩ := Res.bind_eq_ok e
      have : h1.abort = h.abort := by
        obtain ⟨a, -, e1⟩ := Res.bind_eq_ok e1
        cases e1
        rfl
      dsimp only at e
      split at e
      · cases e; exact this
      · exact (initHashes_abort e).trans this
    · exact initHashes_abort e

theorem processInput_unaborted {T : Tool} {inp : Input} {h h' : Handle} {W W' : WorldOf M} (e : processInput T C inp (fun _ => false) h W = .ok (1, h', W')) : h'.abort = h.abort := by
  unfold processInput at e
  split at e
  · cases e
  cases hs : inp.size with
  | none =>
    rw [hs] at e
    cases e
  | some size =>
    rw [hs] at e
    dsimp only at e
    generalize allocBlock T C W = al at e
    rcases al with ⟨_ | q, W1⟩
    · cases e
    · dsimp only at e
      obtain ⟨⟨r1, h1, W2⟩, e1, e⟩ := Res.bind_eq_ok e
      have h1c : h1.abort = h.abort := by
        unfold initIntegrity at e1
        obtain ⟨⟨r0, h0, W0⟩, e0, e1⟩ := Res.bind_eq_ok e1
        have h0c := initHashes_abort e0
        dsimp only at e1
        split at e1
        · cases e1
          exact h0c
        · obtain ⟨⟨h2, W2⟩, e2, e1⟩ := Res.bind_eq_ok e1
          obtain ⟨⟨h3, W3⟩, e3, e1⟩ := Res.bind_eq_ok e1
          cases e1
          exact (freeHash_abort e3).trans ((freeHash_abort e2).trans h0c)
      dsimp only at e
      split at e
      · obtain ⟨W3, -, e⟩ := Res.bind_eq_ok e
        cases e
      · obtain ⟨⟨ok, h2, W3⟩, e2, e⟩ := Res.bind_eq_ok e
        dsimp only at e
        split at e
        · obtain ⟨W4, -, e⟩ := Res.bind_eq_ok e
          cases e
        · obtain ⟨W4, -, e⟩ := Res.bind_eq_ok e
          obtain ⟨⟨r5, h5, W5⟩, e5, e⟩ := Res.bind_eq_ok e
          have hb := finalizeHashes_abort e5
          dsimp only at e
          have h5' : h' = h5 := by
            split at e <;> cases e
            rfl
          subst h5'
          exact hb.trans ((processLoop_unaborted e2).trans h1c)

theorem sumInitialize_handle {T : Tool} {W W' : WorldOf M} {r : Int} {h : Handle} (e : sumInitialize T C none W = .ok (r, some h, W')) : h.abort = false ∧ h.bufferSize = 32768 := by
  unfold sumInitialize at e
  dsimp only at e
  split at e
  · cases e
  · split at e
    · obtain ⟨W1, -, e⟩ := Res.bind_eq_ok e
      cases e
    · split at e
      · obtain ⟨W1, -, e⟩ := Res.bind_eq_ok e
        cases e
      · cases e
        exact ⟨rfl, rfl⟩

theorem enableDigests_keeps {T : Tool} {g : Kind → Bool} : ∀ (ks : List Kind) (h : Handle) (W : WorldOf M), (enableDigests T C g ks h W).2.1.abort = h.abort ∧ (enableDigests T C g ks h W).2.1.bufferSize = h.bufferSize
  | [], h, W => ⟨rfl, rfl⟩
  | k :: ks, h, W => by
    unfold enableDigests
    split
    · split
      · exact ⟨rfl, rfl⟩
      · exact enableDigests_keeps ks _ _
    · exact enableDigests_keeps ks _ _

theorem mApplyDigests_keeps {o : Options} {err err' : List Message} {h h' : Handle} {W W' : WorldOf M} {ok : Bool} (e : mApplyDigests E C o err h W = .ok (ok, h', W', err')) :
    h'.abort = h.abort ∧ h'.bufferSize = h.bufferSize := by
  unfold mApplyDigests at e
  split at e
  · cases e; exact ⟨rfl, rfl⟩
  · obtain ⟨⟨r, h1, W1⟩, e1, e⟩ := Res.bind_eq_ok e
    cases e
    unfold setDigestTypes at e1
    split at e1
    · cases e1; exact ⟨rfl, rfl⟩
    · obtain ⟨g, -, e1⟩ := Res.bind_eq_ok e1
      have hh := enableDigests_keeps (T := E.tool) (C := C) (g := g) digestOrder h W
      generalize enableDigests E.tool C g digestOrder h W = z at e1 hh
      cases e1
      exact hh

theorem mApplyBufferSize_keeps {o : Options} {err err' : List Message} {h h' : Handle} {ok : Bool} (e : mApplyBufferSize E C o err h = .ok (ok, h', err')) : h'.abort = h.abort := by
  unfold mApplyBufferSize at e
  split at e
  · cases e; rfl
  · obtain ⟨⟨r, h1⟩, e1, e⟩ := Res.bind_eq_ok e
    have h1c : h1.abort = h.abort := by
      unfold setBufferSize at e1
      obtain ⟨⟨r0, v⟩, -, e1⟩ := Res.bind_eq_ok e1
      dsimp only at e1
      split at e1
      · cases e1; rfl
      · split at e1
        · split at e1
          · cases e1
          · split at e1 <;> cases e1 <;> rfl
        · cases e1; rfl
    dsimp only at e
    split at e
    · cases e; exact h1c
    · split at e <;> cases e <;> exact h1c

end reads

end Model.Builds
