import Verif.Proofs.BuildsSignalSafe
import Verif.Proofs.SignalPrompt
/-! The main program with signals, over any implementation of the contexts: when a signal is seen. -/

namespace Model.Builds

open Spec (Kind Line Message)

variable {M : Type}

/-- The state of the process at its end. -/
def Fate.state : Fate M → Proc M
  | .exited _ q => q
  | .killed q => q

/-- A property of the state that signals and detaching preserve, and that does not depend on the rest. -/
structure Kept (M : Type) (K : Bool → Nat → Nat → Prop) : Prop where
  move : ∀ {p q : Proc M}, Moved p q → K p.attached p.handled p.reads → K q.attached q.handled q.reads
  off : ∀ {a : Bool} {h r : Nat}, K a h r → K false h r

def Fate.holds (K : Bool → Nat → Nat → Prop) (f : Fate M) : Prop := K f.state.attached f.state.handled f.state.reads

variable {E : Environment} {C : Contexts M} {Y : SystemCalls} {S : Signals} {K : Bool → Nat → Nat → Prop}

theorem pass_kept (hK : Kept M K) {pt : Point} {p : Proc M} {k : Proc M → Res (Fate M)} {f : Fate M} (e : pass S pt p k = .ok f) (h : K p.attached p.handled p.reads)
    (hk : ∀ q, K q.attached q.handled q.reads → k q = .ok f → f.holds K) : f.holds K := by
  rcases pass_cases e with ⟨q, rfl, m, -⟩ | ⟨q, e, m, -, -⟩
  · exact hK.move m h
  · exact hk q (hK.move m h) e

theorem leave_kept {b : Bool} {p : Proc M} {f : Fate M} (e : leave b p = .ok f) (h : K p.attached p.handled p.reads) : f.holds K := by
  cases e
  exact h

theorem sOnError_kept (hK : Kept M K) {p : Proc M} {f : Fate M} (e : sOnError E C S p = .ok f) (h : K p.attached p.handled p.reads) : f.holds K := by
  refine pass_kept hK e h fun q h e => ?_
  split at e
  · exact pass_kept hK e h fun q h e => leave_kept e h
  · obtain ⟨⟨r, sl, W⟩, -, e⟩ := Res.bind_eq_ok e
    exact pass_kept hK e h fun q h e => pass_kept hK e h fun q h e => leave_kept e h
  · cases e

theorem sOnAbort_kept (hK : Kept M K) {p : Proc M} {f : Fate M} (e : sOnAbort E C Y S p = .ok f) (h : K p.attached p.handled p.reads) : f.holds K := by
  unfold sOnAbort at e
  split at e
  · exact sOnError_kept hK e h
  refine pass_kept hK e h fun q h e => pass_kept hK e (by split; exacts [h, hK.off h]) fun q h e => ?_
  split at e
  · obtain ⟨⟨r, sl, W⟩, -, e⟩ := Res.bind_eq_ok e
    refine pass_kept hK e h fun q h e => ?_
    split at e
    · exact sOnError_kept hK e h
    · refine pass_kept hK e h fun q h e => ?_
      split at e
      · exact pass_kept hK e h fun q h e => leave_kept e h
      · exact pass_kept hK e h fun q h e => leave_kept e h
  · cases e

theorem passLines_kept (hK : Kept M K) {k : Proc M → Res (Fate M)} {f : Fate M} (hk : ∀ q, K q.attached q.handled q.reads → k q = .ok f → f.holds K) : ∀ {ls : List Line} {i : Nat} {p : Proc M}, passLines S i ls p k = .ok f →
    K p.attached p.handled p.reads → f.holds K
  | [], i, p, e, h => pass_kept hK e h fun q h e => hk q h e
  | l :: ls, i, p, e, h => pass_kept hK e h fun q h e => passLines_kept hK hk e h

/-- Processing: the invariant holds at the end if it holds after the number of reads was set. -/
theorem sProcessAndPrint_kept (hK : Kept M K) {inp : Input} {p : Proc M} {f : Fate M} (e : sProcessAndPrint E C Y S inp p = .ok f)
    (h : ∀ h0 r h1 W, p.var = .live h0 → processInput E.tool C inp (fun n => p.attached && (List.range (n + 1)).any fun k => 0 < S.count (.read k)) h0 p.world = .ok (r, h1, W) →
      (∀ q, f = .killed q → K p.attached p.handled h1.readCount) ∧
      ((∀ j, j ≤ h1.readCount → 0 < S.count (.read j) → p.attached = true) → K p.attached p.handled h1.readCount)) : f.holds K := by
  unfold sProcessAndPrint at e
  split at e
  swap
  · cases e
  rename_i h0 hv
  obtain ⟨⟨r, h1, W⟩, e1, e⟩ := Res.bind_eq_ok e
  obtain ⟨hkill, hlive⟩ := h h0 r h1 W hv e1
  dsimp only at e
  rcases passReads_cases e with ⟨q, rfl, m, hq⟩ | ⟨q, e', m, hsig, hno⟩
  · exact hK.move m (hkill _ rfl)
  clear e
  rename' e' => e
  have h := hK.move m (hlive fun j hj hc => (hsig j (by omega) (by omega) hc).2)
  refine pass_kept hK e h fun q2 h e => ?_
  by_cases hab : q2.abort = true
  · rw [if_pos hab] at e
    exact sOnAbort_kept hK e h
  rw [if_neg hab] at e
  split at e
  · exact sOnError_kept hK e h
  split at e
  · obtain ⟨ds, -, e⟩ := Res.bind_eq_ok e
    exact passLines_kept hK (fun q3 h e => sOnAbort_kept hK e h) e h
  · cases e

theorem enableDigests_readCount {T : Tool} {C : Contexts M} {g : Kind → Bool} : ∀ (ks : List Kind) (h : Handle) (W : WorldOf M), (enableDigests T C g ks h W).2.1.readCount = h.readCount
  | [], h, W => rfl
  | k :: ks, h, W => by
    unfold enableDigests
    split
    · split
      · rfl
      · exact enableDigests_readCount ks _ _
    · exact enableDigests_readCount ks _ _

theorem mApplyBufferSize_readCount {o : Options} {err err' : List Message} {h h' : Handle} {ok : Bool} (e : mApplyBufferSize E C o err h = .ok (ok, h', err')) : h'.readCount = h.readCount := by
  unfold mApplyBufferSize at e
  split at e
  · cases e; rfl
  · obtain ⟨⟨r, h1⟩, e1, e⟩ := Res.bind_eq_ok e
    have h1c : h1.readCount = h.readCount := by
      unfold setBufferSize at e1
      obtain ⟨⟨r0, v⟩, -, e1⟩ := Res.bind_eq_ok e1
      dsimp only at e1
      split at e1
      · cases e1; rfl
      · split at e1
        · split at e1
          · cases e1
          · split at e1 <;> cases e1 <;> rfl
        · cases e1; rfl
    dsimp only at e
    split at e
    · cases e; exact h1c
    · split at e <;> cases e <;> exact h1c

theorem mApplyDigests_readCount {o : Options} {err err' : List Message} {h h' : Handle} {W W' : WorldOf M} {ok : Bool} (e : mApplyDigests E C o err h W = .ok (ok, h', W', err')) : h'.readCount = h.readCount := by
  unfold mApplyDigests at e
  split at e
  · cases e; rfl
  · obtain ⟨⟨r, h1, W1⟩, e1, e⟩ := Res.bind_eq_ok e
    cases e
    unfold setDigestTypes at e1
    split at e1
    · cases e1; rfl
    · obtain ⟨g, -, e1⟩ := Res.bind_eq_ok e1
      have hh := enableDigests_readCount (T := E.tool) (C := C) (g := g) digestOrder h W
      generalize enableDigests E.tool C g digestOrder h W = z at e1 hh
      cases e1
      exact hh

theorem sumInitialize_readCount {T : Tool} {C : Contexts M} {r : Int} {h : Handle} {W W' : WorldOf M} (e : sumInitialize T C none W = .ok (r, some h, W')) : h.readCount = 0 := by
  unfold sumInitialize at e
  dsimp only at e
  split at e
  · cases e
  · split at e
    · obtain ⟨W1, -, e⟩ := Res.bind_eq_ok e
      cases e
    · split at e
      · obtain ⟨W1, -, e⟩ := Res.bind_eq_ok e
        cases e
      · cases e
        rfl

/-- The handle with which processing starts has made no reads. -/
def Fresh (p : Proc M) : Prop := ∀ h, p.var = .live h → h.readCount = 0

theorem Fresh.moved {p q : Proc M} (h : Fresh p) (m : Moved p q) (hv : ∃ g, p.var = .live g) : Fresh q := by
  obtain ⟨g, hv⟩ := hv
  obtain ⟨b, hb⟩ := m.live g hv
  intro g' hg'
  rw [hb] at hg'
  cases hg'
  exact h g hv

/-- What is to be shown of processing. -/
def ProcessKept (E : Environment) (C : Contexts M) (Y : SystemCalls) (S : Signals) (K : Bool → Nat → Nat → Prop) (f : Fate M) : Prop :=
  ∀ (inp : Input) (p : Proc M), Fresh p → K p.attached p.handled p.reads → sProcessAndPrint E C Y S inp p = .ok f → f.holds K

theorem sOpenAndProcess_kept (hK : Kept M K) {source : List Nat} {p : Proc M} {f : Fate M} (hP : ProcessKept E C Y S K f) (e : sOpenAndProcess E C Y S source p = .ok f) (h : K p.attached p.handled p.reads) (hf : Fresh p) :
    f.holds K := by
  unfold sOpenAndProcess at e
  split at e
  swap
  · cases e
  rename_i g hv
  have hf0 : ∀ c, Fresh { p with var := .live (openInput (E.files source).isSome g).2, error := c } := fun c g' e => by
    cases e
    rw [← hf g hv]
    unfold openInput
    split <;> rfl
  rcases pass_cases e with ⟨q, rfl, m, -⟩ | ⟨q, e', m, -, -⟩
  · exact hK.move m h
  clear e
  rename' e' => e
  have h := hK.move m h
  have hf := (hf0 _).moved m ⟨_, rfl⟩
  split at e
  · exact sOnAbort_kept hK e h
  split at e
  · exact sOnError_kept hK e h
  · exact hP _ _ hf h e

theorem sRunSource_kept {f : Fate M} (hK : Kept M K) (hP : ProcessKept E C Y S K f) (hon : Y.attach = true → ∀ a h r, K a h r → K true h r) {o : Options} {source : List Nat} {p : Proc M}
    (e : sRunSource E C Y S o source p = .ok f) (h : K p.attached p.handled p.reads) : f.holds K := by
  refine pass_kept hK e h fun q h e => ?_
  obtain ⟨⟨r, slot, W⟩, e0, e⟩ := Res.bind_eq_ok e
  dsimp only at e
  split at e
  · exact sOnError_kept hK e h
  split at e
  · cases e
  rename_i g
  have hg := sumInitialize_readCount e0
  obtain ⟨⟨ok, h1, err⟩, e1, e⟩ := Res.bind_eq_ok e
  have h1c := (mApplyBufferSize_readCount e1).trans hg
  dsimp only at e
  split at e
  · exact sOnError_kept hK e h
  obtain ⟨⟨ok2, h2, W2, err2⟩, e2, e⟩ := Res.bind_eq_ok e
  have h2c := (mApplyDigests_readCount e2).trans h1c
  dsimp only at e
  split at e
  · exact sOnError_kept hK e h
  have hf0 : Fresh { q with world := W2, var := .live h2, err := err2 } := fun g' e => by
    cases e
    exact h2c
  rcases pass_cases e with ⟨q2, rfl, m, -⟩ | ⟨q2, e', m, -, -⟩
  · exact hK.move m h
  clear e
  rename' e' => e
  have h := hK.move m h
  have hf : Fresh q2 := hf0.moved m ⟨_, rfl⟩
  refine sOpenAndProcess_kept hK hP e ?_ ?_
  · split
    · exact h
    · rename_i ha
      exact hon (by cases hc : Y.attach <;> simp [signalAttach, hc] at ha ⊢) _ _ _ h
  · split <;> exact hf

theorem sHmacsum_kept {f : Fate M} (hK : Kept M K) (hP : ProcessKept E C Y S K f) (hon : Y.attach = true → ∀ a h r, K a h r → K true h r) (h0 : K false 0 0) {args : List (List Nat)} {W : WorldOf M}
    (e : sHmacsum E C Y S args W = .ok f) : f.holds K := by
  refine pass_kept hK e h0 fun q h e => ?_
  split at e
  · exact sOnError_kept hK e h
  split at e
  · exact sOnError_kept hK e h
  refine pass_kept hK e h fun q2 h e => ?_
  obtain ⟨⟨p, arg⟩, -, e⟩ := Res.bind_eq_ok e
  cases p <;> dsimp only at e
  · exact sRunSource_kept hK hP hon e h
  · exact pass_kept hK e h fun q h e => leave_kept e h
  · exact pass_kept hK e h fun q h e => leave_kept e h
  · exact sOnError_kept hK e h
  · exact sOnError_kept hK e h

/-- The handler that could not be attached handles nothing. -/
theorem sHmacsum_unattached (ha : Y.attach = false) {args : List (List Nat)} {W : WorldOf M} {f : Fate M} (e : sHmacsum E C Y S args W = .ok f) : f.state.handled = 0 := by
  have hK : Kept M fun a h _ => a = false ∧ h = 0 := ⟨fun m h => by rw [m.detached h.1]; exact h, fun h => ⟨rfl, h.2⟩⟩
  refine (sHmacsum_kept hK (fun inp p _ h e => ?_) (fun h => by rw [ha] at h; cases h) ⟨rfl, rfl⟩ e).2
  exact sProcessAndPrint_kept hK e fun h0 r h1 W _ _ => ⟨fun _ _ => h, fun _ => h⟩

/-- Reading ends at the test after the read during which a signal arrives, and after the first read at the earliest. -/
theorem sHmacsum_prompt {n : Nat} (hn : 0 < S.count (.read n)) {args : List (List Nat)} {W : WorldOf M} {x : ExitM} {q : Proc M} (e : sHmacsum E C Y S args W = .ok (.exited x q)) : q.reads ≤ max n 1 := by
  have hK : Kept M fun _ _ r => r ≤ max n 1 := ⟨fun m h => by rw [m.reads]; exact h, fun h => h⟩
  refine sHmacsum_kept hK (fun inp p hf _ e => ?_) (fun _ _ _ _ h => h) (Nat.zero_le _) e
  refine sProcessAndPrint_kept hK e fun h0 r h1 W hv e1 => ⟨fun q h => (by cases h), fun hsig => ?_⟩
  by_cases ha : p.attached = true
  · have := processInput_prompt (n := n) (fun j hj => ?_) e1
    · rw [hf h0 hv] at this
      exact this
    · rw [ha, Bool.true_and, List.any_eq_true]
      exact ⟨n, List.mem_range.mpr (by omega), by simpa using hn⟩
  · by_contra hlt
    exact ha (hsig n (by omega) hn)

end Model.Builds
