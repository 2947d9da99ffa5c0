import Mathlib.Data.List.Perm.Basic
import Verif.Proofs.TraceErase
import Verif.Proofs.WorkRun
import Verif.Spec.Once
/-! Which positions of the input and the output the code with observations accesses, with repetitions. -/

namespace Model

open Spec (ApiCall Reply Kind inputReads outputWrites EachOnce)

theorem outputWrites_append (s t : List Obs) : outputWrites (s ++ t) = outputWrites s ++ outputWrites t := by
  induction s with
  | nil => rfl
  | cons o s ih =>
    rcases o with ⟨a, i⟩ | ⟨a, i⟩ | ⟨d, i, a, j, n⟩ | ⟨d, i, n⟩ | b | n | n | n | p | p | ⟨p, n⟩
    · exact ih
    · cases a <;> simp [outputWrites, ih]
    · cases d <;> simp [outputWrites, ih]
    · cases d <;> simp [outputWrites, ih]
    all_goals exact ih

/-- An observation that neither moves the pointer nor reads the input nor writes the output. -/
def Obs.quiet : Obs → Bool
  | .ptr _ => false
  | .read a _ => a ≠ .input
  | .write a _ => a ≠ .output
  | .copy d _ s _ _ => d ≠ .output && s ≠ .input
  | .set d _ _ => d ≠ .output
  | _ => true

/-- Code of such observations. -/
def Quiet {α} (x : Tr α) : Prop := ∀ o ∈ x.trace, o.quiet = true

theorem quiet_reads {o : Obs} (h : o.quiet = true) (b : Nat) (t : List Obs) : inputReads b (o :: t) = inputReads b t := by
  rcases o with ⟨a, i⟩ | ⟨a, i⟩ | ⟨d, i, a, j, n⟩ | ⟨d, i, n⟩ | c | n | n | n | p | p | ⟨p, n⟩
  · cases a <;> first | rfl | exact absurd h (by simp [Obs.quiet])
  · rfl
  · cases a <;> first | rfl | exact absurd h (by simp [Obs.quiet])
  all_goals first | rfl | exact absurd h (by simp [Obs.quiet])

theorem quiet_writes {o : Obs} (h : o.quiet = true) (t : List Obs) : outputWrites (o :: t) = outputWrites t := by
  rcases o with ⟨a, i⟩ | ⟨a, i⟩ | ⟨d, i, a, j, n⟩ | ⟨d, i, n⟩ | c | n | n | n | p | p | ⟨p, n⟩
  · rfl
  · cases a <;> first | rfl | exact absurd h (by simp [Obs.quiet])
  · cases d <;> first | rfl | exact absurd h (by simp [Obs.quiet])
  · cases d <;> first | rfl | exact absurd h (by simp [Obs.quiet])
  all_goals first | rfl | exact absurd h (by simp [Obs.quiet])

theorem quiet_list {l : List Obs} (h : ∀ o ∈ l, o.quiet = true) (b : Nat) (t : List Obs) : inputReads b (l ++ t) = inputReads b t := by
  induction l with
  | nil => rfl
  | cons o l ih => rw [List.cons_append, quiet_reads (h o (by simp)), ih fun o ho => h o (by simp [ho])]

theorem quiet_list_writes {l : List Obs} (h : ∀ o ∈ l, o.quiet = true) : outputWrites l = [] := by
  induction l with
  | nil => rfl
  | cons o l ih => rw [quiet_writes (h o (by simp)), ih fun o ho => h o (by simp [ho])]

namespace Quiet

variable {α β : Type} {x : Tr α}

theorem bind {f : α → Tr β} (h : Quiet x) (k : ∀ v, Quiet (f v)) : Quiet (x >>= f) := by
  intro o ho
  rw [Tr.bind_trace] at ho
  rcases List.mem_append.mp ho with ho | ho
  · exact h o ho
  · split at ho
    · exact k _ o ho
    · cases ho

theorem pure' {v : α} : Quiet (pure v) := fun _ ho => (List.not_mem_nil ho).elim
theorem ub' : Quiet (Tr.ub : Tr α) := fun _ ho => (List.not_mem_nil ho).elim
theorem diverge' : Quiet (Tr.diverge : Tr α) := fun _ ho => (List.not_mem_nil ho).elim
theorem one {o : Obs} {r : Res α} (h : o.quiet = true) : Quiet (⟨[o], r⟩ : Tr α) := by
  intro o' ho
  rw [List.mem_singleton.mp ho]
  exact h
theorem ite {p : Prop} [Decidable p] {y : Tr α} (h : Quiet x) (k : Quiet y) : Quiet (if p then x else y) := by split <;> assumption
theorem rd {n : Arr} {l : List α} {i : Nat} (h : n ≠ .input) : Quiet (tRd n l i) := one (o := .read n i) (by simpa [Obs.quiet] using h)
theorem rdSub {n : Arr} {l : List α} {i k : Nat} (h : n ≠ .input) : Quiet (tRdSub n l i k) := one (o := .read n (i - k)) (by simpa [Obs.quiet] using h)
theorem wr {n : Arr} {l : List α} {i : Nat} {v : α} (h : n ≠ .output) : Quiet (tWr n l i v) := one (o := .write n i) (by simpa [Obs.quiet] using h)
theorem copy {d s : Arr} {l m : List α} {i j n : Nat} (h : d ≠ .output) (h' : s ≠ .input) : Quiet (tCopy d l i s m j n) := one (o := .copy d i s j n) (by simp [Obs.quiet, h, h'])
theorem set {d : Arr} {l : List α} {i n : Nat} {v : α} (h : d ≠ .output) : Quiet (tSet d l i v n) := one (o := .set d i n) (by simpa [Obs.quiet] using h)
theorem branch {p : Prop} [Decidable p] : Quiet (tBranch p) := one rfl
theorem null {p : Option α} : Quiet (tNull p) := one rfl
theorem rotl {w} {v : BitVec w} {n : Nat} : Quiet (tRotl v n) := one rfl
theorem rotr {w} {v : BitVec w} {n : Nat} : Quiet (tRotr v n) := one rfl
theorem shr {w} {v : BitVec w} {n : Nat} : Quiet (tShr v n) := one rfl

theorem forCount {σ} {f : Nat → σ → Tr σ} (h : ∀ i s, Quiet (f i s)) : ∀ n i s, Quiet (tForCount f i n s)
  | 0, _, _ => one rfl
  | n + 1, i, s => bind (one rfl) fun _ => bind (h i s) fun _ => forCount h n _ _
theorem forLoop {σ} {f : Nat → σ → Tr σ} (h : ∀ i s, Quiet (f i s)) (lo hi : Nat) (s : σ) : Quiet (tForLoop lo hi f s) := forCount h _ _ _
theorem runTable {ρ σ} {f : ρ → σ → Tr σ} (h : ∀ r s, Quiet (f r s)) : ∀ rs s, Quiet (tRunTable f rs s)
  | [], _ => pure'
  | _ :: rs, _ => bind (h _ _) fun _ => runTable h rs _

end Quiet

/-- Splits code into its steps. -/
macro "quiets" : tactic => `(tactic| repeat' (first
  | exact Quiet.pure'
  | exact Quiet.ub'
  | exact Quiet.rd (by first | decide | assumption)
  | exact Quiet.rdSub (by decide)
  | exact Quiet.wr (by first | decide | assumption)
  | exact Quiet.copy (by decide) (by decide)
  | exact Quiet.set (by decide)
  | exact Quiet.rotl
  | exact Quiet.rotr
  | exact Quiet.shr
  | exact Quiet.branch
  | exact Quiet.null
  | refine Quiet.bind ?_ fun _ => ?_
  | refine Quiet.ite ?_ ?_))

section

variable {w : Nat}

theorem tLoadStep_quiet {n : Arr} (hn : n ≠ .input) (bs : List Byte) (off : Nat) (r : LoadStep) (v : BitVec w) : Quiet (tLoadStep n bs off r v) := by
  cases r with
  | set i => unfold tLoadStep; quiets
  | or i => unfold tLoadStep; quiets
  | shl8 => exact Quiet.one rfl

theorem tRunLoad_quiet {n : Arr} (hn : n ≠ .input) (prog : List LoadStep) (bs : List Byte) (off : Nat) (v : BitVec w) : Quiet (tRunLoad n prog bs off v) :=
  Quiet.runTable (fun r s => tLoadStep_quiet hn bs off r s) prog v

theorem tLoadLoop_quiet {n : Arr} (hn : n ≠ .input) (prog : List LoadStep) (ws : Nat) (buf : List Byte) (off : Nat) (vals : List (BitVec w)) : Quiet (tLoadLoop n prog ws buf off vals) := by
  refine Quiet.forLoop (fun i s => ?_) _ _ _
  exact Quiet.bind (Quiet.rd (by decide)) fun _ => Quiet.bind (tRunLoad_quiet hn _ _ _ _) fun _ => Quiet.bind (Quiet.wr (by decide)) fun _ => Quiet.pure'

theorem tLoadUnrolled_quiet {n : Arr} (hn : n ≠ .input) (prog : List LoadStep) (sh : Nat) (rows : List Nat) (buf : List Byte) (off : Nat) (vals : List (BitVec w)) :
    Quiet (tLoadUnrolled n prog sh rows buf off vals) := by
  refine Quiet.runTable (fun i s => ?_) _ _
  exact Quiet.bind (Quiet.rd (by decide)) fun _ => Quiet.bind (tRunLoad_quiet hn _ _ _ _) fun _ => Quiet.wr (by decide)

theorem tAddLoop_quiet (m : Nat) (c hv : List (BitVec w)) : Quiet (tAddLoop m c hv) := by
  refine Quiet.forLoop (fun i s => ?_) _ _ _
  quiets

theorem tAddUnrolled_quiet (rows : List (Nat × Nat)) (c hv : List (BitVec w)) : Quiet (tAddUnrolled rows c hv) := by
  refine Quiet.runTable (fun i s => ?_) _ _
  quiets

theorem tSha2Ext_quiet (x : BitVec w) (r : Nat × Nat × Nat) : Quiet (tSha2Ext x r) := by unfold tSha2Ext; quiets
theorem tSha2Sig_quiet (x : BitVec w) (r : Nat × Nat × Nat) : Quiet (tSha2Sig x r) := by unfold tSha2Sig; quiets

theorem tSha2Extend_quiet (P : Sha2P w) (i : Nat) (v : List (BitVec w)) : Quiet (tSha2Extend P i v) := by
  unfold tSha2Extend; quiets <;> exact tSha2Ext_quiet _ _

theorem tSha2MacroRound_quiet (P : Sha2P w) (v : List (BitVec w)) (r : Nat × Nat × Nat × Nat × Nat × Nat × Nat × Nat × Nat) (h : List (BitVec w)) : Quiet (tSha2MacroRound P v r h) := by
  obtain ⟨t, i0, i1, i2, i3, i4, i5, i6, i7⟩ := r
  unfold tSha2MacroRound; quiets <;> exact tSha2Sig_quiet _ _

theorem tSha2LoopRound_quiet (P : Sha2P w) (v : List (BitVec w)) (t : Nat) (h : List (BitVec w)) : Quiet (tSha2LoopRound P v t h) := by
  unfold tSha2LoopRound; quiets <;> exact tSha2Sig_quiet _ _

end

theorem tSha1Extend_quiet (i : Nat) (v : List (BitVec 32)) : Quiet (tSha1Extend i v) := by unfold tSha1Extend; quiets
theorem tSha1MacroRound_quiet (v : List (BitVec 32)) (r : Nat × Nat × Nat × Nat × Nat × Nat × Nat) (h : List (BitVec 32)) : Quiet (tSha1MacroRound v r h) := by
  obtain ⟨r, t, i0, i1, i2, i3, i4⟩ := r
  unfold tSha1MacroRound; quiets
theorem tSha1LoopRound_quiet (v : List (BitVec 32)) (t : Nat) (h : List (BitVec 32)) : Quiet (tSha1LoopRound v t h) := by unfold tSha1LoopRound; quiets
theorem tMd5MacroRound_quiet (v : List (BitVec 32)) (r : Nat × Nat × Nat × Nat × Nat × Nat × Nat) (h : List (BitVec 32)) : Quiet (tMd5MacroRound v r h) := by
  obtain ⟨r, t, i0, i1, i2, i3, i4⟩ := r
  unfold tMd5MacroRound; quiets
theorem tMd5LoopRound_quiet (v : List (BitVec 32)) (t : Nat) (h : List (BitVec 32)) : Quiet (tMd5LoopRound v t h) := by unfold tMd5LoopRound; quiets


/-! ## Positions -/

/-- If `x` ends with a value, then the positions of the input it reads, with the pointer at `b`, and the positions of the output it writes are as `Q` says; the pointer is not moved. -/
def On {α} (b : Nat) (x : Tr α) (Q : α → List Nat → List Nat → Prop) : Prop :=
  ∀ v, x.res = .ok v → ∃ l, (∀ t, inputReads b (x.trace ++ t) = l ++ inputReads b t) ∧ Q v l (outputWrites x.trace)

/-- The same for code that may move the pointer. -/
def OnX {α} (b : Nat) (x : Tr α) (Q : α → List Nat → List Nat → Prop) : Prop :=
  ∀ v, x.res = .ok v → ∃ b' l, (∀ t, inputReads b (x.trace ++ t) = l ++ inputReads b' t) ∧ Q v l (outputWrites x.trace)

theorem Tr.bind_ok {α β} {x : Tr α} {f : α → Tr β} {w : β} (e : (x >>= f).res = .ok w) : ∃ v, x.res = .ok v ∧ (f v).res = .ok w ∧ (x >>= f).trace = x.trace ++ (f v).trace := by
  rw [Tr.bind_res] at e
  cases h : x.res with
  | ok v => rw [h] at e; exact ⟨v, rfl, e, by rw [Tr.bind_trace, h]⟩
  | ub => rw [h] at e; cases e
  | diverge => rw [h] at e; cases e

namespace On

variable {α β : Type} {b : Nat} {x : Tr α} {Q : α → List Nat → List Nat → Prop} {R : β → List Nat → List Nat → Prop}

theorem bind {f : α → Tr β} (h : On b x Q) (k : ∀ v l m, Q v l m → On b (f v) fun w l' m' => R w (l ++ l') (m ++ m')) : On b (x >>= f) R := by
  intro w e
  obtain ⟨v, e1, e2, et⟩ := Tr.bind_ok e
  obtain ⟨l, h1, h2⟩ := h v e1
  obtain ⟨l', h3, h4⟩ := k v l _ h2 w e2
  refine ⟨l ++ l', fun t => ?_, ?_⟩
  · rw [et, List.append_assoc, h1, h3, List.append_assoc]
  · rw [et, outputWrites_append]
    exact h4

theorem mono {Q' : α → List Nat → List Nat → Prop} (h : On b x Q) (k : ∀ v l m, Q v l m → Q' v l m) : On b x Q' := by
  intro v e
  obtain ⟨l, h1, h2⟩ := h v e
  exact ⟨l, h1, k _ _ _ h2⟩

theorem pure' {v : α} (h : Q v [] []) : On b (pure v) Q := by
  intro w e
  cases e
  exact ⟨[], fun t => rfl, h⟩

theorem ub' : On b (Tr.ub : Tr α) Q := by intro w e; cases e
theorem diverge' : On b (Tr.diverge : Tr α) Q := by intro w e; cases e

theorem quiet (h : Quiet x) : On b x fun v l m => x.res = .ok v ∧ l = [] ∧ m = [] :=
  fun v e => ⟨[], fun t => by rw [quiet_list h]; rfl, e, rfl, quiet_list_writes h⟩

/-- A quiet step. -/
theorem step {f : α → Tr β} (h : Quiet x) (k : ∀ v, x.res = .ok v → On b (f v) R) : On b (x >>= f) R :=
  bind (quiet h) fun v l m hv => by obtain ⟨e, rfl, rfl⟩ := hv; exact k v e

theorem ite {p : Prop} [Decidable p] {y : Tr α} (h : p → On b x Q) (k : ¬p → On b y Q) : On b (if p then x else y) Q := by
  split
  · next hp => exact h hp
  · next hp => exact k hp

theorem cond {p : Prop} [Decidable p] {y : Tr α} (h : p → On b x Q) (k : ¬p → On b y Q) : On b (tBranch p >>= fun t => if t = true then x else y) Q := by
  refine step Quiet.branch fun v e => ?_
  cases e
  exact ite (fun hp => h (by simpa using hp)) (fun hp => k (by simpa using hp))

theorem forCount {σ} {I : Nat → σ → Prop} {f : Nat → σ → Tr σ} {g g' : Nat → List Nat} (h : ∀ i s, I i s → On b (f i s) fun s' l m => I (i + 1) s' ∧ l.Perm (g i) ∧ m.Perm (g' i)) :
    ∀ n i s, I i s → On b (tForCount f i n s) fun s' l m => I (i + n) s' ∧ l.Perm ((List.range' i n).flatMap g) ∧ m.Perm ((List.range' i n).flatMap g')
  | 0, i, s, hs => by
    intro v e
    cases e
    exact ⟨[], fun t => rfl, hs, .nil, .nil⟩
  | n + 1, i, s, hs => by
    refine step (Quiet.one rfl) fun _ _ => bind (h i s hs) fun s' l m hs' => ?_
    refine (forCount h n (i + 1) s' hs'.1).mono fun s'' l' m' h' => ?_
    rw [List.range'_succ, List.flatMap_cons, List.flatMap_cons]
    exact ⟨by rw [show i + (n + 1) = i + 1 + n by omega]; exact h'.1, hs'.2.1.append h'.2.1, hs'.2.2.append h'.2.2⟩

theorem runTable {ρ σ} {f : ρ → σ → Tr σ} {g g' : ρ → List Nat} (h : ∀ r s, On b (f r s) fun _ l m => l.Perm (g r) ∧ m.Perm (g' r)) :
    ∀ rs s, On b (tRunTable f rs s) fun _ l m => l.Perm (rs.flatMap g) ∧ m.Perm (rs.flatMap g')
  | [], s => pure' ⟨.nil, .nil⟩
  | r :: rs, s => by
    rw [tRunTable]
    refine bind (h r s) fun s' l m hs' => (runTable h rs s').mono fun s'' l' m' h' => ?_
    rw [List.flatMap_cons, List.flatMap_cons]
    exact ⟨hs'.1.append h'.1, hs'.2.append h'.2⟩

theorem toX (h : On b x Q) : OnX b x Q := by
  intro v e
  obtain ⟨l, h1, h2⟩ := h v e
  exact ⟨b, l, h1, h2⟩

end On

namespace OnX

variable {α β : Type} {b : Nat} {x : Tr α} {Q : α → List Nat → List Nat → Prop} {R : β → List Nat → List Nat → Prop}

theorem bind {f : α → Tr β} (h : OnX b x Q) (k : ∀ b' v l m, Q v l m → OnX b' (f v) fun w l' m' => R w (l ++ l') (m ++ m')) : OnX b (x >>= f) R := by
  intro w e
  obtain ⟨v, e1, e2, et⟩ := Tr.bind_ok e
  obtain ⟨b', l, h1, h2⟩ := h v e1
  obtain ⟨b'', l', h3, h4⟩ := k b' v l _ h2 w e2
  refine ⟨b'', l ++ l', fun t => ?_, ?_⟩
  · rw [et, List.append_assoc, h1, h3, List.append_assoc]
  · rw [et, outputWrites_append]
    exact h4

theorem mono {Q' : α → List Nat → List Nat → Prop} (h : OnX b x Q) (k : ∀ v l m, Q v l m → Q' v l m) : OnX b x Q' := by
  intro v e
  obtain ⟨b', l, h1, h2⟩ := h v e
  exact ⟨b', l, h1, k _ _ _ h2⟩

theorem step {f : α → Tr β} (h : Quiet x) (k : ∀ v, x.res = .ok v → OnX b (f v) R) : OnX b (x >>= f) R := by
  intro w e
  obtain ⟨v, e1, e2, et⟩ := Tr.bind_ok e
  obtain ⟨b', l, h1, h2⟩ := k v e1 w e2
  refine ⟨b', l, fun t => by rw [et, List.append_assoc, quiet_list h, h1], ?_⟩
  rw [et, outputWrites_append, quiet_list_writes h]
  exact h2

theorem ptr {l : List α} {i : Nat} {f : List α → Tr β} (k : ∀ v, ptrAt l i = .ok v → OnX i (f v) R) : OnX b (tPtrAt l i >>= f) R := by
  intro w e
  obtain ⟨v, e1, e2, et⟩ := Tr.bind_ok e
  obtain ⟨b', l, h1, h2⟩ := k v e1 w e2
  exact ⟨b', l, fun t => by rw [et, List.append_assoc, ← h1]; rfl, by rw [et]; exact h2⟩

theorem cond {p : Prop} [Decidable p] {y : Tr α} (h : p → OnX b x Q) (k : ¬p → OnX b y Q) : OnX b (tBranch p >>= fun t => if t = true then x else y) Q := by
  refine step Quiet.branch fun v e => ?_
  cases e
  split
  · next hp => exact h (by simpa using hp)
  · next hp => exact k (by simpa using hp)

end OnX

/-! ## Loads -/

/-- The byte that a statement of a load macro reads. -/
def LoadStep.reads : LoadStep → List Nat
  | .set i => [i]
  | .or i => [i]
  | .shl8 => []

/-- The macro reads each byte of a word once. -/
def LoadsWord (prog : List LoadStep) (ws : Nat) : Prop := (prog.flatMap LoadStep.reads).Perm (List.range ws)

section

variable {w : Nat} {b : Nat}

theorem on_rd {bs : List Byte} {i : Nat} : On b (tRd .input bs i) fun _ l m => l = [b + i] ∧ m = [] := fun _ _ => ⟨[b + i], fun _ => rfl, rfl, rfl⟩

theorem tLoadStep_on (bs : List Byte) (off : Nat) (r : LoadStep) (v : BitVec w) : On b (tLoadStep .input bs off r v) fun _ l m => l.Perm (r.reads.map (b + off + ·)) ∧ m.Perm [] := by
  cases r with
  | set i =>
    refine On.bind on_rd fun v l m h => ?_
    obtain ⟨rfl, rfl⟩ := h
    exact On.pure' ⟨by simp [LoadStep.reads, Nat.add_assoc], .nil⟩
  | or i =>
    refine On.bind on_rd fun v l m h => ?_
    obtain ⟨rfl, rfl⟩ := h
    exact On.pure' ⟨by simp [LoadStep.reads, Nat.add_assoc], .nil⟩
  | shl8 => exact (On.quiet (Quiet.one rfl)).mono fun v l m h => by obtain ⟨-, rfl, rfl⟩ := h; exact ⟨.nil, .nil⟩

theorem flatMap_map {α} (c : Nat) (g : α → List Nat) (l : List α) : l.flatMap (fun r => (g r).map (c + ·)) = (l.flatMap g).map (c + ·) := by
  induction l with
  | nil => rfl
  | cons a l ih => simp [ih]

theorem flatMap_nil {α} (l : List α) : (l.flatMap fun _ => ([] : List Nat)) = [] := by
  induction l with
  | nil => rfl
  | cons a l ih => simp

theorem tRunLoad_on {prog : List LoadStep} {ws : Nat} (h : LoadsWord prog ws) (bs : List Byte) (off : Nat) (v : BitVec w) :
    On b (tRunLoad .input prog bs off v) fun _ l m => l.Perm (List.range' (b + off) ws) ∧ m = [] := by
  refine (On.runTable (fun r s => tLoadStep_on bs off r s) prog v).mono fun v l m hv => ⟨?_, ?_⟩
  · rw [flatMap_map] at hv
    refine hv.1.trans ((h.map _).trans ?_)
    rw [List.range_eq_range', List.map_add_range']
    exact .refl _
  · rw [flatMap_nil] at hv
    exact hv.2.eq_nil

theorem words_range (c ws : Nat) : ∀ n i, (List.range' i n).flatMap (fun j => List.range' (c + ws * j) ws) = List.range' (c + ws * i) (ws * n)
  | 0, i => by simp
  | n + 1, i => by
    rw [List.range'_succ, List.flatMap_cons, words_range c ws n (i + 1), Nat.mul_succ ws i, ← Nat.add_assoc, List.range'_append_1]
    congr 1
    rw [Nat.mul_succ]; omega

theorem tLoadLoop_on {prog : List LoadStep} {ws : Nat} (h : LoadsWord prog ws) (buf : List Byte) (off : Nat) (vals : List (BitVec w)) :
    On b (tLoadLoop .input prog ws buf off vals) fun v l m => v.1 = off + ws * 16 ∧ l.Perm (List.range' (b + off) (ws * 16)) ∧ m = [] := by
  unfold tLoadLoop tForLoop
  refine (On.forCount (I := fun i s => s.1 = off + ws * i) (g := fun i => List.range' (b + off + ws * i) ws) (g' := fun _ => []) (fun i s hs => ?_) (16 - 0) 0 (off, vals) rfl).mono fun v l m hv => ?_
  · refine On.step (Quiet.rd (by decide)) fun _ _ => On.bind (tRunLoad_on h buf s.1 _) fun v l m hv => ?_
    obtain ⟨hl, rfl⟩ := hv
    refine On.step (Quiet.wr (by decide)) fun _ _ => On.pure' ⟨?_, ?_, by simp⟩
    · change s.1 + ws = _
      rw [hs, Nat.mul_succ]; omega
    · rw [List.append_nil, Nat.add_assoc b, ← hs]
      exact hl
  · rw [words_range, flatMap_nil] at hv
    obtain ⟨h1, h2, h3⟩ := hv
    exact ⟨by simpa using h1, by simpa using h2, h3.eq_nil⟩

theorem tLoadUnrolled_on {prog : List LoadStep} {ws sh : Nat} (h : LoadsWord prog ws) (hs : 1 <<< sh = ws) {rows : List Nat} (hr : rows = List.range' 0 16) (buf : List Byte) (off : Nat) (vals : List (BitVec w)) :
    On b (tLoadUnrolled .input prog sh rows buf off vals) fun _ l m => l.Perm (List.range' (b + off) (ws * 16)) ∧ m = [] := by
  refine (On.runTable (g := fun i => List.range' (b + off + ws * i) ws) (g' := fun _ => []) (fun i s => ?_) rows vals).mono fun v l m hv => ?_
  · refine On.step (Quiet.rd (by decide)) fun _ _ => On.bind (tRunLoad_on h buf _ _) fun v l m hv => ?_
    obtain ⟨hl, rfl⟩ := hv
    refine (On.quiet (Quiet.wr (by decide))).mono fun v l' m hv => ?_
    obtain ⟨-, rfl, rfl⟩ := hv
    refine ⟨?_, by simp⟩
    have e : i <<< sh = ws * i := by rw [← hs, Nat.shiftLeft_eq, Nat.shiftLeft_eq, Nat.one_mul, Nat.mul_comm]
    rw [e] at hl
    rw [List.append_nil, Nat.add_assoc b]
    exact hl
  · subst hr
    rw [words_range, flatMap_nil] at hv
    exact ⟨by simpa using hv.1, hv.2.eq_nil⟩

end

/-! ## Blocks -/

/-- The transform of a block reads each byte of it once if it is in the input, and else none of the input; it writes no output. -/
structure TAlg.Once {w} (T : TAlg w) : Prop where
  input : ∀ u c bs o s b, On b (T.blockFn .input u c bs o s) fun v l m => v.2.1 = o + T.alg.blockSize ∧ l.Perm (List.range' (b + o) T.alg.blockSize) ∧ m = []
  block : ∀ u c bs o s, Quiet (T.blockFn .block u c bs o s)

theorem tSha2Block_quiet {w} (P : Sha2P w) {n : Arr} (hn : n ≠ .input) (u : Bool) (c : List (BitVec w)) (bs : List Byte) (o : Nat) (s : Scr w) : Quiet (tSha2Block P n u c bs o s) := by
  unfold tSha2Block
  refine Quiet.bind (Quiet.copy (by decide) (by decide)) fun _ => Quiet.ite ?_ ?_
  · exact Quiet.bind (tLoadUnrolled_quiet hn _ _ _ _ _ _) fun _ => Quiet.bind (Quiet.runTable (fun _ _ => tSha2Extend_quiet _ _ _) _ _) fun _ =>
      Quiet.bind (Quiet.runTable (fun _ _ => tSha2MacroRound_quiet _ _ _ _) _ _) fun _ => Quiet.bind (tAddUnrolled_quiet _ _ _) fun _ => Quiet.pure'
  · exact Quiet.bind (tLoadLoop_quiet hn _ _ _ _ _) fun _ => Quiet.bind (Quiet.forLoop (fun _ _ => tSha2Extend_quiet _ _ _) _ _ _) fun _ =>
      Quiet.bind (Quiet.forLoop (fun _ _ => tSha2LoopRound_quiet _ _ _ _) _ _ _) fun _ => Quiet.bind (tAddLoop_quiet _ _ _) fun _ => Quiet.pure'

theorem tSha2Block_on {w} (P : Sha2P w) (h1 : LoadsWord P.ldLoop P.wordSize) (h2 : LoadsWord P.ldUnrolled P.wordSize) (h3 : 1 <<< P.ldShift = P.wordSize) (h4 : P.ldRows = List.range' 0 16)
    (h5 : P.blockSize = P.wordSize * 16) (u : Bool) (c : List (BitVec w)) (bs : List Byte) (o : Nat) (s : Scr w) (b : Nat) :
    On b (tSha2Block P .input u c bs o s) fun v l m => v.2.1 = o + P.blockSize ∧ l.Perm (List.range' (b + o) P.blockSize) ∧ m = [] := by
  unfold tSha2Block
  refine On.step (Quiet.copy (by decide) (by decide)) fun _ _ => On.ite (fun _ => ?_) fun _ => ?_
  · refine On.bind (tLoadUnrolled_on h2 h3 h4 bs o _) fun v l m hv => ?_
    obtain ⟨hl, rfl⟩ := hv
    refine On.step (Quiet.runTable (fun _ _ => tSha2Extend_quiet _ _ _) _ _) fun _ _ => On.step (Quiet.runTable (fun _ _ => tSha2MacroRound_quiet _ _ _ _) _ _) fun _ _ =>
      On.step (tAddUnrolled_quiet _ _ _) fun _ _ => On.pure' ⟨rfl, ?_, rfl⟩
    rw [h5, List.append_nil]; exact hl
  · refine On.bind (tLoadLoop_on h1 bs o _) fun v l m hv => ?_
    obtain ⟨off, vals⟩ := v
    obtain ⟨ho, hl, rfl⟩ := hv
    refine On.step (Quiet.forLoop (fun _ _ => tSha2Extend_quiet _ _ _) _ _ _) fun _ _ => On.step (Quiet.forLoop (fun _ _ => tSha2LoopRound_quiet _ _ _ _) _ _ _) fun _ _ =>
      On.step (tAddLoop_quiet _ _ _) fun _ _ => On.pure' ⟨?_, ?_, rfl⟩
    · rw [h5]; exact ho
    · rw [h5, List.append_nil]; exact hl

theorem tSha1Block_quiet {n : Arr} (hn : n ≠ .input) (u : Bool) (c : List (BitVec 32)) (bs : List Byte) (o : Nat) (s : Scr 32) : Quiet (tSha1Block n u c bs o s) := by
  unfold tSha1Block
  refine Quiet.bind (Quiet.copy (by decide) (by decide)) fun _ => Quiet.ite ?_ ?_
  · exact Quiet.bind (tLoadUnrolled_quiet hn _ _ _ _ _ _) fun _ => Quiet.bind (Quiet.runTable (fun _ _ => tSha1Extend_quiet _ _) _ _) fun _ =>
      Quiet.bind (Quiet.runTable (fun _ _ => tSha1MacroRound_quiet _ _ _) _ _) fun _ => Quiet.bind (tAddUnrolled_quiet _ _ _) fun _ => Quiet.pure'
  · exact Quiet.bind (tLoadLoop_quiet hn _ _ _ _ _) fun _ => Quiet.bind (Quiet.forLoop (fun _ _ => tSha1Extend_quiet _ _) _ _ _) fun _ =>
      Quiet.bind (Quiet.forLoop (fun _ _ => tSha1LoopRound_quiet _ _ _) _ _ _) fun _ => Quiet.bind (tAddLoop_quiet _ _ _) fun _ => Quiet.pure'

theorem tSha1Block_on (u : Bool) (c : List (BitVec 32)) (bs : List Byte) (o : Nat) (s : Scr 32) (b : Nat) :
    On b (tSha1Block .input u c bs o s) fun v l m => v.2.1 = o + 64 ∧ l.Perm (List.range' (b + o) 64) ∧ m = [] := by
  unfold tSha1Block
  refine On.step (Quiet.copy (by decide) (by decide)) fun _ _ => On.ite (fun _ => ?_) fun _ => ?_
  · refine On.bind (tLoadUnrolled_on (ws := 4) (by unfold LoadsWord; decide) rfl rfl bs o _) fun v l m hv => ?_
    obtain ⟨hl, rfl⟩ := hv
    refine On.step (Quiet.runTable (fun _ _ => tSha1Extend_quiet _ _) _ _) fun _ _ => On.step (Quiet.runTable (fun _ _ => tSha1MacroRound_quiet _ _ _) _ _) fun _ _ =>
      On.step (tAddUnrolled_quiet _ _ _) fun _ _ => On.pure' ⟨rfl, ?_, rfl⟩
    rw [List.append_nil]; exact hl
  · refine On.bind (tLoadLoop_on (ws := 4) (by unfold LoadsWord; decide) bs o _) fun v l m hv => ?_
    obtain ⟨off, vals⟩ := v
    obtain ⟨ho, hl, rfl⟩ := hv
    refine On.step (Quiet.forLoop (fun _ _ => tSha1Extend_quiet _ _) _ _ _) fun _ _ => On.step (Quiet.forLoop (fun _ _ => tSha1LoopRound_quiet _ _ _) _ _ _) fun _ _ =>
      On.step (tAddLoop_quiet _ _ _) fun _ _ => On.pure' ⟨ho, ?_, rfl⟩
    rw [List.append_nil]; exact hl

theorem tMd5Block_quiet {n : Arr} (hn : n ≠ .input) (u : Bool) (c : List (BitVec 32)) (bs : List Byte) (o : Nat) (s : Scr 32) : Quiet (tMd5Block n u c bs o s) := by
  unfold tMd5Block
  refine Quiet.bind (Quiet.copy (by decide) (by decide)) fun _ => Quiet.ite ?_ ?_
  · exact Quiet.bind (tLoadUnrolled_quiet hn _ _ _ _ _ _) fun _ =>
      Quiet.bind (Quiet.runTable (fun _ _ => tMd5MacroRound_quiet _ _ _) _ _) fun _ => Quiet.bind (tAddUnrolled_quiet _ _ _) fun _ => Quiet.pure'
  · exact Quiet.bind (tLoadLoop_quiet hn _ _ _ _ _) fun _ =>
      Quiet.bind (Quiet.forLoop (fun _ _ => tMd5LoopRound_quiet _ _ _) _ _ _) fun _ => Quiet.bind (tAddLoop_quiet _ _ _) fun _ => Quiet.pure'

theorem tMd5Block_on (u : Bool) (c : List (BitVec 32)) (bs : List Byte) (o : Nat) (s : Scr 32) (b : Nat) :
    On b (tMd5Block .input u c bs o s) fun v l m => v.2.1 = o + 64 ∧ l.Perm (List.range' (b + o) 64) ∧ m = [] := by
  unfold tMd5Block
  refine On.step (Quiet.copy (by decide) (by decide)) fun _ _ => On.ite (fun _ => ?_) fun _ => ?_
  · refine On.bind (tLoadUnrolled_on (ws := 4) (by unfold LoadsWord; decide) rfl rfl bs o _) fun v l m hv => ?_
    obtain ⟨hl, rfl⟩ := hv
    refine On.step (Quiet.runTable (fun _ _ => tMd5MacroRound_quiet _ _ _) _ _) fun _ _ =>
      On.step (tAddUnrolled_quiet _ _ _) fun _ _ => On.pure' ⟨rfl, ?_, rfl⟩
    rw [List.append_nil]; exact hl
  · refine On.bind (tLoadLoop_on (ws := 4) (by unfold LoadsWord; decide) bs o _) fun v l m hv => ?_
    obtain ⟨off, vals⟩ := v
    obtain ⟨ho, hl, rfl⟩ := hv
    refine On.step (Quiet.forLoop (fun _ _ => tMd5LoopRound_quiet _ _ _) _ _ _) fun _ _ =>
      On.step (tAddLoop_quiet _ _ _) fun _ _ => On.pure' ⟨ho, ?_, rfl⟩
    rw [List.append_nil]; exact hl

theorem talgOf_once (k : Kind) : (talgOf k).Once := by
  cases k
  · exact ⟨fun u c bs o s b => tMd5Block_on u c bs o s b, fun u c bs o s => tMd5Block_quiet (by decide) u c bs o s⟩
  · exact ⟨fun u c bs o s b => tSha1Block_on u c bs o s b, fun u c bs o s => tSha1Block_quiet (by decide) u c bs o s⟩
  · exact ⟨fun u c bs o s b => tSha2Block_on sha224P (by unfold LoadsWord; decide) (by unfold LoadsWord; decide) rfl rfl rfl u c bs o s b, fun u c bs o s => tSha2Block_quiet _ (by decide) u c bs o s⟩
  · exact ⟨fun u c bs o s b => tSha2Block_on sha256P (by unfold LoadsWord; decide) (by unfold LoadsWord; decide) rfl rfl rfl u c bs o s b, fun u c bs o s => tSha2Block_quiet _ (by decide) u c bs o s⟩
  · exact ⟨fun u c bs o s b => tSha2Block_on sha512P (by unfold LoadsWord; decide) (by unfold LoadsWord; decide) rfl rfl rfl u c bs o s b, fun u c bs o s => tSha2Block_quiet _ (by decide) u c bs o s⟩

end Model
