import Verif.Model.TraceApi
/-! The model with observations computes what the model without them computes, and two runs that agree in sizes make the same observations: the transforms of one block. -/

namespace Model

/-! ## Algebra -/

namespace Tr

@[ext] theorem ext {α} {x y : Tr α} (h : x.trace = y.trace) (h' : x.res = y.res) : x = y := by
  cases x; cases y; cases h; cases h'; rfl

@[simp] theorem bind_res {α β} (x : Tr α) (f : α → Tr β) : (x >>= f).res = x.res >>= fun a => (f a).res := by
  change (Tr.bind x f).res = _
  unfold Tr.bind
  cases x.res <;> rfl

theorem bind_trace {α β} (x : Tr α) (f : α → Tr β) : (x >>= f).trace = x.trace ++ match x.res with | .ok a => (f a).trace | _ => [] := by
  change (Tr.bind x f).trace = _
  unfold Tr.bind
  cases x.res <;> simp

@[simp] theorem pure_res {α} (a : α) : (pure a : Tr α).res = .ok a := rfl
@[simp] theorem ub_res {α} : (ub : Tr α).res = .ub := rfl
@[simp] theorem diverge_res {α} : (diverge : Tr α).res = .diverge := rfl
@[simp] theorem ite_res {α} (p : Prop) [Decidable p] (x y : Tr α) : (if p then x else y).res = if p then x.res else y.res := by split <;> rfl

theorem bind_assoc {α β γ} (x : Tr α) (f : α → Tr β) (g : β → Tr γ) : (x >>= f) >>= g = x >>= fun a => f a >>= g := by
  refine Tr.ext ?_ ?_
  · rw [bind_trace, bind_trace, bind_trace, bind_res]
    cases x.res with
    | ok a => simp [bind_trace]
    | ub => simp
    | diverge => simp
  · simp only [bind_res, Res.bind_assoc]

@[simp] theorem pure_bind {α β} (a : α) (f : α → Tr β) : (pure a >>= f) = f a := by
  refine Tr.ext ?_ rfl
  rw [bind_trace]; rfl

end Tr

theorem Res.bind_congr {α β} {x : Res α} {f g : α → Res β} (h : ∀ a, f a = g a) : (x >>= f) = (x >>= g) := by
  cases x with
  | ok a => exact h a
  | ub => rfl
  | diverge => rfl

@[simp] theorem tRd_res {α} (n : Arr) (a : List α) (i : Nat) : (tRd n a i).res = rd a i := rfl
@[simp] theorem tWr_res {α} (n : Arr) (a : List α) (i : Nat) (v : α) : (tWr n a i v).res = wr a i v := rfl
@[simp] theorem tCopy_res {α} (nd ns : Arr) (d s : List α) (i j n : Nat) : (tCopy nd d i ns s j n).res = memCopy d i s j n := rfl
@[simp] theorem tSet_res {α} (nd : Arr) (d : List α) (i : Nat) (v : α) (n : Nat) : (tSet nd d i v n).res = memSet d i v n := rfl
@[simp] theorem tBranch_res (p : Prop) [Decidable p] : (tBranch p).res = .ok (decide p) := rfl
@[simp] theorem tRotl_res {w} (x : BitVec w) (n : Nat) : (tRotl x n).res = cRotl x n := rfl
@[simp] theorem tRotr_res {w} (x : BitVec w) (n : Nat) : (tRotr x n).res = cRotr x n := rfl
@[simp] theorem tShr_res {w} (x : BitVec w) (n : Nat) : (tShr x n).res = cShr x n := rfl
@[simp] theorem tRdSub_res {α} (n : Arr) (a : List α) (i k : Nat) : (tRdSub n a i k).res = rdSub a i k := rfl
@[simp] theorem tPtrAt_res {α} (a : List α) (i : Nat) : (tPtrAt a i).res = ptrAt a i := rfl
@[simp] theorem tZeroCtx_res {w} (A : Alg w) : (tZeroCtx A).res = .ok (zeroCtx A) := rfl
@[simp] theorem tNull_res {α} (p : Option α) : (tNull p).res = .ok () := rfl

theorem tForCount_res {σ} {f : Nat → σ → Tr σ} {g : Nat → σ → Res σ} (h : ∀ i s, (f i s).res = g i s) : ∀ n i s, (tForCount f i n s).res = forCount g i n s
  | 0, _, _ => rfl
  | n + 1, i, s => by
    rw [tForCount, forCount, Tr.bind_res]
    change (f i s >>= _).res = _
    rw [Tr.bind_res, h]
    exact Res.bind_congr fun a => tForCount_res h n (i + 1) a

theorem tForLoop_res {σ} {f : Nat → σ → Tr σ} {g : Nat → σ → Res σ} (h : ∀ i s, (f i s).res = g i s) (lo hi : Nat) (s : σ) : (tForLoop lo hi f s).res = forLoop lo hi g s :=
  tForCount_res h _ _ _

theorem tRunTable_res {ρ σ} {f : ρ → σ → Tr σ} {g : ρ → σ → Res σ} (h : ∀ r s, (f r s).res = g r s) : ∀ rs s, (tRunTable f rs s).res = runTable g rs s
  | [], _ => rfl
  | r :: rs, s => by
    rw [tRunTable, runTable, Tr.bind_res, h]
    exact Res.bind_congr fun a => tRunTable_res h rs a

@[simp] theorem tRunLoad_res {w} (n : Arr) (prog : List LoadStep) (bs : List Byte) (off : Nat) (v : BitVec w) : (tRunLoad n prog bs off v).res = runLoad prog bs off v :=
  tRunTable_res (fun r s => by cases r <;> simp [tLoadStep, loadStep]) _ _

@[simp] theorem tRunStore_res {w} (n : Arr) (prog : List (Nat × Nat)) (bs : List Byte) (off : Nat) (v : BitVec w) : (tRunStore n prog bs off v).res = runStore prog bs off v :=
  tRunTable_res (fun r s => by simp) _ _

@[simp] theorem tLoadLoop_res {w} (n : Arr) (prog : List LoadStep) (ws : Nat) (buf : List Byte) (off : Nat) (vals : List (BitVec w)) :
    (tLoadLoop n prog ws buf off vals).res = loadLoop prog ws buf off vals := tForLoop_res (fun i s => by simp) _ _ _

@[simp] theorem tLoadUnrolled_res {w} (n : Arr) (prog : List LoadStep) (sh : Nat) (rows : List Nat) (buf : List Byte) (off : Nat) (vals : List (BitVec w)) :
    (tLoadUnrolled n prog sh rows buf off vals).res = loadUnrolled prog sh rows buf off vals := tRunTable_res (fun i s => by simp) _ _

@[simp] theorem tAddLoop_res {w} (n : Nat) (c hv : List (BitVec w)) : (tAddLoop n c hv).res = addLoop n c hv := tForLoop_res (fun i s => by simp) _ _ _

@[simp] theorem tAddUnrolled_res {w} (rows : List (Nat × Nat)) (c hv : List (BitVec w)) : (tAddUnrolled rows c hv).res = addUnrolled rows c hv :=
  tRunTable_res (fun i s => by simp) _ _

@[simp] theorem tSha2Ext_res {w} (x : BitVec w) (r : Nat × Nat × Nat) : (tSha2Ext x r).res = sha2Ext x r := by simp [tSha2Ext, sha2Ext]
@[simp] theorem tSha2Sig_res {w} (x : BitVec w) (r : Nat × Nat × Nat) : (tSha2Sig x r).res = sha2Sig x r := by simp [tSha2Sig, sha2Sig]
@[simp] theorem tSha2Extend_res {w} (P : Sha2P w) (i : Nat) (v : List (BitVec w)) : (tSha2Extend P i v).res = sha2Extend P i v := by simp [tSha2Extend, sha2Extend]
@[simp] theorem tSha2MacroRound_res {w} (P : Sha2P w) (v : List (BitVec w)) (r : Nat × Nat × Nat × Nat × Nat × Nat × Nat × Nat × Nat) (h : List (BitVec w)) :
    (tSha2MacroRound P v r h).res = sha2MacroRound P v r h := by
  obtain ⟨t, i0, i1, i2, i3, i4, i5, i6, i7⟩ := r
  simp [tSha2MacroRound, sha2MacroRound]
@[simp] theorem tSha2LoopRound_res {w} (P : Sha2P w) (v : List (BitVec w)) (t : Nat) (h : List (BitVec w)) : (tSha2LoopRound P v t h).res = sha2LoopRound P v t h := by
  simp [tSha2LoopRound, sha2LoopRound]

theorem tSha2Block_res {w} (P : Sha2P w) (n : Arr) (u : Bool) (c : List (BitVec w)) (buf : List Byte) (off : Nat) (scr : Scr w) :
    (tSha2Block P n u c buf off scr).res = sha2Block P u c buf off scr := by
  unfold tSha2Block sha2Block
  cases u
  · simp
    refine Res.bind_congr fun hv => Res.bind_congr fun x => ?_
    obtain ⟨off, vals⟩ := x
    simp [tForLoop_res (tSha2Extend_res P), tForLoop_res (tSha2LoopRound_res P _)]
  · simp [tRunTable_res (tSha2Extend_res P), tRunTable_res (tSha2MacroRound_res P _)]

@[simp] theorem tSha1Extend_res (i : Nat) (v : List (BitVec 32)) : (tSha1Extend i v).res = sha1Extend i v := by simp [tSha1Extend, sha1Extend]
@[simp] theorem tSha1MacroRound_res (v : List (BitVec 32)) (r : Nat × Nat × Nat × Nat × Nat × Nat × Nat) (h : List (BitVec 32)) : (tSha1MacroRound v r h).res = sha1MacroRound v r h := by
  obtain ⟨r, t, i0, i1, i2, i3, i4⟩ := r
  simp [tSha1MacroRound, sha1MacroRound]
@[simp] theorem tSha1LoopRound_res (v : List (BitVec 32)) (t : Nat) (h : List (BitVec 32)) : (tSha1LoopRound v t h).res = sha1LoopRound v t h := by
  unfold tSha1LoopRound sha1LoopRound
  by_cases h20 : t < 20
  · simp [h20, Res.bind_assoc]
  by_cases h40 : t < 40
  · simp [h20, h40, Res.bind_assoc]
  by_cases h60 : t < 60
  · simp [h20, h40, h60, Res.bind_assoc]
  · simp [h20, h40, h60, Res.bind_assoc]

theorem tSha1Block_res (n : Arr) (u : Bool) (c : List (BitVec 32)) (buf : List Byte) (off : Nat) (scr : Scr 32) :
    (tSha1Block n u c buf off scr).res = sha1Block u c buf off scr := by
  unfold tSha1Block sha1Block
  cases u
  · simp
    refine Res.bind_congr fun hv => Res.bind_congr fun x => ?_
    obtain ⟨off, vals⟩ := x
    simp [tForLoop_res tSha1Extend_res, tForLoop_res (tSha1LoopRound_res _)]
  · simp [tRunTable_res tSha1Extend_res, tRunTable_res (tSha1MacroRound_res _)]

@[simp] theorem tMd5MacroRound_res (v : List (BitVec 32)) (r : Nat × Nat × Nat × Nat × Nat × Nat × Nat) (h : List (BitVec 32)) : (tMd5MacroRound v r h).res = md5MacroRound v r h := by
  obtain ⟨r, t, i0, i1, i2, i3, i4⟩ := r
  simp [tMd5MacroRound, md5MacroRound]
@[simp] theorem tMd5LoopRound_res (v : List (BitVec 32)) (t : Nat) (h : List (BitVec 32)) : (tMd5LoopRound v t h).res = md5LoopRound v t h := by
  unfold tMd5LoopRound md5LoopRound
  by_cases h16 : t < 16
  · simp [h16, Res.bind_assoc]
  by_cases h32 : t < 32
  · simp [h16, h32, Res.bind_assoc]
  by_cases h48 : t < 48
  · simp [h16, h32, h48, Res.bind_assoc]
  · simp [h16, h32, h48, Res.bind_assoc]

theorem tMd5Block_res (n : Arr) (u : Bool) (c : List (BitVec 32)) (buf : List Byte) (off : Nat) (scr : Scr 32) :
    (tMd5Block n u c buf off scr).res = md5Block u c buf off scr := by
  unfold tMd5Block md5Block
  cases u
  · simp
    refine Res.bind_congr fun hv => Res.bind_congr fun x => ?_
    obtain ⟨off, vals⟩ := x
    simp [tForLoop_res (tMd5LoopRound_res _)]
  · simp [tRunTable_res (tMd5MacroRound_res _)]

/-! ## Two runs -/

/-- Outcomes of the same kind, with related values. -/
def RelRes {α β} (R : α → β → Prop) : Res α → Res β → Prop
  | .ok a, .ok b => R a b
  | .ub, .ub => True
  | .diverge, .diverge => True
  | _, _ => False

/-- Two runs: the same observations, outcomes of the same kind, related values. -/
def Low {α β} (R : α → β → Prop) (x : Tr α) (y : Tr β) : Prop := x.trace = y.trace ∧ RelRes R x.res y.res

/-- Lists of the same length. -/
def SameLen {α β} (a : List α) (b : List β) : Prop := a.length = b.length

/-- Any two values. -/
def Any {α β} (_ : α) (_ : β) : Prop := True

/-- Componentwise. -/
def Both {α β γ δ} (R : α → β → Prop) (S : γ → δ → Prop) (p : α × γ) (q : β × δ) : Prop := R p.1 q.1 ∧ S p.2 q.2

namespace Low

variable {α β γ δ : Type}

theorem refl (x : Tr α) : Low Eq x x := by
  refine ⟨rfl, ?_⟩
  cases x.res <;> simp [RelRes]

theorem mono {R S : α → β → Prop} {x : Tr α} {y : Tr β} (h : Low R x y) (k : ∀ a b, R a b → S a b) : Low S x y := by
  refine ⟨h.1, ?_⟩
  have h2 := h.2
  revert h2
  cases x.res <;> cases y.res <;> simp [RelRes] <;> exact k _ _

theorem ok {R : α → β → Prop} {a : α} {b : β} (t : List Obs) (h : R a b) : Low R ⟨t, .ok a⟩ ⟨t, .ok b⟩ := ⟨rfl, h⟩

theorem pure' {R : α → β → Prop} {a : α} {b : β} (h : R a b) : Low R (pure a) (pure b) := ⟨rfl, h⟩

theorem ub' {R : α → β → Prop} : Low R Tr.ub Tr.ub := ⟨rfl, trivial⟩

theorem diverge' {R : α → β → Prop} : Low R Tr.diverge Tr.diverge := ⟨rfl, trivial⟩

theorem bind {R : α → β → Prop} {S : γ → δ → Prop} {x : Tr α} {y : Tr β} {f : α → Tr γ} {g : β → Tr δ} (h : Low R x y) (k : ∀ a b, R a b → Low S (f a) (g b)) :
    Low S (x >>= f) (y >>= g) := by
  unfold Low
  rw [Tr.bind_trace, Tr.bind_trace, Tr.bind_res, Tr.bind_res, h.1]
  have h2 := h.2
  revert h2
  cases x.res <;> cases y.res <;> simp [RelRes]
  rename_i a b
  intro h2
  exact k a b h2

theorem rd {n : Arr} {a : List α} {b : List β} {i : Nat} (h : SameLen a b) : Low Any (tRd n a i) (tRd n b i) := by
  refine ⟨rfl, ?_⟩
  unfold SameLen at h
  simp only [tRd_res, _root_.rd]
  by_cases k : i < a.length
  · rw [List.getElem?_eq_getElem k, List.getElem?_eq_getElem (h ▸ k)]; trivial
  · rw [List.getElem?_eq_none (by omega), List.getElem?_eq_none (by omega)]; trivial

theorem wr {n : Arr} {a : List α} {b : List β} {i : Nat} {v : α} {v' : β} (h : SameLen a b) : Low SameLen (tWr n a i v) (tWr n b i v') := by
  refine ⟨rfl, ?_⟩
  unfold SameLen at h
  simp only [tWr_res, _root_.wr]
  by_cases k : i < a.length
  · rw [if_pos k, if_pos (h ▸ k)]; simp [RelRes, SameLen, h]
  · rw [if_neg k, if_neg (h ▸ k)]; trivial

theorem rdSub {n : Arr} {a : List α} {b : List β} {i k : Nat} (h : SameLen a b) : Low Any (tRdSub n a i k) (tRdSub n b i k) := by
  refine ⟨rfl, ?_⟩
  simp only [tRdSub_res, Model.rdSub]
  split
  · exact (rd (n := n) (i := i - k) h).2
  · trivial

theorem ptrAt {a : List α} {b : List β} {i : Nat} (h : SameLen a b) : Low SameLen (tPtrAt a i) (tPtrAt b i) := by
  refine ⟨rfl, ?_⟩
  unfold SameLen at h
  simp only [tPtrAt_res, Model.ptrAt, h]
  split
  · simp [RelRes, SameLen, h]
  · trivial

theorem copy {nd ns : Arr} {d s : List α} {d' s' : List β} {i j n : Nat} (h : SameLen d d') (k : SameLen s s') : Low SameLen (tCopy nd d i ns s j n) (tCopy nd d' i ns s' j n) := by
  refine ⟨rfl, ?_⟩
  unfold SameLen at h k
  simp only [tCopy_res, memCopy, h, k]
  split
  · simp [RelRes, SameLen, h, k]
  · trivial

theorem set {nd : Arr} {d : List α} {d' : List β} {i n : Nat} {v : α} {v' : β} (h : SameLen d d') : Low SameLen (tSet nd d i v n) (tSet nd d' i v' n) := by
  refine ⟨rfl, ?_⟩
  unfold SameLen at h
  simp only [tSet_res, memSet, h]
  split
  · simp [RelRes, SameLen, h]
  · trivial

theorem rotl {w} {x y : BitVec w} {n : Nat} : Low Any (tRotl x n) (tRotl y n) := by
  refine ⟨rfl, ?_⟩
  simp only [tRotl_res, cRotl]
  split <;> trivial

theorem rotr {w} {x y : BitVec w} {n : Nat} : Low Any (tRotr x n) (tRotr y n) := by
  refine ⟨rfl, ?_⟩
  simp only [tRotr_res, cRotr]
  split <;> trivial

theorem shr {w} {x y : BitVec w} {n : Nat} : Low Any (tShr x n) (tShr y n) := by
  refine ⟨rfl, ?_⟩
  simp only [tShr_res, cShr]
  split <;> trivial

theorem branch {p q : Prop} [Decidable p] [Decidable q] (h : p ↔ q) : Low Eq (tBranch p) (tBranch q) := by
  have : decide p = decide q := by simp [h]
  unfold tBranch
  rw [this]
  exact refl _

theorem ite' {R : α → β → Prop} {p q : Prop} [Decidable p] [Decidable q] {a b : Tr α} {c d : Tr β} (h : p ↔ q) (k : q → Low R a c) (l : ¬q → Low R b d) :
    Low R (tBranch p >>= fun x => if x = true then a else b) (tBranch q >>= fun x => if x = true then c else d) := by
  refine bind (R := fun x y => x = y ∧ y = decide q) ⟨(branch h).1, ?_, rfl⟩ fun x y e => ?_
  · simp [h]
  · obtain ⟨rfl, e⟩ := e
    rw [e]
    by_cases hq : q
    · simpa [hq] using k hq
    · simpa [hq] using l hq

theorem null {a : Option α} {b : Option β} (h : a.isNone = b.isNone) : Low Any (tNull a) (tNull b) := by
  unfold tNull
  rw [h]
  exact ⟨rfl, trivial⟩

theorem forCount {R : α → β → Prop} {f : Nat → α → Tr α} {g : Nat → β → Tr β} (h : ∀ i s t, R s t → Low R (f i s) (g i t)) : ∀ n i s t, R s t → Low R (tForCount f i n s) (tForCount g i n t)
  | 0, _, _, _, k => ok _ k
  | n + 1, i, s, t, k => by
    rw [tForCount, tForCount]
    exact bind (refl _) fun _ _ _ => bind (h i s t k) fun a b r => forCount h n (i + 1) a b r

theorem forLoop {R : α → β → Prop} {f : Nat → α → Tr α} {g : Nat → β → Tr β} (lo hi : Nat) (h : ∀ i s t, R s t → Low R (f i s) (g i t)) {s : α} {t : β} (k : R s t) :
    Low R (tForLoop lo hi f s) (tForLoop lo hi g t) := forCount h _ _ _ _ k

theorem table {ρ} {R : α → β → Prop} {f : ρ → α → Tr α} {g : ρ → β → Tr β} (h : ∀ r s t, R s t → Low R (f r s) (g r t)) : ∀ (rs : List ρ) {s t}, R s t → Low R (tRunTable f rs s) (tRunTable g rs t)
  | [], _, _, k => pure' k
  | r :: rs, s, t, k => by
    rw [tRunTable, tRunTable]
    exact bind (h r s t k) fun a b q => table h rs q

end Low

/-- One statement of straight-line code on arrays. -/
macro "low1" : tactic => `(tactic| first
  | refine Low.bind (Low.rd (by assumption)) fun _ _ _ => ?_
  | refine Low.bind (Low.wr (by assumption)) fun _ _ _ => ?_
  | refine Low.bind (Low.rdSub (by assumption)) fun _ _ _ => ?_
  | refine Low.bind Low.rotl fun _ _ _ => ?_
  | refine Low.bind Low.rotr fun _ _ _ => ?_
  | refine Low.bind Low.shr fun _ _ _ => ?_
  | exact Low.wr (by assumption)
  | (refine Low.bind (R := Eq) (by with_reducible exact Low.refl _) ?_; rintro _ _ ⟨⟩))

/-- Straight-line code on arrays. -/
macro "lows" : tactic => `(tactic| ((try simp only [Tr.bind_assoc]); repeat low1))

theorem tRunLoad_low {w} {n : Arr} {prog : List LoadStep} {bs bs' : List Byte} {off : Nat} {v v' : BitVec w} (h : SameLen bs bs') :
    Low Any (tRunLoad n prog bs off v) (tRunLoad n prog bs' off v') := by
  refine Low.table (fun r s t _ => ?_) _ trivial
  cases r with
  | set i => exact Low.bind (Low.rd h) fun _ _ _ => Low.pure' trivial
  | or i => exact Low.bind (Low.rd h) fun _ _ _ => Low.pure' trivial
  | shl8 => exact Low.ok _ trivial

theorem tRunStore_low {w} {n : Arr} {prog : List (Nat × Nat)} {bs bs' : List Byte} {off : Nat} {v v' : BitVec w} (h : SameLen bs bs') :
    Low SameLen (tRunStore n prog bs off v) (tRunStore n prog bs' off v') := by
  refine Low.table (fun r s t h => ?_) _ h
  split
  · exact Low.bind (Low.refl _) fun _ _ _ => Low.wr h
  · exact Low.ub'

theorem tLoadLoop_low {w} {n : Arr} {prog : List LoadStep} {ws : Nat} {buf buf' : List Byte} {off : Nat} {v v' : List (BitVec w)} (h : SameLen buf buf') (k : SameLen v v') :
    Low (Both Eq SameLen) (tLoadLoop n prog ws buf off v) (tLoadLoop n prog ws buf' off v') := by
  refine Low.forLoop _ _ (fun i s t r => ?_) ⟨rfl, k⟩
  obtain ⟨o, s⟩ := s
  obtain ⟨_, t⟩ := t
  obtain ⟨rfl, r⟩ := r
  exact Low.bind (Low.rd r) fun _ _ _ => Low.bind (tRunLoad_low h) fun _ _ _ => Low.bind (Low.wr r) fun _ _ q => Low.pure' ⟨rfl, q⟩

theorem tLoadUnrolled_low {w} {n : Arr} {prog : List LoadStep} {sh : Nat} {rows : List Nat} {buf buf' : List Byte} {off : Nat} {v v' : List (BitVec w)} (h : SameLen buf buf') (k : SameLen v v') :
    Low SameLen (tLoadUnrolled n prog sh rows buf off v) (tLoadUnrolled n prog sh rows buf' off v') := by
  refine Low.table (fun i s t r => ?_) _ k
  exact Low.bind (Low.rd r) fun _ _ _ => Low.bind (tRunLoad_low h) fun _ _ _ => Low.wr r

theorem tAddLoop_low {w} {n : Nat} {c c' hv hv' : List (BitVec w)} (h : SameLen c c') (k : SameLen hv hv') : Low SameLen (tAddLoop n c hv) (tAddLoop n c' hv') := by
  refine Low.forLoop _ _ (fun i s t r => ?_) h
  lows

theorem tAddUnrolled_low {w} {rows : List (Nat × Nat)} {c c' hv hv' : List (BitVec w)} (h : SameLen c c') (k : SameLen hv hv') : Low SameLen (tAddUnrolled rows c hv) (tAddUnrolled rows c' hv') := by
  refine Low.table (fun i s t r => ?_) _ h
  lows

theorem tSha2Ext_low {w} {x y : BitVec w} {r : Nat × Nat × Nat} : Low Any (tSha2Ext x r) (tSha2Ext y r) := by
  unfold tSha2Ext
  lows
  exact Low.pure' trivial

theorem tSha2Sig_low {w} {x y : BitVec w} {r : Nat × Nat × Nat} : Low Any (tSha2Sig x r) (tSha2Sig y r) := by
  unfold tSha2Sig
  lows
  exact Low.pure' trivial

theorem tSha2Extend_low {w} {P : Sha2P w} {i : Nat} {v v' : List (BitVec w)} (h : SameLen v v') : Low SameLen (tSha2Extend P i v) (tSha2Extend P i v') := by
  unfold tSha2Extend
  lows
  refine Low.bind tSha2Ext_low fun _ _ _ => ?_
  lows
  refine Low.bind tSha2Ext_low fun _ _ _ => ?_
  lows

theorem tSha2MacroRound_low {w} {P : Sha2P w} {v v' : List (BitVec w)} (hv : SameLen v v') (r : Nat × Nat × Nat × Nat × Nat × Nat × Nat × Nat × Nat) {h h' : List (BitVec w)} (hh : SameLen h h') :
    Low SameLen (tSha2MacroRound P v r h) (tSha2MacroRound P v' r h') := by
  obtain ⟨t, i0, i1, i2, i3, i4, i5, i6, i7⟩ := r
  unfold tSha2MacroRound
  lows
  refine Low.bind tSha2Sig_low fun _ _ _ => ?_
  lows
  refine Low.bind tSha2Sig_low fun _ _ _ => ?_
  lows

theorem tSha2LoopRound_low {w} {P : Sha2P w} {v v' : List (BitVec w)} (hv : SameLen v v') (t : Nat) {h h' : List (BitVec w)} (hh : SameLen h h') :
    Low SameLen (tSha2LoopRound P v t h) (tSha2LoopRound P v' t h') := by
  unfold tSha2LoopRound
  lows
  refine Low.bind tSha2Sig_low fun _ _ _ => ?_
  lows
  refine Low.bind tSha2Sig_low fun _ _ _ => ?_
  lows

/-- The stack arrays of the transform have the same sizes. -/
def ScrLow {w} (s t : Scr w) : Prop := SameLen s.hv t.hv ∧ SameLen s.vals t.vals

/-- Results of a block function. -/
abbrev BlockLow {w} : List (BitVec w) × Nat × Scr w → List (BitVec w) × Nat × Scr w → Prop := Both SameLen (Both Eq ScrLow)

theorem tSha2Block_low {w} {P : Sha2P w} {n : Arr} {u : Bool} {c c' : List (BitVec w)} {buf buf' : List Byte} {off : Nat} {s s' : Scr w}
    (hc : SameLen c c') (hb : SameLen buf buf') (hs : ScrLow s s') : Low BlockLow (tSha2Block P n u c buf off s) (tSha2Block P n u c' buf' off s') := by
  unfold tSha2Block
  refine Low.bind (Low.copy hs.1 hc) fun hv hv' h => ?_
  cases u
  · simp only [Bool.false_eq_true, if_false]
    refine Low.bind (tLoadLoop_low hb hs.2) fun x y h1 => ?_
    obtain ⟨o, v⟩ := x
    obtain ⟨o', v'⟩ := y
    obtain ⟨e, h1⟩ := h1
    change o = o' at e
    subst e
    refine Low.bind (Low.forLoop _ _ (R := SameLen) (fun i _ _ h => tSha2Extend_low (i := i) h) h1) fun v v' h2 => ?_
    refine Low.bind (Low.forLoop _ _ (fun i _ _ => tSha2LoopRound_low h2 i) h) fun hv hv' h3 => ?_
    refine Low.bind (tAddLoop_low hc h3) fun c c' h4 => ?_
    exact Low.pure' ⟨h4, rfl, h3, h2⟩
  · simp only [if_true]
    refine Low.bind (tLoadUnrolled_low hb hs.2) fun v v' h1 => ?_
    refine Low.bind (Low.table (R := SameLen) (fun i _ _ h => tSha2Extend_low (i := i) h) _ h1) fun v v' h2 => ?_
    refine Low.bind (Low.table (fun i _ _ => tSha2MacroRound_low h2 i) _ h) fun hv hv' h3 => ?_
    refine Low.bind (tAddUnrolled_low hc h3) fun c c' h4 => ?_
    exact Low.pure' ⟨h4, rfl, h3, h2⟩

theorem tSha1Extend_low {i : Nat} {v v' : List (BitVec 32)} (h : SameLen v v') : Low SameLen (tSha1Extend i v) (tSha1Extend i v') := by
  unfold tSha1Extend
  lows

theorem tSha1MacroRound_low {v v' : List (BitVec 32)} (hv : SameLen v v') (r : Nat × Nat × Nat × Nat × Nat × Nat × Nat) {h h' : List (BitVec 32)} (hh : SameLen h h') :
    Low SameLen (tSha1MacroRound v r h) (tSha1MacroRound v' r h') := by
  obtain ⟨r, t, i0, i1, i2, i3, i4⟩ := r
  unfold tSha1MacroRound
  lows

theorem tSha1LoopRound_low {v v' : List (BitVec 32)} (hv : SameLen v v') (t : Nat) {h h' : List (BitVec 32)} (hh : SameLen h h') :
    Low SameLen (tSha1LoopRound v t h) (tSha1LoopRound v' t h') := by
  unfold tSha1LoopRound
  refine Low.bind (Low.rd hh) fun _ _ _ => Low.bind (Low.rd hh) fun _ _ _ => Low.bind (Low.rd hh) fun _ _ _ => Low.bind (Low.rd hh) fun _ _ _ => ?_
  refine Low.bind (R := SameLen) ?_ fun _ _ _ => ?_
  · refine Low.ite' Iff.rfl (fun _ => ?_) fun _ => ?_
    · lows
    refine Low.ite' Iff.rfl (fun _ => ?_) fun _ => ?_
    · lows
    refine Low.ite' Iff.rfl (fun _ => ?_) fun _ => ?_
    · lows
    · lows
  · lows

theorem tSha1Block_low {n : Arr} {u : Bool} {c c' : List (BitVec 32)} {buf buf' : List Byte} {off : Nat} {s s' : Scr 32}
    (hc : SameLen c c') (hb : SameLen buf buf') (hs : ScrLow s s') : Low BlockLow (tSha1Block n u c buf off s) (tSha1Block n u c' buf' off s') := by
  unfold tSha1Block
  refine Low.bind (Low.copy hs.1 hc) fun hv hv' h => ?_
  cases u
  · simp only [Bool.false_eq_true, if_false]
    refine Low.bind (tLoadLoop_low hb hs.2) fun x y h1 => ?_
    obtain ⟨o, v⟩ := x
    obtain ⟨o', v'⟩ := y
    obtain ⟨e, h1⟩ := h1
    change o = o' at e
    subst e
    refine Low.bind (Low.forLoop _ _ (R := SameLen) (fun i _ _ h => tSha1Extend_low (i := i) h) h1) fun v v' h2 => ?_
    refine Low.bind (Low.forLoop _ _ (fun i _ _ => tSha1LoopRound_low h2 i) h) fun hv hv' h3 => ?_
    refine Low.bind (tAddLoop_low hc h3) fun c c' h4 => ?_
    exact Low.pure' ⟨h4, rfl, h3, h2⟩
  · simp only [if_true]
    refine Low.bind (tLoadUnrolled_low hb hs.2) fun v v' h1 => ?_
    refine Low.bind (Low.table (R := SameLen) (fun i _ _ h => tSha1Extend_low (i := i) h) _ h1) fun v v' h2 => ?_
    refine Low.bind (Low.table (fun i _ _ => tSha1MacroRound_low h2 i) _ h) fun hv hv' h3 => ?_
    refine Low.bind (tAddUnrolled_low hc h3) fun c c' h4 => ?_
    exact Low.pure' ⟨h4, rfl, h3, h2⟩

theorem tMd5MacroRound_low {v v' : List (BitVec 32)} (hv : SameLen v v') (r : Nat × Nat × Nat × Nat × Nat × Nat × Nat) {h h' : List (BitVec 32)} (hh : SameLen h h') :
    Low SameLen (tMd5MacroRound v r h) (tMd5MacroRound v' r h') := by
  obtain ⟨r, t, i0, i1, i2, i3, i4⟩ := r
  unfold tMd5MacroRound
  lows

theorem tMd5LoopRound_low {v v' : List (BitVec 32)} (hv : SameLen v v') (t : Nat) {h h' : List (BitVec 32)} (hh : SameLen h h') :
    Low SameLen (tMd5LoopRound v t h) (tMd5LoopRound v' t h') := by
  unfold tMd5LoopRound
  refine Low.bind (Low.rd hh) fun _ _ _ => Low.bind (Low.rd hh) fun _ _ _ => Low.bind (Low.rd hh) fun _ _ _ => Low.bind (Low.rd hh) fun _ _ _ => ?_
  refine Low.bind (R := SameLen) ?_ fun _ _ _ => ?_
  · refine Low.ite' Iff.rfl (fun _ => ?_) fun _ => ?_
    · lows
    refine Low.ite' Iff.rfl (fun _ => ?_) fun _ => ?_
    · lows
    refine Low.ite' Iff.rfl (fun _ => ?_) fun _ => ?_
    · lows
    · lows
  · lows

theorem tMd5Block_low {n : Arr} {u : Bool} {c c' : List (BitVec 32)} {buf buf' : List Byte} {off : Nat} {s s' : Scr 32}
    (hc : SameLen c c') (hb : SameLen buf buf') (hs : ScrLow s s') : Low BlockLow (tMd5Block n u c buf off s) (tMd5Block n u c' buf' off s') := by
  unfold tMd5Block
  refine Low.bind (Low.copy hs.1 hc) fun hv hv' h => ?_
  cases u
  · simp only [Bool.false_eq_true, if_false]
    refine Low.bind (tLoadLoop_low hb hs.2) fun x y h1 => ?_
    obtain ⟨o, v⟩ := x
    obtain ⟨o', v'⟩ := y
    obtain ⟨e, h1⟩ := h1
    change o = o' at e
    subst e
    refine Low.bind (Low.forLoop _ _ (fun i _ _ => tMd5LoopRound_low h1 i) h) fun hv hv' h3 => ?_
    refine Low.bind (tAddLoop_low hc h3) fun c c' h4 => ?_
    exact Low.pure' ⟨h4, rfl, h3, h1⟩
  · simp only [if_true]
    refine Low.bind (tLoadUnrolled_low hb hs.2) fun v v' h1 => ?_
    refine Low.bind (Low.table (fun i _ _ => tMd5MacroRound_low h1 i) _ h) fun hv hv' h3 => ?_
    refine Low.bind (tAddUnrolled_low hc h3) fun c c' h4 => ?_
    exact Low.pure' ⟨h4, rfl, h3, h1⟩

end Model
