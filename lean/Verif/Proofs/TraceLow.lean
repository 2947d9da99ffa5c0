import Mathlib.Data.List.Forall2
import Verif.Proofs.TraceErase
/-! Two runs of the API functions whose inputs and memories agree except in contents make the same observations. -/

namespace Model

open Spec (ApiCall Reply Kind)

/-- Related options: both NULL, or both present and related. -/
def OptLow {α β} (R : α → β → Prop) : Option α → Option β → Prop
  | none, none => True
  | some a, some b => R a b
  | _, _ => False

/-- Contexts with the same counters; the hash values and the buffered bytes may differ. -/
def CtxLow {w} (c d : Ctx w) : Prop := c.hashCount = d.hashCount ∧ c.blockOffset = d.blockOffset ∧ SameLen c.hashValues d.hashValues ∧ SameLen c.block d.block

/-- Heap objects of the same kind and size. -/
def ObjLow {w} : Obj w → Obj w → Prop
  | .ctx c, .ctx d => CtxLow c d
  | .bytes b, .bytes b' => SameLen b b'
  | _, _ => False

/-- Memories that agree except in contents: as much caller memory, as many allocations so far, and live objects at the same addresses, of the same kind and size.
The log of freed objects may differ. -/
def StLow {w} (s t : St w) : Prop := SameLen s.caller t.caller ∧ s.count = t.count ∧ List.Forall₂ (Both Eq ObjLow) s.live t.live

/-- Environments in which the same allocations succeed; fresh memory may differ in contents. -/
def EnvLow {w} (e f : Env w) : Prop := (∀ n, e.allocOk n = f.allocOk n) ∧ ScrLow e.scr f.scr

/-- The block function makes the same observations for inputs of the same size. -/
def TAlg.Blind {w} (T : TAlg w) : Prop := ∀ n u c c' b b' o s s', SameLen c c' → SameLen b b' → ScrLow s s' → Low BlockLow (T.blockFn n u c b o s) (T.blockFn n u c' b' o s')

theorem talgOf_blind (k : Kind) : (talgOf k).Blind := by
  cases k
  · exact fun n u c c' b b' o s s' h1 h2 h3 => tMd5Block_low h1 h2 h3
  · exact fun n u c c' b b' o s s' h1 h2 h3 => tSha1Block_low h1 h2 h3
  · exact fun n u c c' b b' o s s' h1 h2 h3 => tSha2Block_low h1 h2 h3
  · exact fun n u c c' b b' o s s' h1 h2 h3 => tSha2Block_low h1 h2 h3
  · exact fun n u c c' b b' o s s' h1 h2 h3 => tSha2Block_low h1 h2 h3

variable {w : Nat} {T : TAlg w}

theorem OptLow.isNone {α β} {R : α → β → Prop} {a : Option α} {b : Option β} (h : OptLow R a b) : a.isNone = b.isNone := by
  cases a <;> cases b <;> first | rfl | exact h.elim

theorem CtxLow.refl (c : Ctx w) : CtxLow c c := ⟨rfl, rfl, rfl, rfl⟩

/-! ## Context functions -/

theorem tCtxInitialize_low (A : Alg w) {a a' : Option (Ctx w)} {c c' : Option (Option (Ctx w))} (ha : a.isNone = a'.isNone) (hc : OptLow (OptLow CtxLow) c c') :
    Low (Both Eq (OptLow (OptLow CtxLow))) (tCtxInitialize A a c) (tCtxInitialize A a' c') := by
  unfold tCtxInitialize
  refine Low.bind (Low.null hc.isNone) fun _ _ _ => ?_
  rcases c with _ | _ | c <;> rcases c' with _ | _ | c' <;> try exact hc.elim
  · exact Low.pure' ⟨rfl, trivial⟩
  · refine Low.bind (Low.null rfl) fun _ _ _ => Low.bind (Low.null ha) fun _ _ _ => ?_
    cases a <;> cases a' <;> try simp at ha
    · exact Low.pure' ⟨rfl, trivial⟩
    · refine Low.bind (Low.refl (tZeroCtx A)) ?_
      rintro z _ ⟨⟩
      exact Low.bind (Low.copy rfl rfl) fun x y h => Low.pure' ⟨rfl, rfl, rfl, h, rfl⟩
  · exact Low.bind (Low.null rfl) fun _ _ _ => Low.pure' ⟨rfl, hc⟩

theorem tTransformLoop_low (hT : T.Blind) (n : Arr) (u : Bool) {b b' : List Byte} (hb : SameLen b b') : ∀ fuel size off hv hv' scr scr', SameLen hv hv' → ScrLow scr scr' →
    Low BlockLow (tTransformLoop T n u b fuel size off hv scr) (tTransformLoop T n u b' fuel size off hv' scr') := by
  intro fuel
  induction fuel with
  | zero =>
    intro size off hv hv' scr scr' h1 h2
    rw [tTransformLoop, tTransformLoop]
    exact Low.ite' Iff.rfl (fun _ => Low.diverge') fun _ => Low.pure' ⟨h1, rfl, h2⟩
  | succ fuel ih =>
    intro size off hv hv' scr scr' h1 h2
    rw [tTransformLoop, tTransformLoop]
    refine Low.ite' Iff.rfl (fun _ => ?_) fun _ => Low.pure' ⟨h1, rfl, h2⟩
    refine Low.bind (hT n u hv hv' b b' off scr scr' h1 hb h2) fun x y h => ?_
    obtain ⟨hv, o, s⟩ := x
    obtain ⟨hv', o', s'⟩ := y
    obtain ⟨k1, k2, k3⟩ := h
    change o = o' at k2
    subst k2
    exact ih _ _ _ _ _ _ k1 k3

/-- Results of the transform. -/
abbrev TransformLow : Int × Option (Ctx w) × Scr w → Int × Option (Ctx w) × Scr w → Prop := Both Eq (Both (OptLow CtxLow) ScrLow)

theorem tTransform_low (hT : T.Blind) (n : Arr) (u : Bool) {scr scr' : Scr w} {c c' : Option (Ctx w)} {b b' : Option (List Byte)} (size : Nat)
    (hs : ScrLow scr scr') (hc : OptLow CtxLow c c') (hb : OptLow SameLen b b') : Low TransformLow (tTransform T n u scr c b size) (tTransform T n u scr' c' b' size) := by
  unfold tTransform
  refine Low.bind (Low.null hc.isNone) fun _ _ _ => ?_
  cases c <;> cases c' <;> try exact hc.elim
  · exact Low.pure' ⟨rfl, trivial, hs⟩
  rename_i c c'
  refine Low.bind (Low.null hb.isNone) fun _ _ _ => ?_
  cases b <;> cases b' <;> try exact hb.elim
  · exact Low.pure' ⟨rfl, hc, hs⟩
  rename_i b b'
  refine Low.ite' Iff.rfl (fun _ => Low.pure' ⟨rfl, hc, hs⟩) fun _ => ?_
  refine Low.bind (tTransformLoop_low hT n u hb _ _ _ _ _ _ _ hc.2.2.1 hs) fun x y h => ?_
  obtain ⟨hv, o, s⟩ := x
  obtain ⟨hv', o', s'⟩ := y
  obtain ⟨k1, k2, k3⟩ := h
  change o = o' at k2
  subst k2
  exact Low.bind (Low.set k3.1) fun _ _ h1 => Low.bind (Low.set k3.2) fun _ _ h2 => Low.pure' ⟨rfl, ⟨hc.1, hc.2.1, k1, hc.2.2.2⟩, h1, h2⟩

theorem tUpdateFill_low (hT : T.Blind) (u : Bool) {scr scr' : Scr w} {c c' : Ctx w} {b b' : List Byte} (size : Nat) (hs : ScrLow scr scr') (hc : CtxLow c c') (hb : SameLen b b') :
    Low (Both Eq (Both CtxLow Eq)) (tUpdateFill T u scr c b size) (tUpdateFill T u scr' c' b' size) := by
  unfold tUpdateFill
  obtain ⟨h1, h2, h3, h4⟩ := hc
  rw [h2]
  refine Low.ite' Iff.rfl (fun _ => ?_) fun _ => Low.pure' ⟨rfl, ⟨h1, h2, h3, h4⟩, rfl⟩
  refine Low.ite' Iff.rfl (fun _ => Low.pure' ⟨rfl, ⟨h1, h2, h3, h4⟩, rfl⟩) fun _ => ?_
  refine Low.bind (Low.refl _) ?_
  rintro less _ ⟨⟩
  refine Low.bind (Low.copy h4 hb) fun blk blk' k => ?_
  refine Low.ite' Iff.rfl (fun _ => Low.pure' ⟨rfl, ⟨h1, rfl, h3, k⟩, rfl⟩) fun _ => ?_
  refine Low.bind (tTransform_low hT .block u _ hs (c := some _) (c' := some _) (b := some _) (b' := some _) ⟨h1, rfl, h3, k⟩ k) fun x y h => ?_
  obtain ⟨n, d, s⟩ := x
  obtain ⟨n', d', s'⟩ := y
  obtain ⟨k1, k2, k3⟩ := h
  change n = n' at k1
  subst k1
  cases d <;> cases d' <;> try exact k2.elim
  · exact Low.ub'
  rename_i d d'
  obtain ⟨e1, e2, e3, e4⟩ := k2
  refine Low.ite' Iff.rfl (fun _ => Low.pure' ⟨rfl, ⟨e1, e2, e3, e4⟩, rfl⟩) fun _ => Low.pure' ⟨rfl, ⟨?_, rfl, e3, e4⟩, rfl⟩
  exact congrArg (· + BitVec.ofInt 64 n) e1

theorem tUpdateBulk_low (hT : T.Blind) (u : Bool) {scr scr' : Scr w} {c c' : Ctx w} {b b' : List Byte} (o size : Nat) (hs : ScrLow scr scr') (hc : CtxLow c c') (hb : SameLen b b') :
    Low (Both Eq (Both CtxLow Eq)) (tUpdateBulk T u scr c b o size) (tUpdateBulk T u scr' c' b' o size) := by
  unfold tUpdateBulk
  refine Low.ite' Iff.rfl (fun _ => ?_) fun _ => Low.pure' ⟨rfl, hc, rfl⟩
  refine Low.bind (Low.ptrAt hb) fun p p' hp => ?_
  refine Low.bind (tTransform_low hT .input u _ hs (c := some _) (c' := some _) (b := some _) (b' := some _) hc hp) fun x y h => ?_
  obtain ⟨n, d, s⟩ := x
  obtain ⟨n', d', s'⟩ := y
  obtain ⟨k1, k2, k3⟩ := h
  change n = n' at k1
  subst k1
  cases d <;> cases d' <;> try exact k2.elim
  · exact Low.ub'
  rename_i d d'
  obtain ⟨e1, e2, e3, e4⟩ := k2
  refine Low.ite' Iff.rfl (fun _ => Low.pure' ⟨rfl, ⟨e1, e2, e3, e4⟩, rfl⟩) fun _ => Low.pure' ⟨rfl, ⟨?_, e2, e3, e4⟩, rfl⟩
  exact congrArg (· + BitVec.ofInt 64 n) e1

theorem tUpdateTail_low {c c' : Ctx w} {b b' : List Byte} (o size : Nat) (hc : CtxLow c c') (hb : SameLen b b') :
    Low (Both Eq CtxLow) (tUpdateTail T c b o size) (tUpdateTail T c' b' o size) := by
  unfold tUpdateTail
  refine Low.ite' Iff.rfl (fun _ => ?_) fun _ => Low.pure' ⟨rfl, hc⟩
  refine Low.ite' Iff.rfl (fun _ => Low.pure' ⟨rfl, hc⟩) fun _ => ?_
  exact Low.bind (Low.copy hc.2.2.2 hb) fun _ _ k => Low.pure' ⟨rfl, hc.1, rfl, hc.2.2.1, k⟩

theorem tCtxUpdate_low (hT : T.Blind) (u : Bool) {scr scr' : Scr w} {c c' : Option (Ctx w)} {b b' : Option (List Byte)} (size : Nat)
    (hs : ScrLow scr scr') (hc : OptLow CtxLow c c') (hb : OptLow SameLen b b') : Low (Both Eq (OptLow CtxLow)) (tCtxUpdate T u scr c b size) (tCtxUpdate T u scr' c' b' size) := by
  unfold tCtxUpdate
  refine Low.bind (Low.null hc.isNone) fun _ _ _ => ?_
  cases c <;> cases c' <;> try exact hc.elim
  · exact Low.pure' ⟨rfl, trivial⟩
  rename_i c c'
  refine Low.bind (Low.null hb.isNone) fun _ _ _ => ?_
  cases b <;> cases b' <;> try exact hb.elim
  · exact Low.pure' ⟨rfl, hc⟩
  rename_i b b'
  refine Low.ite' Iff.rfl (fun _ => Low.pure' ⟨rfl, hc⟩) fun _ => ?_
  refine Low.ite' Iff.rfl (fun _ => Low.pure' ⟨rfl, hc⟩) fun _ => ?_
  refine Low.bind (tUpdateFill_low hT u size hs hc hb) fun x y h => ?_
  obtain ⟨r, d, next⟩ := x
  obtain ⟨r', d', next'⟩ := y
  obtain ⟨k1, k2, k3⟩ := h
  change r = r' at k1
  change next = next' at k3
  change CtxLow d d' at k2
  subst k1 k3
  rcases next with _ | ⟨o, n⟩
  · exact Low.pure' ⟨rfl, k2⟩
  refine Low.bind (tUpdateBulk_low hT u o n hs k2 hb) fun x y h => ?_
  obtain ⟨r, d, o, n⟩ := x
  obtain ⟨r', d', z⟩ := y
  obtain ⟨k1, k2, k3⟩ := h
  change r = r' at k1
  change (o, n) = z at k3
  change CtxLow d d' at k2
  subst k1 k3
  refine Low.ite' Iff.rfl (fun _ => Low.pure' ⟨rfl, k2⟩) fun _ => ?_
  exact Low.bind (tUpdateTail_low o n k2 hb) fun x y h => Low.pure' ⟨h.1, h.2⟩

theorem tStoreHash_low (A : Alg w) (u : Bool) {hv hv' : List (BitVec w)} {h h' : List Byte} (hhv : SameLen hv hv') (hh : SameLen h h') :
    Low SameLen (tStoreHash A u hv h) (tStoreHash A u hv' h') := by
  unfold tStoreHash
  cases u
  · simp only [Bool.false_eq_true, if_false]
    refine Low.bind (Low.forLoop (R := Both SameLen Eq) _ _ (fun i s t r => ?_) ⟨hh, rfl⟩) fun x y k => Low.pure' k.1
    obtain ⟨s, o⟩ := s
    obtain ⟨t, o'⟩ := t
    obtain ⟨r1, r2⟩ := r
    change o = o' at r2
    subst r2
    exact Low.bind (Low.rd hhv) fun _ _ _ => Low.bind (tRunStore_low r1) fun _ _ k => Low.pure' ⟨k, rfl⟩
  · simp only [if_true]
    refine Low.table (R := SameLen) (fun r s t k => ?_) _ hh
    exact Low.bind (Low.rd hhv) fun _ _ _ => tRunStore_low k

/-- Results of finalize. -/
abbrev FinalLow : Int × Option (Ctx w) × Option (List Byte) → Int × Option (Ctx w) × Option (List Byte) → Prop := Both Eq (Both (OptLow CtxLow) (OptLow SameLen))

theorem tCtxFinalize_low (hT : T.Blind) (u : Bool) {scr scr' : Scr w} {c c' : Option (Ctx w)} {b b' : Option (List Byte)} (size : Nat)
    (hs : ScrLow scr scr') (hc : OptLow CtxLow c c') (hb : OptLow SameLen b b') : Low FinalLow (tCtxFinalize T u scr c b size) (tCtxFinalize T u scr' c' b' size) := by
  unfold tCtxFinalize
  refine Low.bind (Low.null hc.isNone) fun _ _ _ => ?_
  cases c <;> cases c' <;> try exact hc.elim
  · exact Low.pure' ⟨rfl, trivial, hb⟩
  rename_i c c'
  refine Low.bind (Low.null hb.isNone) fun _ _ _ => ?_
  cases b <;> cases b' <;> try exact hb.elim
  · exact Low.pure' ⟨rfl, hc, trivial⟩
  rename_i b b'
  refine Low.ite' Iff.rfl (fun _ => Low.pure' ⟨rfl, hc, hb⟩) fun _ => ?_
  refine Low.ite' Iff.rfl (fun _ => Low.pure' ⟨rfl, hc, hb⟩) fun _ => ?_
  obtain ⟨h1, h2, h3, h4⟩ := hc
  rw [h2]
  refine Low.bind (Low.refl _) ?_
  rintro two _ ⟨⟩
  refine Low.bind (Low.set h4) fun blk blk' k => Low.bind (Low.wr k) fun blk blk' k => Low.bind (tRunStore_low k) fun blk blk' k => ?_
  refine Low.bind (tTransform_low hT .block u _ hs (c := some _) (c' := some _) (b := some _) (b' := some _) ⟨h1, rfl, h3, k⟩ k) fun x y h => ?_
  obtain ⟨n, d, s⟩ := x
  obtain ⟨n', d', s'⟩ := y
  obtain ⟨k1, k2, k3⟩ := h
  change n = n' at k1
  subst k1
  cases d <;> cases d' <;> try exact k2.elim
  · exact Low.ub'
  rename_i d d'
  refine Low.ite' Iff.rfl (fun _ => Low.pure' ⟨rfl, k2, hb⟩) fun _ => ?_
  refine Low.bind (tStoreHash_low T.alg u k2.2.2.1 hb) fun _ _ k => ?_
  refine Low.bind (Low.refl (tZeroCtx T.alg)) ?_
  rintro z _ ⟨⟩
  exact Low.pure' ⟨rfl, CtxLow.refl _, k⟩

/-! ## Memory -/

theorem getKey_low {α β} {R : α → β → Prop} (p : Nat) {l : List (Nat × α)} {m : List (Nat × β)} (h : List.Forall₂ (Both Eq R) l m) : OptLow R (getKey p l) (getKey p m) := by
  induction h with
  | nil => trivial
  | @cons a b l m hab _ ih =>
    obtain ⟨i, a⟩ := a
    obtain ⟨j, b⟩ := b
    obtain ⟨hij, hab⟩ := hab
    change i = j at hij
    subst hij
    simp only [getKey]
    split
    · exact hab
    · exact ih

theorem setKey_low {α β} {R : α → β → Prop} (p : Nat) {o : α} {o' : β} (ho : R o o') {l : List (Nat × α)} {m : List (Nat × β)} (h : List.Forall₂ (Both Eq R) l m) :
    List.Forall₂ (Both Eq R) (setKey p o l) (setKey p o' m) := by
  induction h with
  | nil => exact .nil
  | @cons a b l m hab hlm ih =>
    obtain ⟨i, a⟩ := a
    obtain ⟨j, b⟩ := b
    obtain ⟨hij, hab⟩ := hab
    change i = j at hij
    subst hij
    simp only [setKey]
    split
    · exact .cons ⟨rfl, ho⟩ hlm
    · exact .cons ⟨rfl, hab⟩ ih

theorem eraseKey_low {α β} {R : α → β → Prop} (p : Nat) {l : List (Nat × α)} {m : List (Nat × β)} (h : List.Forall₂ (Both Eq R) l m) :
    List.Forall₂ (Both Eq R) (eraseKey p l) (eraseKey p m) := by
  induction h with
  | nil => exact .nil
  | @cons a b l m hab hlm ih =>
    obtain ⟨i, a⟩ := a
    obtain ⟨j, b⟩ := b
    obtain ⟨hij, hab⟩ := hab
    change i = j at hij
    subst hij
    simp only [eraseKey]
    split
    · exact hlm
    · exact .cons ⟨rfl, hab⟩ ih

variable {s t : St w} {env env' : Env w}

theorem tMemFree_low (p : Nat) (h : StLow s t) : Low StLow (tMemFree p s) (tMemFree p t) := by
  refine ⟨rfl, ?_⟩
  have k := getKey_low p h.2.2
  simp only [tMemFree_res, memFree]
  revert k
  cases getKey p s.live <;> cases getKey p t.live <;> intro k <;> try exact k.elim
  · trivial
  · exact ⟨h.1, h.2.1, eraseKey_low p h.2.2⟩

theorem tLoadBytes_low (p : Option Nat) (h : StLow s t) : Low SameLen (tLoadBytes p s) (tLoadBytes p t) := by
  refine ⟨rfl, ?_⟩
  cases p with
  | none => trivial
  | some p =>
    have k := getKey_low p h.2.2
    simp only [tLoadBytes_res, loadBytes]
    revert k
    rcases getKey p s.live with _ | _ | _ <;> rcases getKey p t.live with _ | _ | _ <;> intro k <;> first | exact k.elim | trivial

theorem tStoreBytes_low (p : Option Nat) {b b' : List Byte} (hb : SameLen b b') (h : StLow s t) : Low StLow (tStoreBytes p b s) (tStoreBytes p b' t) := by
  refine ⟨rfl, ?_⟩
  cases p with
  | none => trivial
  | some p => exact ⟨h.1, h.2.1, setKey_low p (R := ObjLow) (o := .bytes b) (o' := .bytes b') hb h.2.2⟩

theorem tAllocBytes_low (n : Nat) (he : EnvLow env env') (h : StLow s t) : Low (Both Eq StLow) (tAllocBytes env n s) (tAllocBytes env' n t) := by
  unfold tAllocBytes allocBytes
  rw [he.1, h.2.1]
  refine Low.ok _ ?_
  split
  · refine ⟨rfl, h.1, rfl, .cons ⟨rfl, ?_⟩ h.2.2⟩
    simp [ObjLow, SameLen]
  · exact ⟨rfl, h.1, rfl, h.2.2⟩

theorem region_low (p : Option Nat) (n : Nat) (h : StLow s t) : OptLow SameLen (region s p n) (region t p n) := by
  cases p with
  | none => trivial
  | some p =>
    have := h.1
    simp only [SameLen] at this
    simp [region, OptLow, SameLen, this]

theorem tRegion_low (p : Option Nat) (n : Nat) (h : StLow s t) : Low (OptLow SameLen) (tRegion s p n) (tRegion t p n) := ⟨rfl, region_low p n h⟩

theorem setRegion_low (p : Option Nat) {b b' : Option (List Byte)} (hb : OptLow SameLen b b') (h : StLow s t) : StLow (setRegion s p b) (setRegion t p b') := by
  cases p with
  | none => exact h
  | some p =>
    cases b <;> cases b' <;> try exact hb.elim
    · exact h
    · refine ⟨?_, h.2⟩
      have h1 := h.1
      have h2 := hb
      simp only [SameLen, OptLow] at h1 h2
      simp [setRegion, SameLen, h1, h2]

theorem tHInitialize_low (A : Alg w) (slot : Option Nat) (he : EnvLow env env') (h : StLow s t) : Low (Both Eq (Both Eq StLow)) (tHInitialize A env slot s) (tHInitialize A env' slot t) := by
  unfold tHInitialize
  cases slot with
  | some p => exact Low.bind (tCtxInitialize_low A rfl (c := some (some _)) (c' := some (some _)) (CtxLow.refl _)) fun x y k => Low.pure' ⟨k.1, rfl, h⟩
  | none =>
    dsimp only
    rw [he.1, h.2.1]
    refine Low.ite' Iff.rfl (fun _ => ?_) fun _ => ?_
    · refine Low.bind (tCtxInitialize_low A rfl (c := some none) (c' := some none) trivial) fun x y k => ?_
      obtain ⟨r, c⟩ := x
      obtain ⟨r', c'⟩ := y
      obtain ⟨k1, k2⟩ := k
      change r = r' at k1
      subst k1
      rcases c with _ | _ | c <;> rcases c' with _ | _ | c' <;> try exact k2.elim
      · exact Low.ub'
      · exact Low.ub'
      · exact Low.pure' ⟨rfl, rfl, h.1, rfl, .cons ⟨rfl, k2⟩ h.2.2⟩
    · exact Low.bind (tCtxInitialize_low A rfl (c := some none) (c' := some none) trivial) fun x y k => Low.pure' ⟨k.1, rfl, h.1, rfl, h.2.2⟩

theorem tHFree_low (slot : Option Nat) (h : StLow s t) : Low (Both Eq (Both Eq StLow)) (tHFree slot s) (tHFree slot t) := by
  unfold tHFree
  refine Low.bind (Low.refl _) fun _ _ _ => ?_
  cases slot with
  | none => exact Low.pure' ⟨rfl, rfl, h⟩
  | some p => exact Low.bind (tMemFree_low p h) fun _ _ k => Low.pure' ⟨rfl, rfl, k⟩

theorem tHUpdate_low (hT : T.Blind) (u : Bool) (slot : Option Nat) {b b' : Option (List Byte)} (size : Nat) (he : ScrLow env.scr env'.scr) (hb : OptLow SameLen b b') (h : StLow s t) :
    Low (Both Eq StLow) (tHUpdate T u env slot b size s) (tHUpdate T u env' slot b' size t) := by
  unfold tHUpdate
  cases slot with
  | none => exact Low.bind (tCtxUpdate_low hT u size he (c := none) (c' := none) trivial hb) fun x y k => Low.pure' ⟨k.1, h⟩
  | some p =>
    refine Low.bind (Low.refl _) fun _ _ _ => ?_
    have k := getKey_low p h.2.2
    revert k
    rcases getKey p s.live with _ | c | _ <;> rcases getKey p t.live with _ | c' | _ <;> intro k <;> try exact k.elim
    · exact Low.ub'
    · refine Low.bind (tCtxUpdate_low hT u size he (c := some _) (c' := some _) k hb) fun x y k => ?_
      obtain ⟨r, d⟩ := x
      obtain ⟨r', d'⟩ := y
      obtain ⟨k1, k2⟩ := k
      change r = r' at k1
      subst k1
      cases d <;> cases d' <;> try exact k2.elim
      · exact Low.ub'
      · rename_i d d'
        exact Low.pure' ⟨rfl, h.1, h.2.1, setKey_low p (R := ObjLow) (o := .ctx d) (o' := .ctx d') k2 h.2.2⟩
    · exact Low.ub'

theorem tHFinalize_low (hT : T.Blind) (u : Bool) (slot : Option Nat) {b b' : Option (List Byte)} (size : Nat) (he : ScrLow env.scr env'.scr) (hb : OptLow SameLen b b') (h : StLow s t) :
    Low (Both Eq (Both (OptLow SameLen) StLow)) (tHFinalize T u env slot b size s) (tHFinalize T u env' slot b' size t) := by
  unfold tHFinalize
  cases slot with
  | none => exact Low.bind (tCtxFinalize_low hT u size he (c := none) (c' := none) trivial hb) fun x y k => Low.pure' ⟨k.1, k.2.2, h⟩
  | some p =>
    refine Low.bind (Low.refl _) fun _ _ _ => ?_
    have k := getKey_low p h.2.2
    revert k
    rcases getKey p s.live with _ | c | _ <;> rcases getKey p t.live with _ | c' | _ <;> intro k <;> try exact k.elim
    · exact Low.ub'
    · refine Low.bind (tCtxFinalize_low hT u size he (c := some _) (c' := some _) k hb) fun x y k => ?_
      obtain ⟨r, d, o⟩ := x
      obtain ⟨r', d', o'⟩ := y
      obtain ⟨k1, k2, k3⟩ := k
      change r = r' at k1
      subst k1
      cases d <;> cases d' <;> try exact k2.elim
      · exact Low.ub'
      · rename_i d d'
        exact Low.pure' ⟨rfl, k3, h.1, h.2.1, setKey_low p (R := ObjLow) (o := .ctx d) (o' := .ctx d') k2 h.2.2⟩
    · exact Low.ub'

/-! ## Sequences of calls -/

/-- The same function called with the same sizes; buffers may differ in contents. -/
def CallLow : ApiCall → ApiCall → Prop
  | .init, .init => True
  | .initNull, .initNull => True
  | .free, .free => True
  | .freeNull, .freeNull => True
  | .update b n, .update b' n' => OptLow SameLen b b' ∧ n = n'
  | .finalize b n, .finalize b' n' => OptLow SameLen b b' ∧ n = n'
  | _, _ => False

/-- The same result; outputs of the same length. -/
def ReplyLow (r r' : Reply) : Prop := r.code = r'.code ∧ OptLow SameLen r.out r'.out

theorem tStep_low (hT : T.Blind) (u : Bool) {call call' : ApiCall} {scr scr' : Scr w} (slot : Option Nat) (he : ∀ n, env.allocOk n = env'.allocOk n) (hc : CallLow call call') (hs : ScrLow scr scr')
    (h : StLow s t) : Low (Both ReplyLow (Both Eq StLow)) (tStep T u env call scr slot s) (tStep T u env' call' scr' slot t) := by
  have hi : ∀ slot, Low (Both Eq (Both Eq StLow)) (tHInitialize T.alg env slot s) (tHInitialize T.alg env' slot t) := by
    intro slot
    exact tHInitialize_low (env := { env with scr := scr }) (env' := { env' with scr := scr' }) T.alg slot ⟨he, hs⟩ h
  unfold tStep
  cases call <;> cases call' <;> try exact hc.elim
  · unfold tApiInitialize
    simp only [Tr.bind_assoc]
    refine Low.bind (hi slot) fun x y k => ?_
    obtain ⟨r, c, s⟩ := x
    obtain ⟨r', c', s'⟩ := y
    obtain ⟨k1, k2, k3⟩ := k
    exact Low.pure' ⟨⟨k1, trivial⟩, k2, k3⟩
  · unfold tApiInitialize
    simp only [Tr.bind_assoc]
    exact Low.bind (tCtxInitialize_low T.alg rfl (c := none) (c' := none) trivial) fun x y k => Low.pure' ⟨⟨k.1, trivial⟩, rfl, h⟩
  · unfold tApiFree
    simp only [Tr.bind_assoc]
    refine Low.bind (Low.refl _) fun _ _ _ => Low.bind (tHFree_low slot h) fun x y k => ?_
    obtain ⟨r, c, s⟩ := x
    obtain ⟨r', c', s'⟩ := y
    obtain ⟨k1, k2, k3⟩ := k
    exact Low.pure' ⟨⟨k1, trivial⟩, k2, k3⟩
  · unfold tApiFree
    simp only [Tr.bind_assoc]
    exact Low.bind (Low.refl _) fun _ _ _ => Low.pure' ⟨⟨rfl, trivial⟩, rfl, h⟩
  · obtain ⟨hb, rfl⟩ := hc
    exact Low.bind (tHUpdate_low (env := { env with scr := scr }) (env' := { env' with scr := scr' }) hT u slot _ hs hb h) fun x y k => Low.pure' ⟨⟨k.1, trivial⟩, rfl, k.2⟩
  · obtain ⟨hb, rfl⟩ := hc
    exact Low.bind (tHFinalize_low (env := { env with scr := scr }) (env' := { env' with scr := scr' }) hT u slot _ hs hb h) fun x y k => Low.pure' ⟨⟨k.1, k.2.1⟩, rfl, k.2.2⟩

theorem tRun_low (hT : T.Blind) (u : Bool) (he : ∀ n, env.allocOk n = env'.allocOk n) : ∀ {calls calls' : List (ApiCall × Scr w)} (slot : Option Nat) {s t : St w},
    List.Forall₂ (Both CallLow ScrLow) calls calls' → StLow s t →
    Low (Both (List.Forall₂ ReplyLow) (Both Eq StLow)) (tRun T u env calls slot s) (tRun T u env' calls' slot t)
  | _, _, slot, s, t, .nil, h => Low.pure' ⟨.nil, rfl, h⟩
  | (c, scr) :: cs, (c', scr') :: cs', slot, s, t, .cons hc hcs, h => by
    rw [tRun, tRun]
    refine Low.bind (tStep_low hT u slot he hc.1 hc.2 h) fun x y k => ?_
    obtain ⟨r, sl, s⟩ := x
    obtain ⟨r', sl', s'⟩ := y
    obtain ⟨k1, k2, k3⟩ := k
    change sl = sl' at k2
    subst k2
    exact Low.bind (tRun_low hT u he sl hcs k3) fun x y k => Low.pure' ⟨.cons k1 k.1, k.2.1, k.2.2⟩

/-! ## One-shot functions -/

theorem tCalculateError_low (c : Option Nat) (h : StLow s t) : Low (Both Eq StLow) (tCalculateError c s) (tCalculateError c t) := by
  unfold tCalculateError
  refine Low.bind (Low.refl _) fun _ _ _ => ?_
  cases c with
  | none => exact Low.pure' ⟨rfl, h⟩
  | some p => exact Low.bind (tHFree_low _ h) fun x y k => Low.pure' ⟨rfl, k.2.2⟩

theorem tCalculate_low (hT : T.Blind) (u : Bool) (buffer : Option Nat) (size : Nat) (hash : Option Nat) (hashSize : Nat) (he : EnvLow env env') (h : StLow s t) :
    Low (Both Eq StLow) (tCalculate T u env buffer size hash hashSize s) (tCalculate T u env' buffer size hash hashSize t) := by
  unfold tCalculate
  refine Low.bind (tHInitialize_low T.alg none he h) ?_
  rintro ⟨r, c, s⟩ ⟨_, _, t⟩ ⟨⟨⟩, ⟨⟩, h⟩
  refine Low.ite' Iff.rfl (fun _ => tCalculateError_low c h) fun _ => ?_
  refine Low.bind (tRegion_low _ _ h) fun b b' hb => Low.bind (tHUpdate_low hT u c size he.2 hb h) ?_
  rintro ⟨r, s⟩ ⟨_, t⟩ ⟨⟨⟩, h⟩
  refine Low.ite' Iff.rfl (fun _ => tCalculateError_low c h) fun _ => ?_
  refine Low.bind (tRegion_low _ _ h) fun b b' hb => Low.bind (tHFinalize_low hT u c hashSize he.2 hb h) ?_
  rintro ⟨r, o, s⟩ ⟨_, o', t⟩ ⟨⟨⟩, ho, h⟩
  have h := setRegion_low hash ho h
  refine Low.ite' Iff.rfl (fun _ => tCalculateError_low c h) fun _ => ?_
  refine Low.bind (tHFree_low c h) ?_
  rintro ⟨r, c, s⟩ ⟨_, _, t⟩ ⟨⟨⟩, ⟨⟩, h⟩
  exact Low.ite' Iff.rfl (fun _ => tCalculateError_low c h) fun _ => Low.pure' ⟨rfl, h⟩

/-- The same pointers; key hashes of the same length. -/
def LocLow (l m : Loc) : Prop := l.context = m.context ∧ l.keyData = m.keyData ∧ l.inner = m.inner ∧ l.outer = m.outer ∧ SameLen l.keyHash m.keyHash

theorem tHmacKey_low (hT : T.Blind) (u : Bool) (key : Option Nat) (n : Nat) {l m : Loc} (he : EnvLow env env') (hl : LocLow l m) (h : StLow s t) :
    Low (Both Eq (Both LocLow StLow)) (tHmacKey T u env key n l s) (tHmacKey T u env' key n m t) := by
  obtain ⟨lc, lk, li, lo, lh⟩ := l
  obtain ⟨mc, mk, mi, mo, mh⟩ := m
  obtain ⟨h1, h2, h3, h4, h5⟩ := hl
  dsimp only at h1 h2 h3 h4 h5
  subst h1 h2 h3 h4
  unfold tHmacKey
  refine Low.bind (tAllocBytes_low _ he h) ?_
  rintro ⟨p, s⟩ ⟨_, t⟩ ⟨⟨⟩, h⟩
  cases p with
  | none => exact Low.pure' ⟨rfl, ⟨rfl, rfl, rfl, rfl, h5⟩, h⟩
  | some p =>
    refine Low.ite' Iff.rfl (fun _ => ?_) fun _ => ?_
    · refine Low.bind (tRegion_low _ _ h) fun k k' hk => ?_
      cases k <;> cases k' <;> try exact hk.elim
      · exact Low.ub'
      · exact Low.bind (tLoadBytes_low _ h) fun _ _ k => Low.bind (Low.copy k hk) fun _ _ k => Low.bind (Low.set k) fun _ _ k => Low.bind (tStoreBytes_low _ k h) fun _ _ h =>
          Low.pure' ⟨rfl, ⟨rfl, rfl, rfl, rfl, h5⟩, h⟩
    · refine Low.bind (tHInitialize_low T.alg _ he h) ?_
      rintro ⟨r, c, s⟩ ⟨_, _, t⟩ ⟨⟨⟩, ⟨⟩, h⟩
      refine Low.ite' Iff.rfl (fun _ => Low.pure' ⟨rfl, ⟨rfl, rfl, rfl, rfl, h5⟩, h⟩) fun _ => ?_
      refine Low.bind (tRegion_low _ _ h) fun b b' hb => Low.bind (tHUpdate_low hT u _ n he.2 hb h) ?_
      rintro ⟨r, s⟩ ⟨_, t⟩ ⟨⟨⟩, h⟩
      refine Low.ite' Iff.rfl (fun _ => Low.pure' ⟨rfl, ⟨rfl, rfl, rfl, rfl, h5⟩, h⟩) fun _ => ?_
      refine Low.bind (tHFinalize_low hT u _ _ he.2 (b := some _) (b' := some _) h5 h) ?_
      rintro ⟨r, o, s⟩ ⟨_, o', t⟩ ⟨⟨⟩, ho, h⟩
      cases o <;> cases o' <;> try exact ho.elim
      · exact Low.ub'
      refine Low.ite' Iff.rfl (fun _ => Low.pure' ⟨rfl, ⟨rfl, rfl, rfl, rfl, ho⟩, h⟩) fun _ => ?_
      refine Low.bind (tHFree_low _ h) ?_
      rintro ⟨r, c, s⟩ ⟨_, _, t⟩ ⟨⟨⟩, ⟨⟩, h⟩
      refine Low.ite' Iff.rfl (fun _ => Low.pure' ⟨rfl, ⟨rfl, rfl, rfl, rfl, ho⟩, h⟩) fun _ => ?_
      refine Low.bind (tLoadBytes_low _ h) fun d d' hd => Low.bind (Low.refl _) ?_
      rintro less _ ⟨⟩
      cases less
      · simp only [Bool.false_eq_true, if_false, Tr.pure_bind]
        exact Low.bind (Low.copy hd ho) fun _ _ k => Low.bind (tStoreBytes_low _ k h) fun _ _ h => Low.pure' ⟨rfl, ⟨rfl, rfl, rfl, rfl, ho⟩, h⟩
      · simp only [if_true]
        exact Low.bind (Low.set hd) fun _ _ hd => Low.bind (Low.copy hd ho) fun _ _ k => Low.bind (tStoreBytes_low _ k h) fun _ _ h => Low.pure' ⟨rfl, ⟨rfl, rfl, rfl, rfl, ho⟩, h⟩

theorem tXorPads_low (n : Nat) {kd kd' i i' o o' : List Byte} (hk : SameLen kd kd') (hi : SameLen i i') (ho : SameLen o o') :
    Low (Both SameLen SameLen) (tXorPads n kd i o) (tXorPads n kd' i' o') := by
  refine Low.forLoop _ _ (fun j s t r => ?_) ⟨hi, ho⟩
  exact Low.bind (Low.rd hk) fun _ _ _ => Low.bind (Low.rd r.1) fun _ _ _ => Low.bind (Low.wr r.1) fun _ _ k => Low.bind (Low.rd r.2) fun _ _ _ => Low.bind (Low.wr r.2) fun _ _ k' => Low.pure' ⟨k, k'⟩

theorem tHmacPads_low (A : Alg w) {l m : Loc} (he : EnvLow env env') (hl : LocLow l m) (h : StLow s t) :
    Low (Both Eq (Both LocLow StLow)) (tHmacPads A env l s) (tHmacPads A env' m t) := by
  obtain ⟨lc, lk, li, lo, lh⟩ := l
  obtain ⟨mc, mk, mi, mo, mh⟩ := m
  obtain ⟨h1, h2, h3, h4, h5⟩ := hl
  dsimp only at h1 h2 h3 h4 h5
  subst h1 h2 h3 h4
  unfold tHmacPads
  refine Low.bind (tAllocBytes_low _ he h) ?_
  rintro ⟨p, s⟩ ⟨_, t⟩ ⟨⟨⟩, h⟩
  cases p with
  | none => exact Low.pure' ⟨rfl, ⟨rfl, rfl, rfl, rfl, h5⟩, h⟩
  | some p =>
    refine Low.bind (tLoadBytes_low _ h) fun _ _ k => Low.bind (Low.set k) fun _ _ k => Low.bind (tStoreBytes_low _ k h) fun s t h => ?_
    refine Low.bind (tAllocBytes_low _ he h) ?_
    rintro ⟨q, s⟩ ⟨_, t⟩ ⟨⟨⟩, h⟩
    cases q with
    | none => exact Low.pure' ⟨rfl, ⟨rfl, rfl, rfl, rfl, h5⟩, h⟩
    | some q =>
      refine Low.bind (tLoadBytes_low _ h) fun _ _ k => Low.bind (Low.set k) fun _ _ k => Low.bind (tStoreBytes_low _ k h) fun s t h => ?_
      refine Low.bind (tLoadBytes_low _ h) fun _ _ hk => Low.bind (tLoadBytes_low _ h) fun _ _ hi => Low.bind (tLoadBytes_low _ h) fun _ _ ho => ?_
      refine Low.bind (tXorPads_low _ hk hi ho) fun x y k => ?_
      exact Low.bind (tStoreBytes_low _ k.1 h) fun s t h => Low.bind (tStoreBytes_low _ k.2 h) fun s t h => Low.pure' ⟨rfl, ⟨rfl, rfl, rfl, rfl, h5⟩, h⟩

theorem tHmacPass_low (hT : T.Blind) (u : Bool) (padding buffer : Option Nat) (size : Nat) (hmac : Option Nat) (hmacSize : Nat) {l m : Loc} (he : EnvLow env env') (hl : LocLow l m) (h : StLow s t) :
    Low (Both Eq (Both LocLow StLow)) (tHmacPass T u env padding buffer size hmac hmacSize l s) (tHmacPass T u env' padding buffer size hmac hmacSize m t) := by
  obtain ⟨lc, lk, li, lo, lh⟩ := l
  obtain ⟨mc, mk, mi, mo, mh⟩ := m
  obtain ⟨h1, h2, h3, h4, h5⟩ := hl
  dsimp only at h1 h2 h3 h4 h5
  subst h1 h2 h3 h4
  unfold tHmacPass
  refine Low.bind (tHInitialize_low T.alg _ he h) ?_
  rintro ⟨r, c, s⟩ ⟨_, _, t⟩ ⟨⟨⟩, ⟨⟩, h⟩
  refine Low.ite' Iff.rfl (fun _ => Low.pure' ⟨rfl, ⟨rfl, rfl, rfl, rfl, h5⟩, h⟩) fun _ => ?_
  refine Low.bind (tLoadBytes_low _ h) fun d d' hd => Low.bind (tHUpdate_low hT u _ _ he.2 (b := some _) (b' := some _) hd h) ?_
  rintro ⟨r, s⟩ ⟨_, t⟩ ⟨⟨⟩, h⟩
  refine Low.ite' Iff.rfl (fun _ => Low.pure' ⟨rfl, ⟨rfl, rfl, rfl, rfl, h5⟩, h⟩) fun _ => ?_
  refine Low.bind (tRegion_low _ _ h) fun b b' hb => Low.bind (tHUpdate_low hT u _ _ he.2 hb h) ?_
  rintro ⟨r, s⟩ ⟨_, t⟩ ⟨⟨⟩, h⟩
  refine Low.ite' Iff.rfl (fun _ => Low.pure' ⟨rfl, ⟨rfl, rfl, rfl, rfl, h5⟩, h⟩) fun _ => ?_
  refine Low.bind (tRegion_low _ _ h) fun b b' hb => Low.bind (tHFinalize_low hT u _ _ he.2 hb h) ?_
  rintro ⟨r, o, s⟩ ⟨_, o', t⟩ ⟨⟨⟩, ho, h⟩
  have h := setRegion_low hmac ho h
  refine Low.ite' Iff.rfl (fun _ => Low.pure' ⟨rfl, ⟨rfl, rfl, rfl, rfl, h5⟩, h⟩) fun _ => ?_
  refine Low.bind (tHFree_low _ h) ?_
  rintro ⟨r, c, s⟩ ⟨_, _, t⟩ ⟨⟨⟩, ⟨⟩, h⟩
  exact Low.ite' Iff.rfl (fun _ => Low.pure' ⟨rfl, ⟨rfl, rfl, rfl, rfl, h5⟩, h⟩) fun _ => Low.pure' ⟨rfl, ⟨rfl, rfl, rfl, rfl, h5⟩, h⟩

theorem tWipeFree_low (A : Alg w) (n : Arr) (p : Option Nat) (h : StLow s t) : Low StLow (tWipeFree A n p s) (tWipeFree A n p t) := by
  unfold tWipeFree
  refine Low.bind (tLoadBytes_low _ h) fun _ _ k => Low.bind (Low.set k) fun _ _ k => Low.bind (tStoreBytes_low _ k h) fun s t h => ?_
  cases p with
  | none => exact Low.ub'
  | some p => exact tMemFree_low p h

theorem tWipeFreeOpt_low (A : Alg w) (n : Arr) (p : Option Nat) (h : StLow s t) : Low StLow (tWipeFreeOpt A n p s) (tWipeFreeOpt A n p t) := by
  unfold tWipeFreeOpt
  refine Low.bind (Low.refl _) fun _ _ _ => ?_
  cases p with
  | none => exact Low.pure' h
  | some p => exact tWipeFree_low A n (some p) h

theorem tFreeOpt_low (p : Option Nat) (h : StLow s t) : Low StLow (tFreeOpt p s) (tFreeOpt p t) := by
  unfold tFreeOpt
  refine Low.bind (Low.refl _) fun _ _ _ => ?_
  cases p with
  | none => exact Low.pure' h
  | some p => exact Low.bind (tHFree_low _ h) fun x y k => Low.pure' k.2.2

/-- Results of `calculate_hmac`. -/
abbrev HmacLow : Int × Loc × St w → Int × Loc × St w → Prop := Both Eq (Both LocLow StLow)

theorem tHmacError_low (A : Alg w) {l m : Loc} (hl : LocLow l m) (h : StLow s t) : Low HmacLow (tHmacError A l s) (tHmacError A m t) := by
  unfold tHmacError
  rw [hl.1, hl.2.1, hl.2.2.1, hl.2.2.2.1]
  exact Low.bind (tFreeOpt_low _ h) fun _ _ h => Low.bind (tWipeFreeOpt_low A _ _ h) fun _ _ h => Low.bind (tWipeFreeOpt_low A _ _ h) fun _ _ h => Low.bind (tWipeFreeOpt_low A _ _ h) fun _ _ h =>
    Low.pure' ⟨rfl, hl, h⟩

theorem tHmacRest_low (hT : T.Blind) (u : Bool) (buffer : Option Nat) (size : Nat) (hmac : Option Nat) (hmacSize : Nat) {l m : Loc} (he : EnvLow env env') (hl : LocLow l m) (h : StLow s t) :
    Low HmacLow (tHmacRest T u env buffer size hmac hmacSize l s) (tHmacRest T u env' buffer size hmac hmacSize m t) := by
  unfold tHmacRest
  refine Low.bind (tHmacPads_low T.alg he hl h) ?_
  rintro ⟨ok, l, s⟩ ⟨_, m, t⟩ ⟨⟨⟩, hl, h⟩
  refine Low.ite' Iff.rfl (fun _ => tHmacError_low T.alg hl h) fun _ => ?_
  dsimp only at hl h ⊢
  rw [hl.2.2.1]
  refine Low.bind (tHmacPass_low hT u _ _ _ _ _ he hl h) ?_
  rintro ⟨ok, l, s⟩ ⟨_, m, t⟩ ⟨⟨⟩, hl, h⟩
  refine Low.ite' Iff.rfl (fun _ => tHmacError_low T.alg hl h) fun _ => ?_
  dsimp only at hl h ⊢
  rw [hl.2.2.2.1]
  refine Low.bind (tHmacPass_low hT u _ _ _ _ _ he hl h) ?_
  rintro ⟨ok, l, s⟩ ⟨_, m, t⟩ ⟨⟨⟩, hl, h⟩
  refine Low.ite' Iff.rfl (fun _ => tHmacError_low T.alg hl h) fun _ => ?_
  dsimp only at hl h ⊢
  rw [hl.2.1, hl.2.2.1, hl.2.2.2.1]
  exact Low.bind (tWipeFree_low T.alg _ _ h) fun _ _ h => Low.bind (tWipeFree_low T.alg _ _ h) fun _ _ h => Low.bind (tWipeFree_low T.alg _ _ h) fun _ _ h =>
    Low.pure' ⟨rfl, ⟨hl.1, rfl, rfl, rfl, hl.2.2.2.2⟩, h⟩

theorem tCalculateHmac_low (hT : T.Blind) (u : Bool) {kh kh' : List Byte} (key : Option Nat) (keySize : Nat) (buffer : Option Nat) (size : Nat) (hmac : Option Nat) (hmacSize : Nat)
    (hk : SameLen kh kh') (he : EnvLow env env') (h : StLow s t) :
    Low HmacLow (tCalculateHmac T u env kh key keySize buffer size hmac hmacSize s) (tCalculateHmac T u env' kh' key keySize buffer size hmac hmacSize t) := by
  unfold tCalculateHmac
  have hl : LocLow ⟨none, none, none, none, kh⟩ ⟨none, none, none, none, kh'⟩ := ⟨rfl, rfl, rfl, rfl, hk⟩
  refine Low.bind (Low.refl _) fun _ _ _ => ?_
  cases key with
  | none => exact Low.pure' ⟨rfl, hl, h⟩
  | some k =>
    refine Low.ite' Iff.rfl (fun _ => Low.pure' ⟨rfl, hl, h⟩) fun _ => ?_
    refine Low.ite' Iff.rfl (fun _ => Low.pure' ⟨rfl, hl, h⟩) fun _ => ?_
    refine Low.bind (tHmacKey_low hT u _ _ he hl h) ?_
    rintro ⟨ok, l, s⟩ ⟨_, m, t⟩ ⟨⟨⟩, hl, h⟩
    exact Low.ite' Iff.rfl (fun _ => tHmacError_low T.alg hl h) fun _ => tHmacRest_low hT u _ _ _ _ he hl h

end Model
