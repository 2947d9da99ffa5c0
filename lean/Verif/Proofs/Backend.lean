import Verif.Model.Backend
import Verif.Spec.Backend
import Verif.Proofs.Kinds
/-! The builds with a crypto library. -/

namespace Model

open Spec

/-- What the builds with a crypto library rely on: `Rep st m` says that the hash state `st` stands for the message `m`. Nothing is said of a state after a failed call or of messages of 2^61 bytes and more. -/
structure Contract (L : Library) (k : Kind) (Rep : L.State → List Byte → Prop) : Prop where
  init : ∀ n st, L.init n = some st → Rep st []
  update : ∀ n st m b, Rep st m → (m ++ b).length < 2 ^ 61 → (L.update n st b).1 = true → Rep (L.update n st b).2 (m ++ b)
  final : ∀ n st m o, Rep st m → m.length < 2 ^ 61 → k.hashSize ≤ o.length → (L.final n st o).1 = true → (L.final n st o).2.2 = k.std.digest m ++ o.drop k.hashSize

/-- A library whose calls do not fail. -/
structure Reliable (L : Library) : Prop where
  init : ∀ n, L.init n ≠ none
  create : ∀ n, L.create n = true
  update : ∀ n st b, (L.update n st b).1 = true
  final : ∀ n st o, (L.final n st o).1 = true

/-- The context at `p` with hash state `st`, in front of the other objects `base`. -/
def Holds {σ} (B : Backend) (base : List (Nat × BObj σ)) (p : Nat) (st : σ) (live : List (Nat × BObj σ)) : Prop :=
  match B with
  | .direct _ => live = (p, .ctx (some st) .null) :: base
  | .evpEmbedded => live = (p, .ctx (some st) .embedded) :: base
  | .evpAllocated => ∃ q, q ≠ p ∧ live = (q, .md (some st)) :: (p, .ctx none (.heap q)) :: base

theorem bInitialize_ok (B : Backend) (L : Library) (al : Nat → Bool) (s : BSt L.State) :
    ∃ r slot s', bInitialize B L al none s = .ok (r, slot, s') ∧ s'.count = s.count + 1 ∧
      (r = 1 ∧ al s.count = true ∧ (∃ p st n, slot = some p ∧ L.init n = some st ∧ Holds B s.live p st s'.live) ∨
       r = -1 ∧ slot = none ∧ s'.live = s.live ∧ (al s.count = false ∨ ¬ Reliable L)) := by
  unfold bInitialize
  by_cases ha : al s.count = true
  · simp only [if_pos ha]
    cases B with
    | direct b =>
      simp only
      cases hi : L.init s.calls with
      | some st => exact ⟨1, _, _, rfl, rfl, .inl ⟨rfl, ha, _, st, _, rfl, hi, by simp [Holds, setKey]⟩⟩
      | none => exact ⟨-1, none, ⟨s.count + 1, s.calls + 1, s.live⟩, by simp [bInitError, bErase, BSt.tick, getKey, eraseKey], rfl, .inr ⟨rfl, rfl, rfl, .inr fun h => h.init _ hi⟩⟩
    | evpEmbedded =>
      simp only [bDigestInit]
      cases hi : L.init s.calls with
      | some st => exact ⟨1, _, _, rfl, rfl, .inl ⟨rfl, ha, _, st, _, rfl, hi, by simp [Holds, setKey]⟩⟩
      | none => exact ⟨-1, none, ⟨s.count + 1, s.calls + 2, s.live⟩, by simp [bInitError, bErase, BSt.tick, getKey, eraseKey], rfl, .inr ⟨rfl, rfl, rfl, .inr fun h => h.init _ hi⟩⟩
    | evpAllocated =>
      have hne : 2 * s.calls + 1 ≠ 2 * s.count := by omega
      have hne' : 2 * s.count ≠ 2 * s.calls + 1 := by omega
      simp only
      by_cases hc : L.create s.calls = true
      · simp only [if_pos hc, bDigestInit]
        cases hi : L.init (BSt.tick (⟨s.count + 1, s.calls, (2 * s.count, .ctx none .null) :: s.live⟩ : BSt L.State)).calls with
        | some st =>
          refine ⟨1, some (2 * s.count), _, rfl, rfl, .inl ⟨rfl, ha, _, st, _, rfl, hi, 2 * s.calls + 1, hne, ?_⟩⟩
          simp [setKey, hne]
        | none =>
          refine ⟨-1, none, ⟨s.count + 1, s.calls + 2, s.live⟩, ?_, rfl, .inr ⟨rfl, rfl, rfl, .inr fun h => h.init _ hi⟩⟩
          simp [bInitError, bErase, BSt.tick, getKey, eraseKey, setKey, hne]
      · simp only [if_neg hc]
        exact ⟨-1, none, ⟨s.count + 1, s.calls + 1, s.live⟩, by simp [bInitError, bErase, BSt.tick, getKey, eraseKey], rfl, .inr ⟨rfl, rfl, rfl, .inr fun h => hc (h.create _)⟩⟩
  · exact ⟨-1, none, ⟨s.count + 1, s.calls, s.live⟩, by simp only [if_neg ha], rfl, .inr ⟨rfl, rfl, rfl, .inl (by simpa using ha)⟩⟩

theorem bFree_ok {B : Backend} {L : Library} {base : List (Nat × BObj L.State)} {p : Nat} {st : L.State} {s : BSt L.State} (h : Holds B base p st s.live) :
    ∃ s', bFree B L (some p) s = .ok (1, none, s') ∧ s'.count = s.count ∧ s'.live = base := by
  obtain ⟨count, calls, live⟩ := s
  cases B with
  | direct b =>
    simp only [Holds] at h
    subst h
    exact ⟨⟨count, calls, base⟩, by simp [bFree, getKey, bErase, eraseKey], rfl, rfl⟩
  | evpEmbedded =>
    simp only [Holds] at h
    subst h
    exact ⟨⟨count, calls + 1, base⟩, by simp [bFree, getKey, bErase, eraseKey, BSt.tick], rfl, rfl⟩
  | evpAllocated =>
    obtain ⟨q, hq, h⟩ := h
    simp only at h
    subst h
    exact ⟨⟨count, calls + 1, base⟩, by simp [bFree, getKey, bErase, eraseKey, BSt.tick, hq], rfl, rfl⟩

theorem bState_ok {B : Backend} {σ : Type} {base : List (Nat × BObj σ)} {p : Nat} {st : σ} {s : BSt σ} (h : Holds B base p st s.live) : bState B p s = .ok st := by
  obtain ⟨count, calls, live⟩ := s
  cases B with
  | direct b =>
    simp only [Holds] at h
    subst h
    simp [bState, getKey]
  | evpEmbedded =>
    simp only [Holds] at h
    subst h
    simp [bState, getKey]
  | evpAllocated =>
    obtain ⟨q, hq, h⟩ := h
    simp only at h
    subst h
    simp [bState, getKey, hq]

theorem bSetState_ok {B : Backend} {σ : Type} {base : List (Nat × BObj σ)} {p : Nat} {st : σ} (st' : σ) {s : BSt σ} (h : Holds B base p st s.live) :
    ∃ s', bSetState p st' s.tick = .ok s' ∧ s'.count = s.count ∧ Holds B base p st' s'.live := by
  obtain ⟨count, calls, live⟩ := s
  cases B with
  | direct b =>
    simp only [Holds] at h
    subst h
    exact ⟨⟨count, calls + 1, (p, .ctx (some st') .null) :: base⟩, by simp [bSetState, getKey, setKey, BSt.tick], rfl, rfl⟩
  | evpEmbedded =>
    simp only [Holds] at h
    subst h
    exact ⟨⟨count, calls + 1, (p, .ctx (some st') .embedded) :: base⟩, by simp [bSetState, getKey, setKey, BSt.tick], rfl, rfl⟩
  | evpAllocated =>
    obtain ⟨q, hq, h⟩ := h
    simp only at h
    subst h
    exact ⟨⟨count, calls + 1, (q, .md (some st')) :: (p, .ctx none (.heap q)) :: base⟩, by simp [bSetState, getKey, setKey, BSt.tick, hq], rfl, q, hq, rfl⟩

/-- The variable and the memory between two calls. -/
def SlotInv {σ} (B : Backend) (base : List (Nat × BObj σ)) (P : σ → Prop) (slot : Option Nat) (s : BSt σ) : Prop :=
  match slot with
  | none => s.live = base
  | some p => ∃ st, Holds B base p st s.live ∧ P st

/-- The largest sizes are those of the built-in implementation or smaller. -/
theorem maxUpdate_le (B : Backend) : B.maxUpdate ≤ ssizeMax := by
  cases B with
  | direct b => cases b <;> decide
  | evpEmbedded => exact Nat.le_refl _
  | evpAllocated => exact Nat.le_refl _

theorem maxOutput_le (B : Backend) : B.maxOutput ≤ ssizeMax := by
  cases B with
  | direct b => exact Nat.le_refl _
  | evpEmbedded => decide
  | evpAllocated => decide

/-- An update on a context. -/
theorem bUpdate_ok {B : Backend} {L : Library} {base : List (Nat × BObj L.State)} {p : Nat} {st : L.State} {s : BSt L.State} (h : Holds B base p st s.live) (buf : Option (List Byte)) (size : Nat)
    (hv : (ApiCall.update buf size).Valid) :
    ∃ r s' st', bUpdate B L (some p) buf size s = .ok (r, s') ∧ s'.count = s.count ∧ Holds B base p st' s'.live ∧
      (r = -1 ∧ st' = st ∧ (buf = none ∨ B.maxUpdate < size) ∨ (∃ b, buf = some b ∧ size = 0 ∧ r = 1 ∧ st' = st) ∨
        ∃ b n, buf = some b ∧ 0 < size ∧ size ≤ B.maxUpdate ∧ r = (if (L.update n st (b.take size)).1 then 1 else -1) ∧ st' = (L.update n st (b.take size)).2) := by
  cases buf with
  | none => exact ⟨-1, s, st, rfl, rfl, h, .inl ⟨rfl, rfl, .inl rfl⟩⟩
  | some b =>
    by_cases hm : B.maxUpdate < size
    · exact ⟨-1, s, st, by simp [bUpdate, hm], rfl, h, .inl ⟨rfl, rfl, .inr hm⟩⟩
    · by_cases h0 : size = 0
      · subst h0
        exact ⟨1, s, st, by simp [bUpdate], rfl, h, .inr (.inl ⟨b, rfl, rfl, rfl, rfl⟩)⟩
      · have hle : size ≤ b.length := hv (by have := maxUpdate_le B; unfold maxSize; unfold ssizeMax at this; omega)
        obtain ⟨s', e, hc, hH⟩ := bSetState_ok (L.update s.calls st (b.take size)).2 h
        refine ⟨_, s', _, ?_, hc, hH, .inr (.inr ⟨b, s.calls, rfl, by omega, by omega, rfl, rfl⟩)⟩
        simp only [bUpdate, if_neg hm, if_neg h0, bState_ok h, Res.ok_bind, bTake, if_pos hle, e, Res.pure_eq]

/-- A finalize on a context. -/
theorem bFinalize_ok {B : Backend} {L : Library} {base : List (Nat × BObj L.State)} {p : Nat} {st : L.State} {s : BSt L.State} (h : Holds B base p st s.live) (hashSize : Nat) (out : Option (List Byte)) (size : Nat) :
    ∃ r out' s' st', bFinalize B L hashSize (some p) out size s = .ok (r, out', s') ∧ s'.count = s.count ∧ Holds B base p st' s'.live ∧
      (r = -1 ∧ st' = st ∧ out' = out ∧ (out = none ∨ B.maxOutput < size ∨ size < hashSize) ∨
        ∃ o n, out = some o ∧ hashSize ≤ size ∧ size ≤ B.maxOutput ∧ r = (if (L.final n st o).1 then 1 else -1) ∧ out' = some (L.final n st o).2.2) := by
  cases out with
  | none => exact ⟨-1, none, s, st, rfl, rfl, h, .inl ⟨rfl, rfl, rfl, .inl rfl⟩⟩
  | some o =>
    by_cases hm : B.maxOutput < size
    · exact ⟨-1, some o, s, st, by simp [bFinalize, hm], rfl, h, .inl ⟨rfl, rfl, rfl, .inr (.inl hm)⟩⟩
    · by_cases h0 : size < hashSize
      · exact ⟨-1, some o, s, st, by simp [bFinalize, hm, h0], rfl, h, .inl ⟨rfl, rfl, rfl, .inr (.inr h0)⟩⟩
      · obtain ⟨s', e, hc, hH⟩ := bSetState_ok (L.final s.calls st o).2.1 h
        refine ⟨_, _, s', _, ?_, hc, hH, .inr ⟨o, s.calls, rfl, by omega, by omega, rfl, rfl⟩⟩
        simp only [bFinalize, if_neg hm, if_neg h0, bState_ok h, Res.ok_bind, e, Res.pure_eq]

/-- A call in any state: what it returns, with or without context. -/
theorem bStep_ok (B : Backend) (L : Library) (hashSize : Nat) (al : Nat → Bool) (base : List (Nat × BObj L.State)) (c : ApiCall) (hv : c.Valid) (slot : Option Nat) (s : BSt L.State)
    (h : SlotInv B base (fun _ => True) slot s) :
    ∃ r slot' s', bStep B L hashSize al c slot s = .ok (r, slot', s') ∧ SlotInv B base (fun _ => True) slot' s' := by
  cases slot with
  | none =>
    have h : s.live = base := h
    cases c with
    | init =>
      obtain ⟨r, slot, s', e, -, ⟨rfl, -, p, st, n, rfl, -, hH⟩ | ⟨rfl, rfl, hl, -⟩⟩ := bInitialize_ok B L al s
      · exact ⟨⟨1, none⟩, some p, s', by simp only [bStep, e, Res.ok_bind, Res.pure_eq], st, h ▸ hH, trivial⟩
      · exact ⟨⟨-1, none⟩, none, s', by simp only [bStep, e, Res.ok_bind, Res.pure_eq], hl.trans h⟩
    | initNull => exact ⟨_, none, s, rfl, h⟩
    | free => exact ⟨_, none, s, rfl, h⟩
    | freeNull => exact ⟨_, none, s, rfl, h⟩
    | update buf size => exact ⟨_, none, s, rfl, h⟩
    | finalize out size => exact ⟨_, none, s, rfl, h⟩
  | some p =>
    obtain ⟨st, h, -⟩ := h
    cases c with
    | init => exact ⟨_, some p, s, rfl, st, h, trivial⟩
    | initNull => exact ⟨_, some p, s, rfl, st, h, trivial⟩
    | free =>
      obtain ⟨s', e, -, hl⟩ := bFree_ok h
      exact ⟨⟨1, none⟩, none, s', by simp only [bStep, e, Res.ok_bind, Res.pure_eq], hl⟩
    | freeNull => exact ⟨_, some p, s, rfl, st, h, trivial⟩
    | update buf size =>
      obtain ⟨r, s', st', e, -, hH, -⟩ := bUpdate_ok h buf size hv
      exact ⟨⟨r, none⟩, some p, s', by simp only [bStep, e, Res.ok_bind, Res.pure_eq], st', hH, trivial⟩
    | finalize out size =>
      obtain ⟨r, out', s', st', e, -, hH, -⟩ := bFinalize_ok h hashSize out size
      exact ⟨⟨r, out'⟩, some p, s', by simp only [bStep, e, Res.ok_bind, Res.pure_eq], st', hH, trivial⟩

/-- Every history is free of undefined behaviour, and keeps all other objects. -/
theorem bRun_ok (B : Backend) (L : Library) (hashSize : Nat) (al : Nat → Bool) (base : List (Nat × BObj L.State)) : ∀ (cs : List ApiCall), (∀ c ∈ cs, c.Valid) → ∀ (slot : Option Nat) (s : BSt L.State),
    SlotInv B base (fun _ => True) slot s → ∃ rs slot' s', bRun B L hashSize al cs slot s = .ok (rs, slot', s') ∧ rs.length = cs.length ∧ SlotInv B base (fun _ => True) slot' s'
  | [], _, slot, s, h => ⟨[], slot, s, rfl, rfl, h⟩
  | c :: cs, hv, slot, s, h => by
    obtain ⟨r, slot1, s1, e1, h1⟩ := bStep_ok B L hashSize al base c (hv c (by simp)) slot s h
    obtain ⟨rs, slot2, s2, e2, hl, h2⟩ := bRun_ok B L hashSize al base cs (fun c hc => hv c (by simp [hc])) slot1 s1 h1
    exact ⟨r :: rs, slot2, s2, by simp only [bRun, e1, e2, Res.ok_bind, Res.pure_eq], by simp [hl], h2⟩

/-- The sizes for which a build makes the same decisions as the built-in implementation. -/
def Backend.SameSize (B : Backend) : ApiCall → Prop
  | .update _ n => n ≤ B.maxUpdate ∨ maxSize < n
  | .finalize _ n => n ≤ B.maxOutput ∨ maxSize < n
  | _ => True

/-- The relation to the abstract machine; `f`: the context was finalised. -/
def BRel {k : Kind} {L : Library} (Rep : L.State → List Byte → Prop) (B : Backend) (base : List (Nat × BObj L.State)) (f : Bool) (a : ApiState k.width) (slot : Option Nat) (s : BSt L.State) : Prop :=
  a.attempts = s.count ∧ match a.slot, slot with
    | none, none => s.live = base ∧ f = false
    | some (h0, m), some p => ∃ st, Holds B base p st s.live ∧ (f = false → h0 = k.len64.iv ∧ Rep st m)
    | _, _ => False

theorem lengthOk_of_lt (k : Kind) {n : Nat} (h : n < 2 ^ 61) : k.LengthOk n := by
  cases k with
  | sha512 => exact h
  | _ => trivial

/-- Bytes already in the context. -/
def ApiState.held {w} (a : ApiState w) : Nat := match a.slot with
  | some (_, m) => m.length
  | none => 0

theorem ssize_eq : maxSize = ssizeMax := rfl

/-- What the last call says about later use of the context. -/
def usedNext (f : Bool) (c : ApiCall) (r : Reply) : Bool := match c with
  | .finalize _ _ => decide (r.code = 1)
  | .free => false
  | _ => f

theorem usedOnce_cons {f : Bool} {c : ApiCall} {r : Reply} {t : List (ApiCall × Reply)} (h : UsedOnce f ((c, r) :: t)) :
    UsedOnce (usedNext f c r) t ∧ (∀ b n, c = .update b n → f = false) ∧ (∀ o n, c = .finalize o n → f = false) := by
  cases c with
  | update b n => exact ⟨h.2, fun _ _ _ => h.1, fun _ _ e => by cases e⟩
  | finalize o n => exact ⟨h.2, fun _ _ e => by (cases e), fun _ _ _ => h.1⟩
  | _ => exact ⟨h, fun _ _ e => by (cases e), fun _ _ e => by cases e⟩

/-- One call refines the abstract machine. -/
theorem bStep_refines {k : Kind} {L : Library} {Rep : L.State → List Byte → Prop} (hL : Contract L k Rep) (hr : Reliable L) (B : Backend) (al : Nat → Bool) (base : List (Nat × BObj L.State)) (c : ApiCall) (hv : c.Valid)
    (hs : B.SameSize c) (f : Bool) (a : ApiState k.width) (slot : Option Nat) (s : BSt L.State) (h : BRel Rep B base f a slot s) (hlen : ApiState.held a + c.bytes < 2 ^ 61)
    (hfu : ∀ b n, c = .update b n → f = false) (hff : ∀ o n, c = .finalize o n → f = false) :
    ∃ slot' s', bStep B L k.hashSize al c slot s = .ok ((apiStep k.len64 k.hashSize (List.replicate k.words 0) al c a).1, slot', s') ∧
      BRel Rep B base (usedNext f c (apiStep k.len64 k.hashSize (List.replicate k.words 0) al c a).1) (apiStep k.len64 k.hashSize (List.replicate k.words 0) al c a).2 slot' s' ∧
      ApiState.held (apiStep k.len64 k.hashSize (List.replicate k.words 0) al c a).2 ≤ ApiState.held a + c.bytes := by
  obtain ⟨hc, hrel⟩ := h
  obtain ⟨aslot, attempts⟩ := a
  simp only at hc hrel
  subst hc
  cases aslot with
  | none =>
    cases slot with
    | some p => exact hrel.elim
    | none =>
      obtain ⟨hrel, rfl⟩ : s.live = base ∧ f = false := hrel
      cases c with
      | init =>
        obtain ⟨r, slot, s', e, hcount, ⟨rfl, hal, p, st, n, rfl, hi, hH⟩ | ⟨rfl, rfl, hl, hal⟩⟩ := bInitialize_ok B L al s
        · refine ⟨some p, s', by simp only [bStep, e, Res.ok_bind, Res.pure_eq, apiStep, if_pos hal], ?_, ?_⟩
          · simp only [apiStep, if_pos hal]
            exact ⟨hcount.symm, st, hrel ▸ hH, fun _ => ⟨rfl, hL.init n st hi⟩⟩
          · simp [apiStep, if_pos hal, ApiState.held]
        · have hal : ¬ al s.count = true := by simpa using hal.resolve_right fun h => h hr
          refine ⟨none, s', by simp only [bStep, e, Res.ok_bind, Res.pure_eq, apiStep, if_neg hal], ?_, ?_⟩
          · simp only [apiStep, if_neg hal]
            exact ⟨hcount.symm, hl.trans hrel, rfl⟩
          · simp [apiStep, if_neg hal, ApiState.held]
      | initNull => exact ⟨none, s, rfl, ⟨rfl, hrel, rfl⟩, Nat.le_add_right _ _⟩
      | free => exact ⟨none, s, rfl, ⟨rfl, hrel, rfl⟩, by simp [apiStep, ApiState.held]⟩
      | freeNull => exact ⟨none, s, rfl, ⟨rfl, hrel, rfl⟩, Nat.le_add_right _ _⟩
      | update buf size => exact ⟨none, s, rfl, ⟨rfl, hrel, rfl⟩, Nat.le_add_right _ _⟩
      | finalize out size => exact ⟨none, s, rfl, ⟨rfl, hrel, rfl⟩, Nat.le_add_right _ _⟩
  | some x =>
    obtain ⟨h0, m⟩ := x
    cases slot with
    | none => exact hrel.elim
    | some p =>
      obtain ⟨st, hH, hR⟩ : ∃ st, Holds B base p st s.live ∧ (f = false → h0 = k.len64.iv ∧ Rep st m) := hrel
      cases c with
      | init => exact ⟨some p, s, rfl, ⟨rfl, st, hH, hR⟩, Nat.le_add_right _ _⟩
      | initNull => exact ⟨some p, s, rfl, ⟨rfl, st, hH, hR⟩, Nat.le_add_right _ _⟩
      | free =>
        obtain ⟨s', e, hcount, hl⟩ := bFree_ok hH
        exact ⟨none, s', by simp only [bStep, e, Res.ok_bind, Res.pure_eq, apiStep], ⟨hcount.symm, hl, rfl⟩, by simp [apiStep, ApiState.held]⟩
      | freeNull => exact ⟨some p, s, rfl, ⟨rfl, st, hH, hR⟩, Nat.le_add_right _ _⟩
      | update buf size =>
        obtain rfl := hfu buf size rfl
        obtain ⟨rfl, hRep⟩ := hR rfl
        obtain ⟨r, s', st', e, hcount, hH', hcase⟩ := bUpdate_ok hH buf size hv
        have e' : bStep B L k.hashSize al (.update buf size) (some p) s = .ok (⟨r, none⟩, some p, s') := by simp only [bStep, e, Res.ok_bind, Res.pure_eq]
        have hmax := maxUpdate_le B
        rw [← ssize_eq] at hmax
        rcases hcase with ⟨rfl, rfl, hb⟩ | ⟨b, rfl, rfl, rfl, rfl⟩ | ⟨b, n, rfl, h1, h2, rfl, rfl⟩
        · cases buf with
          | none => exact ⟨some p, s', e', ⟨hcount.symm, st', hH', fun _ => ⟨rfl, hRep⟩⟩, Nat.le_add_right _ _⟩
          | some b =>
            have hb : B.maxUpdate < size := hb.resolve_left (by simp)
            have hn : ¬ size ≤ maxSize := by
              rcases hs with hs | hs <;> omega
            simp only [apiStep, if_neg hn]
            exact ⟨some p, s', e', ⟨hcount.symm, st', hH', fun _ => ⟨rfl, hRep⟩⟩, Nat.le_add_right _ _⟩
        · simp only [apiStep, Nat.zero_le, if_true, List.take_zero, List.append_nil]
          exact ⟨some p, s', e', ⟨hcount.symm, st', hH', fun _ => ⟨rfl, hRep⟩⟩, Nat.le_add_right _ _⟩
        · have hn : size ≤ maxSize := Nat.le_trans h2 hmax
          have hl : (b.take size).length = size := by rw [List.length_take]; exact Nat.min_eq_left (hv hn)
          have hb : (ApiCall.update (some b) size).bytes = size := if_pos hn
          have ht : (m ++ b.take size).length < 2 ^ 61 := by
            simp only [ApiState.held, hb] at hlen
            rw [List.length_append, hl]
            exact hlen
          have hok := hr.update n st (b.take size)
          rw [if_pos hok] at e'
          simp only [apiStep, if_pos hn]
          refine ⟨some p, s', e', ⟨hcount.symm, _, hH', fun _ => ⟨rfl, hL.update n st m _ hRep ht hok⟩⟩, ?_⟩
          simp only [ApiState.held, hb, List.length_append, hl, Nat.le_refl]
      | finalize out size =>
        obtain rfl := hff out size rfl
        obtain ⟨rfl, hRep⟩ := hR rfl
        obtain ⟨r, out', s', st', e, hcount, hH', hcase⟩ := bFinalize_ok hH k.hashSize out size
        have e' : bStep B L k.hashSize al (.finalize out size) (some p) s = .ok (⟨r, out'⟩, some p, s') := by simp only [bStep, e, Res.ok_bind, Res.pure_eq]
        have hmax := maxOutput_le B
        rw [← ssize_eq] at hmax
        have hm : m.length < 2 ^ 61 := Nat.lt_of_le_of_lt (Nat.le_add_right _ _) hlen
        rcases hcase with ⟨rfl, rfl, rfl, hb⟩ | ⟨o, n, rfl, h1, h2, rfl, rfl⟩
        · cases out' with
          | none => exact ⟨some p, s', e', ⟨hcount.symm, st', hH', fun _ => ⟨rfl, hRep⟩⟩, Nat.le_add_right _ _⟩
          | some o =>
            have hn : ¬ (k.hashSize ≤ size ∧ size ≤ maxSize) := by
              rcases hb.resolve_left (by simp) with hb | hb
              · rcases hs with hs | hs <;> omega
              · omega
            simp only [apiStep, if_neg hn]
            exact ⟨some p, s', e', ⟨hcount.symm, st', hH', fun _ => ⟨rfl, hRep⟩⟩, Nat.le_add_right _ _⟩
        · have hn : size ≤ maxSize := Nat.le_trans h2 hmax
          have hok := hr.final n st o
          have hd := hL.final n st m o hRep hm (Nat.le_trans h1 (hv hn)) hok
          rw [if_pos hok, hd, ← len64_digest k m (lengthOk_of_lt k hm)] at e'
          have hn' : k.hashSize ≤ size ∧ size ≤ maxSize := ⟨h1, hn⟩
          simp only [apiStep, if_pos hn']
          refine ⟨some p, s', e', ⟨hcount.symm, st', hH', ?_⟩, ?_⟩
          · intro hf
            simp [usedNext] at hf
          · simp [ApiState.held]

/-- Every history refines the abstract machine. -/
theorem bRun_refines {k : Kind} {L : Library} {Rep : L.State → List Byte → Prop} (hL : Contract L k Rep) (hr : Reliable L) (B : Backend) (al : Nat → Bool) (base : List (Nat × BObj L.State)) :
    ∀ (cs : List ApiCall), (∀ c ∈ cs, c.Valid) → (∀ c ∈ cs, B.SameSize c) → ∀ (f : Bool) (a : ApiState k.width) (slot : Option Nat) (s : BSt L.State),
      BRel Rep B base f a slot s → ApiState.held a + (cs.map ApiCall.bytes).sum < 2 ^ 61 → UsedOnce f (cs.zip (specRun k al cs a).1) →
      ∃ slot' s', bRun B L k.hashSize al cs slot s = .ok ((specRun k al cs a).1, slot', s')
  | [], _, _, _, _, slot, s, _, _, _ => ⟨slot, s, rfl⟩
  | c :: cs, hv, hs, f, a, slot, s, h, hlen, hu => by
    have hu : UsedOnce f ((c, (apiStep k.len64 k.hashSize (List.replicate k.words 0) al c a).1) ::
        cs.zip (specRun k al cs (apiStep k.len64 k.hashSize (List.replicate k.words 0) al c a).2).1) := hu
    obtain ⟨hu1, hu2, hu3⟩ := usedOnce_cons hu
    simp only [List.map_cons, List.sum_cons] at hlen
    obtain ⟨slot1, s1, e1, h1, hl⟩ := bStep_refines hL hr B al base c (hv c (by simp)) (hs c (by simp)) f a slot s h (by omega) hu2 hu3
    obtain ⟨slot2, s2, e2⟩ := bRun_refines hL hr B al base cs (fun c hc => hv c (by simp [hc])) (fun c hc => hs c (by simp [hc])) _ _ slot1 s1 h1 (by omega) hu1
    refine ⟨slot2, s2, ?_⟩
    simp only [bRun, e1, Res.ok_bind, e2, Res.pure_eq]
    rfl

/-- The hash state stands for the accepted message. -/
def Accepted {L : Library} (Rep : L.State → List Byte → Prop) (acc : Option (List Byte)) (st : L.State) : Prop :=
  ∀ m, acc = some m → m.length < 2 ^ 61 → Rep st m

/-- `accepted` after one call. -/
def acceptedNext (c : ApiCall) (r : Reply) (m : Option (List Byte)) : Option (List Byte) := accepted [(c, r)] m

theorem accepted_cons (c : ApiCall) (r : Reply) (t : List (ApiCall × Reply)) (m : Option (List Byte)) : accepted ((c, r) :: t) m = accepted t (acceptedNext c r m) := by
  cases c with
  | update b n => cases b <;> rfl
  | finalize o n => cases o <;> rfl
  | _ => rfl

theorem accepted_append : ∀ (a b : List (ApiCall × Reply)) (m : Option (List Byte)), accepted (a ++ b) m = accepted b (accepted a m)
  | [], _, _ => rfl
  | (c, r) :: a, b, m => by
    rw [List.cons_append, accepted_cons, accepted_cons, accepted_append a b]

theorem bStep_accepted {k : Kind} {L : Library} {Rep : L.State → List Byte → Prop} (hL : Contract L k Rep) (B : Backend) (al : Nat → Bool) (base : List (Nat × BObj L.State)) (c : ApiCall) (hv : c.Valid)
    (acc : Option (List Byte)) (slot : Option Nat) (s : BSt L.State) (h : SlotInv B base (Accepted Rep acc) slot s) :
    ∃ r slot' s', bStep B L k.hashSize al c slot s = .ok (r, slot', s') ∧ SlotInv B base (Accepted Rep (acceptedNext c r acc)) slot' s' ∧
      (∀ o size, c = .finalize (some o) size → r.code = 1 → ∀ m, acc = some m → m.length < 2 ^ 61 → r.out = some (k.std.digest m ++ o.drop k.hashSize)) := by
  cases slot with
  | none =>
    have h : s.live = base := h
    cases c with
    | init =>
      obtain ⟨r, slot, s', e, -, ⟨rfl, -, p, st, n, rfl, hi, hH⟩ | ⟨rfl, rfl, hl, -⟩⟩ := bInitialize_ok B L al s
      · refine ⟨⟨1, none⟩, some p, s', by simp only [bStep, e, Res.ok_bind, Res.pure_eq], ⟨st, h ▸ hH, ?_⟩, fun _ _ e => by cases e⟩
        intro m hm _
        obtain rfl : [] = m := by simpa [acceptedNext, accepted] using hm
        exact hL.init n st hi
      · exact ⟨⟨-1, none⟩, none, s', by simp only [bStep, e, Res.ok_bind, Res.pure_eq], hl.trans h, fun _ _ e => by cases e⟩
    | initNull => exact ⟨_, none, s, rfl, h, fun _ _ e => by cases e⟩
    | free => exact ⟨_, none, s, rfl, h, fun _ _ e => by cases e⟩
    | freeNull => exact ⟨_, none, s, rfl, h, fun _ _ e => by cases e⟩
    | update buf size => exact ⟨_, none, s, rfl, h, fun _ _ e => by cases e⟩
    | finalize out size => exact ⟨⟨-1, out⟩, none, s, rfl, h, fun _ _ _ hr => by simp at hr⟩
  | some p =>
    obtain ⟨st, h, hA⟩ := h
    cases c with
    | init =>
      refine ⟨⟨-1, none⟩, some p, s, rfl, ⟨st, h, ?_⟩, fun _ _ e => by cases e⟩
      simpa [acceptedNext, accepted] using hA
    | initNull => exact ⟨_, some p, s, rfl, ⟨st, h, hA⟩, fun _ _ e => by cases e⟩
    | free =>
      obtain ⟨s', e, -, hl⟩ := bFree_ok h
      exact ⟨⟨1, none⟩, none, s', by simp only [bStep, e, Res.ok_bind, Res.pure_eq], hl, fun _ _ e => by cases e⟩
    | freeNull => exact ⟨_, some p, s, rfl, ⟨st, h, hA⟩, fun _ _ e => by cases e⟩
    | update buf size =>
      obtain ⟨r, s', st', e, -, hH, hcase⟩ := bUpdate_ok h buf size hv
      refine ⟨⟨r, none⟩, some p, s', by simp only [bStep, e, Res.ok_bind, Res.pure_eq], ⟨st', hH, ?_⟩, fun _ _ e => by cases e⟩
      rcases hcase with ⟨rfl, rfl, hb⟩ | ⟨b, rfl, rfl, rfl, rfl⟩ | ⟨b, n, rfl, h1, h2, rfl, rfl⟩
      · cases buf with
        | none => exact hA
        | some b =>
          intro m hm
          simp [acceptedNext, accepted] at hm
      · intro m hm hlt
        cases acc with
        | none => simp [acceptedNext, accepted] at hm
        | some m0 =>
          obtain rfl : m0 = m := by simpa [acceptedNext, accepted] using hm
          exact hA _ rfl hlt
      · intro m hm hlt
        by_cases hok : (L.update n st (b.take size)).1 = true
        · cases acc with
          | none => simp [acceptedNext, accepted, hok] at hm
          | some m0 =>
            obtain rfl : m0 ++ b.take size = m := by simpa [acceptedNext, accepted, hok] using hm
            exact hL.update n st m0 _ (hA m0 rfl (by rw [List.length_append] at hlt; omega)) hlt hok
        · simp [acceptedNext, accepted, hok] at hm
    | finalize out size =>
      obtain ⟨r, out', s', st', e, -, hH, hcase⟩ := bFinalize_ok h k.hashSize out size
      refine ⟨⟨r, out'⟩, some p, s', by simp only [bStep, e, Res.ok_bind, Res.pure_eq], ⟨st', hH, ?_⟩, ?_⟩
      · rcases hcase with ⟨rfl, rfl, rfl, hb⟩ | ⟨o, n, rfl, h1, h2, rfl, rfl⟩
        · cases out' with
          | none => exact hA
          | some o =>
            intro m hm
            simp [acceptedNext, accepted] at hm
        · intro m hm
          simp [acceptedNext, accepted] at hm
      · rintro o size' ⟨⟩ hr m rfl hm
        have hmax := maxOutput_le B
        rw [← ssize_eq] at hmax
        rcases hcase with ⟨rfl, -, -, -⟩ | ⟨o', n, ⟨⟩, h1, h2, rfl, rfl⟩
        · simp at hr
        · have hok : (L.final n st o).1 = true := by
            by_contra hno
            simp [hno] at hr
          exact congrArg some (hL.final n st m o (hA m rfl hm) hm (Nat.le_trans h1 (hv (Nat.le_trans h2 hmax))) hok)

theorem bRun_accepted {k : Kind} {L : Library} {Rep : L.State → List Byte → Prop} (hL : Contract L k Rep) (B : Backend) (al : Nat → Bool) (base : List (Nat × BObj L.State)) :
    ∀ (cs : List ApiCall), (∀ c ∈ cs, c.Valid) → ∀ (acc : Option (List Byte)) (slot : Option Nat) (s : BSt L.State), SlotInv B base (Accepted Rep acc) slot s →
      ∃ rs slot' s', bRun B L k.hashSize al cs slot s = .ok (rs, slot', s') ∧ SlotInv B base (Accepted Rep (accepted (cs.zip rs) acc)) slot' s' ∧ rs.length = cs.length ∧
        (∀ (i : Nat) o size r, cs[i]? = some (.finalize (some o) size) → rs[i]? = some r → r.code = 1 → ∀ m, accepted ((cs.zip rs).take i) acc = some m → m.length < 2 ^ 61 →
          r.out = some (k.std.digest m ++ o.drop k.hashSize))
  | [], _, acc, slot, s, h => ⟨[], slot, s, rfl, h, rfl, fun i o size r hc => by simp at hc⟩
  | c :: cs, hv, acc, slot, s, h => by
    obtain ⟨r, slot1, s1, e1, h1, hd⟩ := bStep_accepted hL B al base c (hv c (by simp)) acc slot s h
    obtain ⟨rs, slot2, s2, e2, h2, hl, hds⟩ := bRun_accepted hL B al base cs (fun c hc => hv c (by simp [hc])) _ slot1 s1 h1
    refine ⟨r :: rs, slot2, s2, by simp only [bRun, e1, e2, Res.ok_bind, Res.pure_eq], ?_, by simp [hl], ?_⟩
    · rw [List.zip_cons_cons, accepted_cons]
      exact h2
    · intro i o size r' hc hr' hcode m hm hlt
      cases i with
      | zero =>
        obtain rfl : c = _ := by simpa using hc
        obtain rfl : r = r' := by simpa using hr'
        exact hd o size rfl hcode m hm hlt
      | succ i =>
        rw [List.zip_cons_cons, List.take_succ_cons, accepted_cons] at hm
        exact hds i o size r' (by simpa using hc) (by simpa using hr') hcode m hm hlt

end Model
