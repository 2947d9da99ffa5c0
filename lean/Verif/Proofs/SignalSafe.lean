import Verif.Proofs.Signal
/-! Lemmas for C68: the program with signals ends without undefined behaviour, except in two stretches of the code; and when it is not killed. -/

namespace Model

open Spec (Line Message)

/-! ### No undefined behaviour -/

theorem deliver_ok (resets : Bool) : ∀ (n : Nat) (p : Proc), p.var ≠ .freed ∨ p.attached = false ∨ n = 0 → ∃ r, deliver resets n p = .ok r
  | 0, p, _ => ⟨_, rfl⟩
  | n + 1, p, h => by
    unfold deliver
    split
    · exact ⟨_, rfl⟩
    · rename_i ha
      have hv : p.var ≠ .freed := by
        rcases h with h | h | h
        · exact h
        · exact absurd (by simp [h]) ha
        · omega
      have : ∃ p1, signalHandler p = .ok p1 ∧ p1.var ≠ .freed := by
        unfold signalHandler
        split
        · rename_i h
          exact ⟨_, rfl, hv⟩
        · exact ⟨_, rfl, fun h => by cases h⟩
        · contradiction
      obtain ⟨p1, e, hv1⟩ := this
      rw [e, Res.ok_bind]
      exact deliver_ok resets n _ (.inl hv1)

theorem pass_ok {S : Signals} {pt : Point} {p : Proc} {k : Proc → Res Fate} (h : p.var ≠ .freed ∨ p.attached = false ∨ S.count pt = 0) (hk : ∀ q, Moved p q → ∃ f, k q = .ok f) :
    ∃ f, pass S pt p k = .ok f := by
  obtain ⟨⟨dead, q⟩, e⟩ := deliver_ok S.resets (S.count pt) p h
  unfold pass
  rw [e, Res.ok_bind]
  cases dead with
  | true => exact ⟨_, rfl⟩
  | false => exact hk q (deliver_moved _ _ _ _ _ e).1

theorem Slot.ne_freed {v : Var} {slot : Option Handle} (h : Slot v slot) : v ≠ .freed := by
  rcases h with ⟨h, -⟩ | ⟨g, b, -, h⟩ <;> (rw [h]; exact fun e => by cases e)

theorem passReads_ok {S : Signals} {k : Proc → Res Fate} {slot : Option Handle} : ∀ {n i : Nat} {p : Proc}, Slot p.var slot → (∀ q, Moved p q → ∃ f, k q = .ok f) → ∃ f, passReads S i n p k = .ok f
  | 0, _, p, _, hk => hk p (.refl p)
  | n + 1, i, p, hs, hk => pass_ok (.inl hs.ne_freed) fun q m => passReads_ok (m.slot hs) fun q' m' => hk q' (m.trans m')

theorem passLines_ok {S : Signals} {k : Proc → Res Fate} {slot : Option Handle} {W : World} : ∀ {ls : List Line} {i : Nat} {p : Proc}, Slot p.var slot → p.world = W →
    (∀ q, Slot q.var slot → q.world = W → ∃ f, k q = .ok f) → ∃ f, passLines S i ls p k = .ok f
  | [], i, p, hs, hw, hk => pass_ok (.inl hs.ne_freed) fun q m => hk q (m.slot hs) (m.world.trans hw)
  | l :: ls, i, p, hs, hw, hk => pass_ok (.inl hs.ne_freed) fun q m => passLines_ok (p := { q with out := q.out ++ [l] }) (m.slot hs) (m.world.trans hw) hk

theorem noneInv_self (W : World) : NoneInv (fun w => (W.mem.live w).map (·.1)) W.blocks W := ⟨fun _ => List.Perm.refl _, List.Perm.refl _⟩

section safe

variable {E : Environment} {C : SystemCalls} {S : Signals} {base : Nat → List Nat}

/-- The stretches in which the handler finds the address of a freed handle: none of the signals comes there. -/
structure Clear (C : SystemCalls) (S : Signals) : Prop where
  releasing : S.count .releasing = 0
  freeing : C.detach = true ∨ S.count .freeing = 0

theorem sOnError_safe (hT : E.tool.Ok) (hC : Clear C S) {p : Proc} {slot : Option Handle} {blk : List Nat} (hs : Slot p.var slot) (hI : VarInv E.tool base blk slot p.world) : ∃ f, sOnError E S p = .ok f := by
  refine pass_ok (.inl hs.ne_freed) fun q m => ?_
  rcases m.slot (p := { p with error := false }) hs with ⟨hq, -⟩ | ⟨g, b, rfl, hq⟩
  · rw [hq]
    exact pass_ok (.inl (by rw [hq]; exact fun h => by cases h)) fun _ _ => ⟨_, rfl⟩
  · rw [hq]
    dsimp only
    have hw : q.world = p.world := m.world
    obtain ⟨W1, e, -⟩ := sumFree_ok hT E.freeOk blk (some g) p.world hI
    rw [sumFree_withAbort, hw, e, Res.ok_bind]
    exact pass_ok (.inr (.inr hC.releasing)) fun _ _ => pass_ok (.inl fun h => by cases h) fun _ _ => ⟨_, rfl⟩

theorem sOnAbort_safe (hT : E.tool.Ok) (hC : Clear C S) {p : Proc} {g : Handle} {blk : List Nat} (hs : Slot p.var (some g)) (hI : HandleInv E.tool base blk g p.world) : ∃ f, sOnAbort E C S p = .ok f := by
  unfold sOnAbort
  split
  · exact sOnError_safe (base := base) (blk := blk) (slot := some g) hT hC hs hI
  refine pass_ok (.inl hs.ne_freed) fun q m => ?_
  have hs1 := m.slot hs
  generalize hp1 : (if signalDetach C.detach ≠ 1 then { q with err := q.err ++ [.detach], error := false } else { q with attached := false }) = p1
  have h1 : p1.var = q.var ∧ p1.world = p.world ∧ (C.detach = true → p1.attached = false) := by
    rw [← hp1]
    split
    · rename_i h
      exact ⟨rfl, m.world, fun hd => absurd (by rw [hd]; rfl) h⟩
    · exact ⟨rfl, m.world, fun _ => rfl⟩
  rw [← h1.1] at hs1
  refine pass_ok (.inl hs1.ne_freed) fun q2 m2 => ?_
  rcases m2.slot hs1 with ⟨-, h⟩ | ⟨g', b, h, hq⟩
  · cases h
  cases h
  rw [hq]
  dsimp only
  obtain ⟨W1, e, hN⟩ := sumFree_ok hT E.freeOk blk (some g) p.world hI
  rw [sumFree_withAbort, m2.world, h1.2.1, e, Res.ok_bind]
  generalize (if (E.freeOk || (some g).isNone) = true then (1 : Int) else -1) = r
  refine pass_ok ?_ fun q3 m3 => ?_
  · rcases hC.freeing with hd | hd
    · have ha := h1.2.2 hd
      refine .inr (.inl ?_)
      rw [m2.detached ha]
      exact ha
    · exact .inr (.inr hd)
  dsimp only
  split
  · refine sOnError_safe (base := base) (blk := blk) (slot := none) hT hC (.inl ⟨rfl, rfl⟩) ?_
    show VarInv E.tool base blk none q3.world
    rw [m3.world]
    exact hN
  · refine pass_ok (.inl fun h => by cases h) fun q4 m4 => ?_
    have hv : q4.var = .null := m4.null rfl
    split
    · exact pass_ok (.inl (by rw [hv]; exact fun h => by cases h)) fun _ _ => ⟨_, rfl⟩
    · exact pass_ok (.inl (by rw [hv]; exact fun h => by cases h)) fun _ _ => ⟨_, rfl⟩

theorem processInput_printable {T : Tool} (hT : T.Ok) {inp : Input} {aborted : Nat → Bool} {blk : List Nat} {h h' : Handle} {W W' : World} (hI : HandleInv T base blk h W)
    (e : processInput T inp aborted h W = .ok (1, h', W')) : ∃ ds, printHashes digestOrder h' = .ok ds := by
  obtain ⟨⟨b, hrel⟩, hstr, -, -⟩ := hI
  obtain ⟨r, ctx', str', ab', pos', rc', V, b', e2, -, -, -, -, -, -, -, -, hsuc, -⟩ := processInput_ok hT inp aborted h W b hrel hstr
  rw [e] at e2
  injection e2 with e2
  have hr : (1 : Int) = r := congrArg Prod.fst e2
  have hh := congrArg (fun y => y.2.1) e2
  dsimp only at hh
  obtain ⟨size, d, -, -, -, -, -, -, -, -, -, -, hk⟩ := hsuc hr.symm
  refine ⟨_, printHashes_ok h' (fun k hc => ?_) digestOrder⟩
  rw [hh] at hc ⊢
  have := hk k
  rw [if_pos hc] at this
  obtain ⟨p, s, -, h2⟩ := this
  exact ⟨p, _, h2, by simp⟩

theorem sProcessAndPrint_safe (hT : E.tool.Ok) (hC : Clear C S) {inp : Input} {p : Proc} {h : Handle} {blk : List Nat} (hv : p.var = .live h) (hI : HandleInv E.tool base blk h p.world) :
    ∃ f, sProcessAndPrint E C S inp p = .ok f := by
  unfold sProcessAndPrint
  rw [hv]
  dsimp only
  generalize (fun n => p.attached && (List.range (n + 1)).any fun k => decide (0 < S.count (.read k))) = ab
  obtain ⟨r, h1, W, e, hI1, -, -⟩ := processInput_inv hT inp ab blk h p.world hI
  rw [e, Res.ok_bind]
  dsimp only
  refine passReads_ok (slot := some h1) (.inr ⟨h1, h1.abort, rfl, rfl⟩) fun q m => ?_
  have hs : Slot q.var (some h1) := m.slot (.inr ⟨h1, h1.abort, rfl, rfl⟩)
  have hw : q.world = W := m.world
  refine pass_ok (.inl hs.ne_freed) fun q2 m2 => ?_
  have hs2 := m2.slot hs
  have hw2 : q2.world = W := m2.world.trans hw
  by_cases ha : q2.abort = true
  · rw [if_pos ha]
    exact sOnAbort_safe hT hC hs2 (hw2 ▸ hI1)
  rw [if_neg ha]
  by_cases hr : r = 1
  · rw [if_neg (by simpa using hr)]
    subst hr
    rcases hs2 with ⟨-, h⟩ | ⟨g, b, h, hq⟩
    · cases h
    cases h
    obtain ⟨ds, e2⟩ := processInput_printable hT hI e
    rw [hq]
    dsimp only
    rw [printHashes_withAbort, e2, Res.ok_bind]
    exact passLines_ok (.inr ⟨h1, b, rfl, hq⟩) hw2 fun q3 hs3 hw3 => sOnAbort_safe hT hC hs3 (hw3 ▸ hI1)
  · rw [if_pos hr]
    exact sOnError_safe (base := base) (blk := blk) (slot := some h1) hT hC hs2 (by show HandleInv E.tool base blk h1 q2.world; rw [hw2]; exact hI1)

theorem sOpenAndProcess_safe (hT : E.tool.Ok) (hC : Clear C S) {source : List Nat} {p : Proc} {h : Handle} {blk : List Nat} (hv : p.var = .live h) (hI : HandleInv E.tool base blk h p.world) :
    ∃ f, sOpenAndProcess E C S source p = .ok f := by
  unfold sOpenAndProcess
  rw [hv]
  dsimp only
  have hI1 : HandleInv E.tool base blk (openInput (E.files source).isSome h).2 p.world := by
    unfold openInput
    split <;> exact hI
  generalize openInput (E.files source).isSome h = y at hI1 ⊢
  refine pass_ok (.inl fun h => by cases h) fun q m => ?_
  have hs : Slot q.var (some y.2) := m.slot (.inr ⟨y.2, y.2.abort, rfl, rfl⟩)
  have hw : q.world = p.world := m.world
  have hI1 : HandleInv E.tool base blk y.2 q.world := by rw [hw]; exact hI1
  by_cases ha : q.abort = true
  · rw [if_pos ha]
    exact sOnAbort_safe hT hC hs hI1
  rw [if_neg ha]
  split
  · exact sOnError_safe (base := base) (blk := blk) (slot := some y.2) hT hC hs hI1
  · rcases hs with ⟨-, h⟩ | ⟨g, b, h, hq⟩
    · cases h
    cases h
    exact sProcessAndPrint_safe hT hC hq (h := y.2.withAbort b) hI1

theorem sRunSource_safe (hT : E.tool.Ok) (hdp : E.dp ≠ some 0) (hC : Clear C S) {o : Options} {source : List Nat} {p : Proc} (hv : p.var = .null) : ∃ f, sRunSource E C S o source p = .ok f := by
  refine pass_ok (.inl (by rw [hv]; exact fun h => by cases h)) fun q m => ?_
  have hv : q.var = .null := m.null hv
  rcases sumInitialize_ok hT q.world.blocks q.world (noneInv_self q.world) with ⟨h, W1, e1, hI, -, -, hbs, -⟩ | ⟨W1, extra, e1, hN, -⟩
  · rw [e1, Res.ok_bind]
    dsimp only
    rw [if_neg (by decide)]
    obtain ⟨ok, m, e2, -, -⟩ := applyBufferSize_ok hdp o h hbs
    rw [← mApplyBufferSize_erase o q.err] at e2
    obtain ⟨⟨ok1, h1, err1⟩, e3, e2⟩ := Res.bind_eq_ok e2
    rw [e3, Res.ok_bind]
    cases e2
    have hI2 : HandleInv E.tool _ q.world.blocks { h with bufferSize := m } W1 := hI
    dsimp only
    by_cases hok : ok1 = true
    swap
    · rw [if_pos (by simpa using hok)]
      exact sOnError_safe (slot := some { h with bufferSize := m }) hT hC (.inr ⟨_, h.abort, rfl, rfl⟩) hI2
    rw [if_neg (by simpa using hok)]
    have : ∃ ok2 h2 W2, applyDigests E o { h with bufferSize := m } W1 = .ok (ok2, h2, W2) ∧ HandleInv E.tool (fun w => (q.world.mem.live w).map (·.1)) q.world.blocks h2 W2 := by
      unfold applyDigests
      split
      · exact ⟨_, _, _, rfl, hI2⟩
      · rename_i s hd
        obtain ⟨r, calc', str', W2, e3, h3, -⟩ := setDigestTypes_ok hT E.mc E.splitOk E.splitFreeOk s q.world.blocks _ W1 hI2
        rw [e3]
        exact ⟨_, _, _, rfl, h3⟩
    obtain ⟨ok2, h2, W2, e4, hI3⟩ := this
    rw [← mApplyDigests_erase o err1] at e4
    obtain ⟨⟨ok2', h2', W2', err2⟩, e5, e4⟩ := Res.bind_eq_ok e4
    cases e4
    rw [e5, Res.ok_bind]
    dsimp only
    by_cases hok : ok2' = true
    swap
    · rw [if_pos (by simpa using hok)]
      exact sOnError_safe (slot := some h2') hT hC (.inr ⟨h2', h2'.abort, rfl, rfl⟩) hI3
    rw [if_neg (by simpa using hok)]
    refine pass_ok (.inl fun h => by cases h) fun q2 m2 => ?_
    obtain ⟨b, hq⟩ := m2.live h2' rfl
    have hw : q2.world = W2' := m2.world
    have hI4 : HandleInv E.tool (fun w => (q.world.mem.live w).map (·.1)) q.world.blocks (h2'.withAbort b) q2.world := by rw [hw]; exact hI3
    split
    · exact sOpenAndProcess_safe hT hC hq hI4
    · exact sOpenAndProcess_safe hT hC hq hI4
  · rw [e1, Res.ok_bind]
    dsimp only
    rw [if_pos (by decide)]
    exact sOnError_safe (slot := none) hT hC (.inl ⟨rfl, rfl⟩) hN

theorem sHmacsum_parsed (hT : E.tool.Ok) (hdp : E.dp ≠ some 0) (hC : Clear C S) {args : List (List Nat)} {p' : Parsed} {arg : List Nat}
    (hp : mParseOptions E.mc args ((args.map List.length).sum + 1) ⟨none, none, false⟩ optInit = .ok (p', arg)) (W : World) : ∃ f, sHmacsum E C S args W = .ok f := by
  have err : ∀ q : Proc, q.var = .null → ∃ f, sOnError E S q = .ok f := fun q hq => sOnError_safe (slot := none) hT hC (.inl ⟨hq, rfl⟩) (noneInv_self q.world)
  refine pass_ok (.inl fun h => by cases h) fun q m => ?_
  have hv : q.var = .null := m.null rfl
  split
  · exact err _ hv
  split
  · exact err _ hv
  refine pass_ok (.inl (by rw [show Proc.var { q with out := [.version] } = q.var from rfl, hv]; exact fun h => by cases h)) fun q2 m2 => ?_
  have hv2 : q2.var = .null := m2.null hv
  rw [hp, Res.ok_bind]
  cases p' with
  | run o source => exact sRunSource_safe hT hdp hC hv2
  | help => exact pass_ok (.inl (by show q2.var ≠ .freed; rw [hv2]; exact fun h => by cases h)) fun _ _ => ⟨_, rfl⟩
  | version => exact pass_ok (.inl (by show q2.var ≠ .freed; rw [hv2]; exact fun h => by cases h)) fun _ _ => ⟨_, rfl⟩
  | invalid => exact err _ hv2
  | missing => exact err _ hv2

theorem sHmacsum_safe (hT : E.tool.Ok) (hdp : E.dp ≠ some 0) (hC : Clear C S) (bodies : List (List Nat)) (hne : bodies ≠ []) (h0 : ∀ b ∈ bodies, 0 ∉ b) (hdash : ∀ b ∈ bodies.drop 1, b ≠ [45]) (W : World) :
    ∃ f, sHmacsum E C S (argVector bodies) W = .ok f := by
  obtain ⟨b, bs, rfl⟩ := List.exists_cons_of_ne_nil hne
  obtain ⟨p, hp⟩ := parse_ok E.mc (b :: bs) h0 hdash (((argVector (b :: bs)).map List.length).sum + 1) ⟨none, none, false⟩ optInit ⟨by simp [optInit], by simp [optInit], by simp [optInit]⟩ (by simp [optInit])
    (by
      simp only [OptState.work, optInit, remaining, List.drop_one, List.tail_cons, argVector, List.map_cons, List.sum_cons, List.map_map]
      have : (List.length ∘ fun x : List Nat => x ++ [0]) = fun b => b.length + 1 := by funext; simp
      rw [this]
      omega)
  rw [← mParseOptions_erase] at hp
  obtain ⟨⟨p', arg⟩, hp, hpp⟩ := Res.bind_eq_ok hp
  exact sHmacsum_parsed hT hdp hC hp W

/-! ### Signals between attaching and detaching the handler do not kill -/

/-- The moments between attaching and detaching the handler on the way of a program that does not fail. -/
def Point.guarded : Point → Bool
  | .opening | .read _ | .processed | .printing _ | .closing => true
  | _ => false

/-- Signals come at these moments only. -/
def Guarded (S : Signals) : Prop := ∀ pt, pt.guarded = false → S.count pt = 0

theorem deliver_keeps : ∀ (n : Nat) (p q : Proc) (dead : Bool), deliver false n p = .ok (dead, q) → p.attached = true → dead = false ∧ q.attached = true
  | 0, p, q, dead, e, h => by
    cases e
    exact ⟨rfl, h⟩
  | n + 1, p, q, dead, e, h => by
    unfold deliver at e
    rw [if_neg (by simp [h])] at e
    obtain ⟨p1, -, e⟩ := Res.bind_eq_ok e
    exact deliver_keeps n _ q dead e rfl

def Fate.exits (f : Fate) : Prop := ∃ x q, f = .exited x q

theorem pass_alive (hr : S.resets = false) {pt : Point} {p : Proc} {k : Proc → Res Fate} {f : Fate} (e : pass S pt p k = .ok f) (h : S.count pt = 0 ∨ p.attached = true)
    (hk : ∀ q, q.attached = p.attached → k q = .ok f → f.exits) : f.exits := by
  unfold pass at e
  rw [hr] at e
  obtain ⟨⟨dead, q⟩, e1, e⟩ := Res.bind_eq_ok e
  rcases h with h | h
  · rw [h] at e1
    cases e1
    exact hk _ rfl e
  · obtain ⟨rfl, ha⟩ := deliver_keeps _ _ _ _ e1 h
    exact hk q (ha.trans h.symm) e

theorem leave_exits {b : Bool} {p : Proc} {f : Fate} (e : leave b p = .ok f) : f.exits := by
  cases e
  exact ⟨_, _, rfl⟩

theorem sOnError_alive (hr : S.resets = false) (hg : Guarded S) {p : Proc} {f : Fate} (e : sOnError E S p = .ok f) : f.exits := by
  refine pass_alive hr e (.inl (hg _ rfl)) fun q _ e => ?_
  split at e
  · exact pass_alive hr e (.inl (hg _ rfl)) fun q _ e => leave_exits e
  · obtain ⟨⟨r, sl, W⟩, -, e⟩ := Res.bind_eq_ok e
    exact pass_alive hr e (.inl (hg _ rfl)) fun q _ e => pass_alive hr e (.inl (hg _ rfl)) fun q _ e => leave_exits e
  · cases e

theorem sOnAbort_alive (hr : S.resets = false) (hg : Guarded S) {p : Proc} {f : Fate} (e : sOnAbort E C S p = .ok f) (ha : p.attached = true) : f.exits := by
  unfold sOnAbort at e
  split at e
  · exact sOnError_alive hr hg e
  refine pass_alive hr e (.inr ha) fun q _ e => pass_alive hr e (.inl (hg _ rfl)) fun q _ e => ?_
  split at e
  · obtain ⟨⟨r, sl, W⟩, -, e⟩ := Res.bind_eq_ok e
    refine pass_alive hr e (.inl (hg _ rfl)) fun q _ e => ?_
    split at e
    · exact sOnError_alive hr hg e
    · refine pass_alive hr e (.inl (hg _ rfl)) fun q _ e => ?_
      split at e
      · exact pass_alive hr e (.inl (hg _ rfl)) fun q _ e => leave_exits e
      · exact pass_alive hr e (.inl (hg _ rfl)) fun q _ e => leave_exits e
  · cases e

theorem passReads_alive (hr : S.resets = false) {k : Proc → Res Fate} {f : Fate} (hk : ∀ q, q.attached = true → k q = .ok f → f.exits) : ∀ {n i : Nat} {p : Proc}, passReads S i n p k = .ok f → p.attached = true →
    f.exits
  | 0, _, p, e, ha => hk p ha e
  | n + 1, i, p, e, ha => pass_alive hr e (.inr ha) fun q h e => passReads_alive hr hk e (h.trans ha)

theorem passLines_alive (hr : S.resets = false) {k : Proc → Res Fate} {f : Fate} (hk : ∀ q, q.attached = true → k q = .ok f → f.exits) : ∀ {ls : List Line} {i : Nat} {p : Proc}, passLines S i ls p k = .ok f →
    p.attached = true → f.exits
  | [], i, p, e, ha => pass_alive hr e (.inr ha) fun q h e => hk q (h.trans ha) e
  | l :: ls, i, p, e, ha => pass_alive hr e (.inr ha) fun q h e => passLines_alive hr hk e (h.trans ha)

theorem sProcessAndPrint_alive (hr : S.resets = false) (hg : Guarded S) {inp : Input} {p : Proc} {f : Fate} (e : sProcessAndPrint E C S inp p = .ok f) (ha : p.attached = true) : f.exits := by
  unfold sProcessAndPrint at e
  split at e
  swap
  · cases e
  obtain ⟨⟨r, h1, W⟩, -, e⟩ := Res.bind_eq_ok e
  refine passReads_alive hr (fun q hq e => pass_alive hr e (.inr hq) fun q2 h2 e => ?_) e ha
  have h2 := h2.trans hq
  by_cases hab : q2.abort = true
  · rw [if_pos hab] at e
    exact sOnAbort_alive hr hg e h2
  rw [if_neg hab] at e
  split at e
  · exact sOnError_alive hr hg e
  split at e
  · obtain ⟨ds, -, e⟩ := Res.bind_eq_ok e
    exact passLines_alive hr (fun q3 h3 e => sOnAbort_alive hr hg e h3) e h2
  · cases e

theorem sOpenAndProcess_alive (hr : S.resets = false) (hg : Guarded S) {source : List Nat} {p : Proc} {f : Fate} (e : sOpenAndProcess E C S source p = .ok f) (ha : p.attached = true) : f.exits := by
  unfold sOpenAndProcess at e
  split at e
  swap
  · cases e
  refine pass_alive hr e (.inr ha) fun q hq e => ?_
  have hq := hq.trans ha
  split at e
  · exact sOnAbort_alive hr hg e hq
  split at e
  · exact sOnError_alive hr hg e
  · exact sProcessAndPrint_alive hr hg e hq

theorem sRunSource_alive (hr : S.resets = false) (hg : Guarded S) (hat : C.attach = true) {o : Options} {source : List Nat} {p : Proc} {f : Fate} (e : sRunSource E C S o source p = .ok f) : f.exits := by
  refine pass_alive hr e (.inl (hg _ rfl)) fun q _ e => ?_
  obtain ⟨⟨r, slot, W⟩, -, e⟩ := Res.bind_eq_ok e
  dsimp only at e
  split at e
  · exact sOnError_alive hr hg e
  split at e
  · cases e
  obtain ⟨⟨ok, h, err⟩, -, e⟩ := Res.bind_eq_ok e
  dsimp only at e
  split at e
  · exact sOnError_alive hr hg e
  obtain ⟨⟨ok2, h2, W2, err2⟩, -, e⟩ := Res.bind_eq_ok e
  dsimp only at e
  split at e
  · exact sOnError_alive hr hg e
  refine pass_alive hr e (.inl (hg _ rfl)) fun q2 _ e => ?_
  rw [if_neg (by rw [hat]; decide)] at e
  exact sOpenAndProcess_alive hr hg e rfl

theorem sHmacsum_alive (hr : S.resets = false) (hg : Guarded S) (hat : C.attach = true) {args : List (List Nat)} {W : World} {f : Fate} (e : sHmacsum E C S args W = .ok f) : f.exits := by
  refine pass_alive hr e (.inl (hg _ rfl)) fun q _ e => ?_
  split at e
  · exact sOnError_alive hr hg e
  split at e
  · exact sOnError_alive hr hg e
  refine pass_alive hr e (.inl (hg _ rfl)) fun q2 _ e => ?_
  obtain ⟨⟨p, arg⟩, -, e⟩ := Res.bind_eq_ok e
  cases p <;> dsimp only at e
  · exact sRunSource_alive hr hg hat e
  · exact pass_alive hr e (.inl (hg _ rfl)) fun q _ e => leave_exits e
  · exact pass_alive hr e (.inl (hg _ rfl)) fun q _ e => leave_exits e
  · exact sOnError_alive hr hg e
  · exact sOnError_alive hr hg e

/-! ### Without signals -/

/-- The exit, messages and memory of a process that exits. -/
def Fate.seen : Fate → Res (ExitM × World)
  | .exited x q => .ok (x, q.world)
  | .killed _ => .ub

theorem Res.bind_same' {α β : Type} {m : Res α} {f g : α → Res β} (h : ∀ a, m = .ok a → f a = g a) : (m >>= f) = (m >>= g) := by
  cases m with
  | ok a => exact h a rfl
  | ub => rfl
  | diverge => rfl

/-- No signals. -/
def Silent (S : Signals) : Prop := ∀ pt, S.count pt = 0

theorem pass_none (hS : Silent S) (pt : Point) (p : Proc) (k : Proc → Res Fate) : pass S pt p k = k p := by
  unfold pass
  rw [hS pt]
  rfl

theorem passReads_none (hS : Silent S) (k : Proc → Res Fate) : ∀ (n i : Nat) (p : Proc), passReads S i n p k = k p
  | 0, _, _ => rfl
  | n + 1, i, p => by
    rw [passReads, pass_none hS]
    exact passReads_none hS k n (i + 1) p

theorem passLines_none (hS : Silent S) (k : Proc → Res Fate) : ∀ (ls : List Line) (i : Nat) (p : Proc), passLines S i ls p k = k { p with out := p.out ++ ls }
  | [], i, p => by
    rw [passLines, pass_none hS, List.append_nil]
  | l :: ls, i, p => by
    rw [passLines, pass_none hS, passLines_none hS k ls]
    simp

theorem sOnError_none (hS : Silent S) (p : Proc) (slot : Option Handle) (hv : p.var = Var.ofSlot slot) : (sOnError E S p >>= Fate.seen) = mOnError E p.out p.err slot p.world := by
  unfold sOnError mOnError
  rw [pass_none hS]
  dsimp only
  rw [hv]
  cases slot with
  | none =>
    simp only [Var.ofSlot, pass_none hS]
    rfl
  | some h =>
    simp only [Var.ofSlot, pass_none hS]
    rw [Res.bind_assoc]
    rfl

theorem sOnAbort_none (hS : Silent S) (p : Proc) (h : Handle) (hv : p.var = .live h) (ha : p.abort = false) :
    (sOnAbort E C S p >>= Fate.seen) = mOnAbort { E with arrival := .never } C p.out p.err h p.world := by
  unfold sOnAbort mOnAbort
  simp only [pass_none hS]
  split
  · exact sOnError_none hS _ (some h) hv
  · have h1 : ∀ b : Prop, [Decidable b] → (if b then { p with err := p.err ++ [Message.detach], error := false } else { p with attached := false }).var = .live h := fun b _ => by split <;> exact hv
    rw [h1]
    dsimp only
    rw [Res.bind_assoc]
    have h2 : ∀ b : Prop, [Decidable b] → (if b then { p with err := p.err ++ [Message.detach], error := false } else { p with attached := false }).world = p.world := fun b _ => by split <;> rfl
    rw [h2]
    refine Res.bind_same' fun a e => ?_
    obtain ⟨r, sl, W⟩ := a
    dsimp only
    have hsl : sl = none := by
      unfold sumFree at e
      obtain ⟨⟨_, _, _⟩, -, e⟩ := Res.bind_eq_ok e
      obtain ⟨_, -, e⟩ := Res.bind_eq_ok e
      obtain ⟨_, -, e⟩ := Res.bind_eq_ok e
      cases e
      rfl
    subst hsl
    by_cases hd : signalDetach C.detach ≠ 1
    · simp only [if_pos hd]
      split
      · exact sOnError_none hS _ none rfl
      · rw [ha]
        rfl
    · simp only [if_neg hd]
      split
      · exact sOnError_none hS _ none rfl
      · rw [ha]
        rfl

theorem sProcessAndPrint_none (hS : Silent S) (inp : Input) (p : Proc) (h : Handle) (hv : p.var = .live h) (ha : p.abort = false) :
    (sProcessAndPrint E C S inp p >>= Fate.seen) = mProcessAndPrint { E with arrival := .never } C inp p.out p.err h p.world := by
  unfold sProcessAndPrint mProcessAndPrint
  rw [hv]
  dsimp only
  have hf : (fun n => p.attached && (List.range (n + 1)).any fun k => decide (0 < S.count (.read k))) = Arrival.never.atRead := by
    funext n
    have h0 : ∀ k, S.count (.read k) = 0 := fun k => hS _
    simp [h0, Arrival.atRead]
  rw [hf, Res.bind_assoc]
  refine Res.bind_same fun a => ?_
  obtain ⟨r, h1, W⟩ := a
  simp only [passReads_none hS, pass_none hS, passLines_none hS, ha]
  rw [if_neg (show ¬ false = true by decide), if_neg (show ¬ Arrival.never.atProcessed = true by decide)]
  split
  · exact sOnError_none hS _ (some h1) rfl
  · rw [Res.bind_assoc]
    refine Res.bind_same fun ds => ?_
    exact sOnAbort_none hS _ h1 rfl rfl

theorem sOpenAndProcess_none (hS : Silent S) (source : List Nat) (p : Proc) (h : Handle) (hv : p.var = .live h) (ha : p.abort = false) :
    (sOpenAndProcess E C S source p >>= Fate.seen) = mOpenAndProcess { E with arrival := .never } C source p.out p.err h p.world := by
  unfold sOpenAndProcess mOpenAndProcess
  rw [hv]
  dsimp only
  rw [pass_none hS]
  dsimp only
  rw [if_neg (by simp [ha])]
  cases E.files source with
  | none => exact sOnError_none hS _ (some _) rfl
  | some inp => exact sProcessAndPrint_none hS inp _ _ rfl ha

theorem sRunSource_none (hS : Silent S) (o : Options) (source : List Nat) (p : Proc) (ha : p.abort = false) (he : p.err = []) :
    (sRunSource E C S o source p >>= Fate.seen) = mRunSource { E with arrival := .never } C o source p.out p.world := by
  unfold sRunSource mRunSource
  rw [pass_none hS, Res.bind_assoc, he]
  refine Res.bind_same fun a => ?_
  obtain ⟨r, slot, W⟩ := a
  dsimp only
  split
  · exact sOnError_none hS _ slot rfl
  cases slot with
  | none => rfl
  | some h =>
    dsimp only
    rw [Res.bind_assoc]
    refine Res.bind_same fun a => ?_
    obtain ⟨ok, h, err⟩ := a
    dsimp only
    split
    · exact sOnError_none hS _ (some h) rfl
    rw [Res.bind_assoc]
    refine Res.bind_same fun a => ?_
    obtain ⟨ok, h, W, err⟩ := a
    dsimp only
    split
    · exact sOnError_none hS _ (some h) rfl
    rw [pass_none hS]
    split
    · exact sOpenAndProcess_none hS source _ h rfl ha
    · exact sOpenAndProcess_none hS source _ h rfl ha

theorem sHmacsum_none (hS : Silent S) (args : List (List Nat)) (W : World) : (sHmacsum E C S args W >>= Fate.seen) = mHmacsum { E with arrival := .never } C args W := by
  unfold sHmacsum mHmacsum
  rw [pass_none hS]
  dsimp only
  split
  · exact sOnError_none hS _ none rfl
  split
  · exact sOnError_none hS _ none rfl
  rw [pass_none hS, Res.bind_assoc]
  refine Res.bind_same fun a => ?_
  obtain ⟨q, arg⟩ := a
  cases q
  · exact sRunSource_none hS _ _ _ rfl rfl
  · dsimp only
    rw [pass_none hS]
    rfl
  · dsimp only
    rw [pass_none hS]
    rfl
  · exact sOnError_none hS _ none rfl
  · exact sOnError_none hS _ none rfl

end safe

end Model
