import Verif.Proofs.Once
/-! Which positions of the input and the output the API functions access, with repetitions. -/

namespace Model

open Spec (ApiCall Reply Kind inputReads outputWrites EachOnce)

variable {w : Nat} {T : TAlg w} {B b : Nat}

/-! ## Transform and update -/

theorem tTransformLoop_on (h : T.Once) (hs : T.alg.Sane) (u : Bool) (buf : List Byte) : ∀ fuel size off hv scr, size < 2 ^ 64 →
    On b (tTransformLoop T .input u buf fuel size off hv scr) fun v l m =>
      v.2.1 = off + T.alg.blockSize * (size / T.alg.blockSize) ∧ l.Perm (List.range' (b + off) (T.alg.blockSize * (size / T.alg.blockSize))) ∧ m = [] := by
  intro fuel
  induction fuel with
  | zero =>
    intro size off hv scr hz
    rw [tTransformLoop]
    refine On.cond (fun _ => On.diverge') fun hlt => On.pure' ?_
    rw [Nat.div_eq_of_lt (by omega)]
    exact ⟨rfl, .nil, rfl⟩
  | succ fuel ih =>
    intro size off hv scr hz
    rw [tTransformLoop]
    refine On.cond (fun hle => ?_) fun hlt => On.pure' ?_
    · refine On.bind (h.input u hv buf off scr b) fun x l m hx => ?_
      obtain ⟨hv, off', scr⟩ := x
      obtain ⟨ho, hl, rfl⟩ := hx
      change off' = off + T.alg.blockSize at ho
      subst ho
      have e1 : szSub size T.alg.blockSize = size - T.alg.blockSize := szSub_eq hle hz
      have e2 : size / T.alg.blockSize = (size - T.alg.blockSize) / T.alg.blockSize + 1 := by rw [Nat.div_eq_sub_div hs.1 hle]
      change On b (tTransformLoop T .input u buf fuel (szSub size T.alg.blockSize) (off + T.alg.blockSize) hv scr) _
      rw [e1]
      refine (ih _ _ _ _ (by omega)).mono fun v l' m hv => ?_
      obtain ⟨h1, h2, rfl⟩ := hv
      rw [e2, Nat.mul_succ]
      refine ⟨by omega, ?_, rfl⟩
      have := hl.append h2
      rw [← Nat.add_assoc, List.range'_append_1] at this
      rwa [Nat.add_comm (T.alg.blockSize * _)]
    · rw [Nat.div_eq_of_lt (by omega)]
      exact ⟨rfl, .nil, rfl⟩

theorem tTransformLoop_quiet (h : T.Once) (u : Bool) (buf : List Byte) : ∀ fuel size off hv scr, Quiet (tTransformLoop T .block u buf fuel size off hv scr) := by
  intro fuel
  induction fuel with
  | zero =>
    intro size off hv scr
    rw [tTransformLoop]
    exact Quiet.bind Quiet.branch fun _ => Quiet.ite Quiet.diverge' Quiet.pure'
  | succ fuel ih =>
    intro size off hv scr
    rw [tTransformLoop]
    exact Quiet.bind Quiet.branch fun _ => Quiet.ite (Quiet.bind (h.block _ _ _ _ _) fun _ => ih _ _ _ _) Quiet.pure'

theorem tTransform_on (h : T.Once) (hs : T.alg.Sane) (u : Bool) (scr : Scr w) (c : Ctx w) (p : List Byte) (size : Nat) (hz : size ≤ ssizeMax) :
    On b (tTransform T .input u scr (some c) (some p) size) fun v l m =>
      v.1 = ((T.alg.blockSize * (size / T.alg.blockSize) : Nat) : Int) ∧ l.Perm (List.range' b (T.alg.blockSize * (size / T.alg.blockSize))) ∧ m = [] := by
  unfold tTransform
  refine On.step Quiet.null fun _ _ => On.step Quiet.null fun _ _ => On.cond (fun hlt => by omega) fun _ => ?_
  refine On.bind (tTransformLoop_on h hs u p _ _ _ _ _ (by have := ssizeMax_lt; omega)) fun x l m hx => ?_
  obtain ⟨hv, off, scr⟩ := x
  obtain ⟨ho, hl, rfl⟩ := hx
  refine On.step (Quiet.set (by decide)) fun _ _ => On.step (Quiet.set (by decide)) fun _ _ => On.pure' ⟨?_, by simpa using hl, rfl⟩
  change ((off : Nat) : Int) = _
  change off = 0 + _ at ho
  rw [ho, Nat.zero_add]

theorem tTransform_quiet (h : T.Once) (u : Bool) (scr : Scr w) (c : Option (Ctx w)) (p : Option (List Byte)) (size : Nat) : Quiet (tTransform T .block u scr c p size) := by
  unfold tTransform
  refine Quiet.bind Quiet.null fun _ => ?_
  cases c with
  | none => exact Quiet.pure'
  | some c =>
    refine Quiet.bind Quiet.null fun _ => ?_
    cases p with
    | none => exact Quiet.pure'
    | some p =>
      exact Quiet.bind Quiet.branch fun _ => Quiet.ite Quiet.pure' (Quiet.bind (tTransformLoop_quiet h _ _ _ _ _ _ _) fun _ => Quiet.bind (Quiet.set (by decide)) fun _ => Quiet.bind (Quiet.set (by decide)) fun _ => Quiet.pure')

theorem on_copy {d : Arr} (hd : d ≠ .output) {l m : List Byte} {i j n : Nat} : On b (tCopy d l i .input m j n) fun _ l m => l = List.range' j n ∧ m = [] := by
  intro v _
  refine ⟨List.range' j n, fun t => rfl, rfl, ?_⟩
  cases d <;> first | rfl | exact absurd rfl hd

theorem tUpdateFill_on (h : T.Once) (hT : T.Works B) (hs : T.alg.Sane) (u : Bool) (scr : Scr w) (c : Ctx w) (bs : List Byte) (size : Nat) (hz : size < 2 ^ 64) (hc : c.blockOffset < T.alg.blockSize) :
    On b (tUpdateFill T u scr c bs size) fun v l m => m = [] ∧ v.1 = 1 ∧ (v.2.2 = none → l = List.range' 0 size) ∧ ∀ y, v.2.2 = some y → y.1 + y.2 = size ∧ l = List.range' 0 y.1 := by
  have hb := hs.2
  have hm := ssizeMax_lt
  unfold tUpdateFill
  refine On.cond (fun h0 => ?_) fun h0 => On.pure' ⟨rfl, rfl, by rintro ⟨⟩, by rintro y ⟨⟩; exact ⟨Nat.zero_add _, rfl⟩⟩
  refine On.cond (fun h1 => by omega) fun h1 => ?_
  refine On.step Quiet.branch fun less hl => ?_
  have hl : less = decide (size < szSub T.alg.blockSize c.blockOffset) := by cases hl; rfl
  have e1 : szSub T.alg.blockSize c.blockOffset = T.alg.blockSize - c.blockOffset := szSub_eq (by omega) (by omega)
  rw [e1] at hl
  rw [e1]
  have hr : (if less = true then size else T.alg.blockSize - c.blockOffset) ≤ size ∧
      (c.blockOffset + (if less = true then size else T.alg.blockSize - c.blockOffset) < T.alg.blockSize → (if less = true then size else T.alg.blockSize - c.blockOffset) = size) := by
    subst hl
    by_cases hlt : size < T.alg.blockSize - c.blockOffset
    · rw [if_pos (by simpa using hlt)]; exact ⟨Nat.le_refl _, fun _ => rfl⟩
    · rw [if_neg (by simpa using hlt)]; exact ⟨by omega, by omega⟩
  generalize (if less = true then size else T.alg.blockSize - c.blockOffset) = rem at hr
  refine On.bind (on_copy (by decide)) fun blk l m hl => ?_
  obtain ⟨rfl, rfl⟩ := hl
  refine On.cond (fun h2 => On.pure' ⟨rfl, rfl, ?_, by rintro y ⟨⟩⟩) fun h2 => ?_
  · intro _
    rw [List.append_nil, hr.2 h2]
  refine On.step (tTransform_quiet h _ _ _ _ _) fun x hx => ?_
  have hx := (tTransform_bd hT hs .block u scr _ _ _).post x hx
  obtain ⟨n, d, s⟩ := x
  cases d with
  | none => exact On.ub'
  | some d =>
    obtain ⟨d', e, ho, hn⟩ := hx d rfl
    have hn := hn rfl (by omega)
    refine On.cond (fun h3 => ?_) fun h3 => On.pure' ⟨rfl, rfl, by rintro ⟨⟩, ?_⟩
    · change 0 ≤ n at hn
      omega
    · rintro y ⟨⟩
      refine ⟨?_, by rw [List.append_nil]⟩
      change rem + szSub size rem = size
      rw [szSub_eq hr.1 hz]
      omega

theorem tUpdateBulk_on (h : T.Once) (hs : T.alg.Sane) (u : Bool) (scr : Scr w) (c : Ctx w) (bs : List Byte) (o size : Nat) (hz : size ≤ ssizeMax) :
    OnX b (tUpdateBulk T u scr c bs o size) fun v l m => m = [] ∧ v.1 = 1 ∧ v.2.2.2 < T.alg.blockSize ∧ ∃ q, q + v.2.2.2 = size ∧ v.2.2.1 = o + q ∧ l.Perm (List.range' o q) := by
  unfold tUpdateBulk
  refine OnX.cond (fun h0 => ?_) fun h0 => (On.pure' ⟨rfl, rfl, by change size < _; have := hs.1; omega, 0, Nat.zero_add _, rfl, .nil⟩).toX
  refine OnX.ptr fun p _ => ?_
  refine OnX.bind (tTransform_on h hs u scr c p size hz).toX fun b' x l m hx => ?_
  obtain ⟨n, d, s⟩ := x
  obtain ⟨hn, hl, rfl⟩ := hx
  change n = _ at hn
  subst hn
  cases d with
  | none => exact (On.ub').toX
  | some d =>
    have hle : T.alg.blockSize * (size / T.alg.blockSize) ≤ size := Nat.mul_div_le _ _
    have hmod := Nat.div_add_mod size T.alg.blockSize
    have hlt := Nat.mod_lt size hs.1
    have e : szSub size (((T.alg.blockSize * (size / T.alg.blockSize) : Nat) : Int)).toNat = size - T.alg.blockSize * (size / T.alg.blockSize) := szSub_eq hle (by have := ssizeMax_lt; omega)
    refine OnX.cond (fun h3 => by omega) fun h3 => (On.pure' ⟨rfl, rfl, ?_, T.alg.blockSize * (size / T.alg.blockSize), ?_, rfl, by simpa using hl⟩).toX
    · change szSub _ _ < _
      rw [e]; omega
    · change _ + szSub _ _ = _
      rw [e]; omega

theorem tUpdateTail_on (c : Ctx w) (bs : List Byte) (o size : Nat) (hz : size < T.alg.blockSize) :
    On b (tUpdateTail T c bs o size) fun v l m => m = [] ∧ v.1 = 1 ∧ l = List.range' o size := by
  unfold tUpdateTail
  refine On.cond (fun h0 => ?_) fun h0 => On.pure' ⟨rfl, rfl, by rw [show size = 0 by omega]; rfl⟩
  refine On.cond (fun h1 => by omega) fun h1 => ?_
  refine On.bind (on_copy (by decide)) fun blk l m hl => ?_
  obtain ⟨rfl, rfl⟩ := hl
  exact On.pure' ⟨rfl, rfl, List.append_nil _⟩

theorem tCtxUpdate_on (h : T.Once) (hT : T.Works B) (hs : T.alg.Sane) (u : Bool) (scr : Scr w) (c : Option (Ctx w)) (p : Option (List Byte)) (size : Nat) (hc : ∀ d, c = some d → d.blockOffset < T.alg.blockSize) :
    OnX b (tCtxUpdate T u scr c p size) fun v l m => m = [] ∧ (v.1 = 1 ∧ l.Perm (List.range' 0 size) ∨ v.1 = -1 ∧ l = []) := by
  unfold tCtxUpdate
  refine OnX.step Quiet.null fun _ _ => ?_
  cases c with
  | none => exact (On.pure' ⟨rfl, .inr ⟨rfl, rfl⟩⟩).toX
  | some c =>
    have hc := hc c rfl
    refine OnX.step Quiet.null fun _ _ => ?_
    cases p with
    | none => exact (On.pure' ⟨rfl, .inr ⟨rfl, rfl⟩⟩).toX
    | some p =>
      refine OnX.cond (fun _ => (On.pure' ⟨rfl, .inr ⟨rfl, rfl⟩⟩).toX) fun h1 => ?_
      refine OnX.cond (fun h2 => (On.pure' ⟨rfl, .inl ⟨rfl, by rw [h2]; exact .nil⟩⟩).toX) fun h2 => ?_
      have hm := ssizeMax_lt
      refine OnX.bind (tUpdateFill_on h hT hs u scr c p size (by omega) hc).toX fun b' x l m hx => ?_
      obtain ⟨r, c1, next⟩ := x
      obtain ⟨rfl, hr, hx1, hx2⟩ := hx
      change r = 1 at hr
      subst hr
      cases next with
      | none => exact (On.pure' ⟨rfl, .inl ⟨rfl, by rw [hx1 rfl, List.append_nil]⟩⟩).toX
      | some y =>
        obtain ⟨o, n⟩ := y
        obtain ⟨hsum, hl⟩ := hx2 _ rfl
        change o + n = size at hsum
        change l = List.range' 0 o at hl
        refine OnX.bind (tUpdateBulk_on h hs u scr c1 p o n (by omega)) fun b'' x l' m hx => ?_
        obtain ⟨r, c2, o', n'⟩ := x
        obtain ⟨rfl, hr, hlt, q, hq, ho, hl'⟩ := hx
        change r = 1 at hr
        change n' < _ at hlt
        change q + n' = n at hq
        change o' = o + q at ho
        subst hr ho
        refine OnX.cond (fun h3 => by omega) fun h3 => ?_
        refine OnX.bind (tUpdateTail_on c2 p (o + q) n' hlt).toX fun b'' x l'' m hx => ?_
        obtain ⟨r, c3⟩ := x
        obtain ⟨rfl, hr, hl''⟩ := hx
        change r = 1 at hr
        subst hr
        refine (On.pure' ⟨rfl, .inl ⟨rfl, ?_⟩⟩).toX
        rw [List.append_nil, hl'', hl]
        have := (List.Perm.refl (List.range' 0 o)).append (hl'.append (List.Perm.refl (List.range' (o + q) n')))
        rw [List.range'_append_1] at this
        have e := List.range'_append_1 (s := 0) (m := o) (n := q + n')
        rw [Nat.zero_add] at e
        rwa [e, show o + (q + n') = size by omega] at this

/-! ## Finalize -/

/-- The store macro writes each byte of a word once. -/
def StoresWord (prog : List (Nat × Nat)) (ws : Nat) : Prop := (prog.map (·.1)).Perm (List.range ws)

theorem tRunStore_on {v : Nat} {prog : List (Nat × Nat)} {ws : Nat} (h : StoresWord prog ws) (bs : List Byte) (off : Nat) (x : BitVec v) :
    On b (tRunStore .output prog bs off x) fun _ l m => l = [] ∧ m.Perm (List.range' off ws) := by
  refine (On.runTable (g := fun _ => []) (g' := fun r => [off + r.1]) (fun r s => ?_) prog bs).mono fun v l m hv => ?_
  · refine On.ite (fun _ => On.step (Quiet.one rfl) fun _ _ => ?_) fun _ => On.ub'
    exact fun _ _ => ⟨[], fun _ => rfl, .nil, .refl _⟩
  · rw [flatMap_nil] at hv
    refine ⟨hv.1.eq_nil, hv.2.trans ?_⟩
    have e : (prog.flatMap fun r => [off + r.1]) = (prog.map (·.1)).map (off + ·) := by
      rw [List.map_map]
      exact List.flatMap_pure_eq_map (off + ·.1) prog
    rw [e]
    refine (h.map _).trans ?_
    rw [List.range_eq_range', List.map_add_range']
    exact .refl _

theorem tRunStore_quiet {v : Nat} {n : Arr} (hn : n ≠ .output) (prog : List (Nat × Nat)) (bs : List Byte) (off : Nat) (x : BitVec v) : Quiet (tRunStore n prog bs off x) :=
  Quiet.runTable (fun _ _ => Quiet.ite (Quiet.bind (Quiet.one rfl) fun _ => Quiet.wr hn) Quiet.ub') _ _

/-- The stores of a digest write each byte of it once. -/
structure Alg.Stores (A : Alg w) : Prop where
  word : StoresWord A.wordProg A.wordSize
  rows : A.storeRows.map (·.1) = (List.range' 0 A.outWords).map (A.wordSize * ·)
  size : A.wordSize * A.outWords = A.hashSize

theorem tStoreHash_on {A : Alg w} (h : A.Stores) (u : Bool) (hv : List (BitVec w)) (out : List Byte) : On b (tStoreHash A u hv out) fun _ l m => l = [] ∧ m.Perm (List.range' 0 A.hashSize) := by
  unfold tStoreHash
  refine On.ite (fun _ => ?_) fun _ => ?_
  · refine (On.runTable (g := fun _ => []) (g' := fun r => List.range' r.1 A.wordSize) (fun r s => ?_) A.storeRows out).mono fun v l m hv => ?_
    · refine On.step (Quiet.rd (by decide)) fun _ _ => (tRunStore_on h.word s r.1 _).mono fun v l m hv => ?_
      obtain ⟨rfl, hm⟩ := hv
      exact ⟨.nil, hm⟩
    · rw [flatMap_nil] at hv
      refine ⟨hv.1.eq_nil, hv.2.trans ?_⟩
      have e : (A.storeRows.flatMap fun r => List.range' r.1 A.wordSize) = (A.storeRows.map (·.1)).flatMap fun i => List.range' i A.wordSize := by rw [List.flatMap_map]
      rw [e, h.rows, List.flatMap_map, ← h.size]
      have := words_range 0 A.wordSize A.outWords 0
      simp only [Nat.zero_add, Nat.mul_zero] at this
      rw [this]
  · refine On.bind (Q := fun _ l m => l = [] ∧ m.Perm (List.range' 0 A.hashSize)) ?_ fun v l m hv => ?_
    · unfold tForLoop
      refine (On.forCount (I := fun i s => s.2 = A.wordSize * i) (g := fun _ => []) (g' := fun i => List.range' (0 + A.wordSize * i) A.wordSize) (fun i s hs => ?_) (A.outWords - 0) 0 (out, 0) rfl).mono fun v l m hv => ?_
      · refine On.step (Quiet.rd (by decide)) fun _ _ => On.bind (tRunStore_on h.word s.1 s.2 _) fun v l m hv => ?_
        obtain ⟨rfl, hm⟩ := hv
        refine On.pure' ⟨?_, .nil, ?_⟩
        · change s.2 + _ = _
          rw [hs, Nat.mul_succ]
        · rw [List.append_nil, Nat.zero_add, ← hs]
          exact hm
      · rw [flatMap_nil, words_range] at hv
        refine ⟨hv.2.1.eq_nil, ?_⟩
        rw [← h.size]
        simpa using hv.2.2
    · obtain ⟨rfl, hm⟩ := hv
      obtain ⟨x, y⟩ := v
      exact On.pure' ⟨rfl, by simpa using hm⟩

theorem tZeroCtx_quiet (A : Alg w) : Quiet (tZeroCtx A) := by
  intro o ho
  simp only [tZeroCtx, List.mem_cons, List.not_mem_nil, or_false] at ho
  rcases ho with rfl | rfl <;> rfl

theorem tCtxFinalize_on (h : T.Once) (hst : T.alg.Stores) (hT : T.Works B) (hs : T.alg.Sane) (u : Bool) (scr : Scr w) (c : Option (Ctx w)) (p : Option (List Byte)) (size : Nat) :
    On b (tCtxFinalize T u scr c p size) fun v l m => l = [] ∧ (v.1 = 1 ∧ m.Perm (List.range' 0 T.alg.hashSize) ∨ v.1 = -1 ∧ m = []) := by
  unfold tCtxFinalize
  refine On.step Quiet.null fun _ _ => ?_
  cases c with
  | none => exact On.pure' ⟨rfl, .inr ⟨rfl, rfl⟩⟩
  | some c =>
    refine On.step Quiet.null fun _ _ => ?_
    cases p with
    | none => exact On.pure' ⟨rfl, .inr ⟨rfl, rfl⟩⟩
    | some p =>
      refine On.cond (fun _ => On.pure' ⟨rfl, .inr ⟨rfl, rfl⟩⟩) fun _ => ?_
      refine On.cond (fun _ => On.pure' ⟨rfl, .inr ⟨rfl, rfl⟩⟩) fun _ => ?_
      refine On.step Quiet.branch fun two htwo => On.step (Quiet.set (by decide)) fun _ _ => On.step (Quiet.wr (by decide)) fun _ _ => On.step (tRunStore_quiet (by decide) _ _ _ _) fun _ _ => ?_
      have hsz : (if two = true then 1 + 1 else 1) * T.alg.blockSize ≤ ssizeMax := by
        have := hs.2
        split <;> omega
      refine On.step (tTransform_quiet h _ _ _ _ _) fun x hx => ?_
      have hx := (tTransform_bd hT hs .block u scr _ _ _).post x hx
      obtain ⟨n, d, s⟩ := x
      cases d with
      | none => exact On.ub'
      | some d =>
        obtain ⟨d', e, ho, hn⟩ := hx d rfl
        have hn := hn rfl hsz
        refine On.cond (fun h3 => ?_) fun h3 => ?_
        · change 0 ≤ n at hn
          omega
        · refine On.bind (tStoreHash_on hst u _ _) fun v l m hv => ?_
          obtain ⟨rfl, hm⟩ := hv
          exact On.step (tZeroCtx_quiet _) fun _ _ => On.pure' ⟨rfl, .inl ⟨rfl, by simpa using hm⟩⟩

/-! ## The functions on memory -/

theorem tHUpdate_on (h : T.Once) (hT : T.Works B) (hs : T.alg.Sane) (u : Bool) (env : Env w) (slot : Option Nat) (p : Option (List Byte)) (size : Nat) (s : St w) (hk : HeapOk T.alg s) :
    OnX b (tHUpdate T u env slot p size s) fun v l m => m = [] ∧ (v.1 = 1 ∧ l.Perm (List.range' 0 size) ∨ v.1 = -1 ∧ l = []) := by
  unfold tHUpdate
  cases slot with
  | none =>
    refine OnX.bind (tCtxUpdate_on h hT hs u _ none p size (by rintro d ⟨⟩)) fun b' x l m hx => ?_
    obtain ⟨r, c⟩ := x
    exact (On.pure' (by simpa using hx)).toX
  | some q =>
    refine OnX.step (Quiet.one rfl) fun _ _ => ?_
    cases e : getKey q s.live with
    | none => exact (On.ub').toX
    | some o =>
      cases o with
      | bytes d => exact (On.ub').toX
      | ctx c =>
        refine OnX.bind (tCtxUpdate_on h hT hs u _ (some c) p size (by rintro d ⟨⟩; exact hk.get e)) fun b' x l m hx => ?_
        obtain ⟨r, c'⟩ := x
        cases c' with
        | none => exact (On.ub').toX
        | some c' => exact (On.pure' (by simpa using hx)).toX

theorem tHFinalize_on (h : T.Once) (hst : T.alg.Stores) (hT : T.Works B) (hs : T.alg.Sane) (u : Bool) (env : Env w) (slot : Option Nat) (p : Option (List Byte)) (size : Nat) (s : St w) :
    On b (tHFinalize T u env slot p size s) fun v l m => l = [] ∧ (v.1 = 1 ∧ m.Perm (List.range' 0 T.alg.hashSize) ∨ v.1 = -1 ∧ m = []) := by
  unfold tHFinalize
  cases slot with
  | none =>
    refine On.bind (tCtxFinalize_on h hst hT hs u _ none p size) fun x l m hx => ?_
    obtain ⟨r, c, o⟩ := x
    exact On.pure' (by simpa using hx)
  | some q =>
    refine On.step (Quiet.one rfl) fun _ _ => ?_
    cases e : getKey q s.live with
    | none => exact On.ub'
    | some ob =>
      cases ob with
      | bytes d => exact On.ub'
      | ctx c =>
        refine On.bind (tCtxFinalize_on h hst hT hs u _ (some c) p size) fun x l m hx => ?_
        obtain ⟨r, c', o⟩ := x
        cases c' with
        | none => exact On.ub'
        | some c' => exact On.pure' (by simpa using hx)

theorem tCtxInitialize_quiet (A : Alg w) (a : Option (Ctx w)) (c : Option (Option (Ctx w))) : Quiet (tCtxInitialize A a c) := by
  unfold tCtxInitialize
  refine Quiet.bind Quiet.null fun _ => ?_
  rcases c with _ | _ | c
  · exact Quiet.pure'
  · refine Quiet.bind Quiet.null fun _ => Quiet.bind Quiet.null fun _ => ?_
    cases a with
    | none => exact Quiet.pure'
    | some a => exact Quiet.bind (tZeroCtx_quiet A) fun _ => Quiet.bind (Quiet.copy (by decide) (by decide)) fun _ => Quiet.pure'
  · exact Quiet.bind Quiet.null fun _ => Quiet.pure'

theorem tHInitialize_quiet (A : Alg w) (env : Env w) (slot : Option Nat) (s : St w) : Quiet (tHInitialize A env slot s) := by
  unfold tHInitialize
  cases slot with
  | some p => exact Quiet.bind (tCtxInitialize_quiet A _ _) fun _ => Quiet.pure'
  | none =>
    refine Quiet.bind Quiet.branch fun _ => Quiet.ite ?_ ?_
    · refine Quiet.bind (tCtxInitialize_quiet A _ _) fun x => ?_
      obtain ⟨r, c⟩ := x
      rcases c with _ | _ | c
      · exact Quiet.ub'
      · exact Quiet.ub'
      · exact Quiet.pure'
    · exact Quiet.bind (tCtxInitialize_quiet A _ _) fun _ => Quiet.pure'

theorem tHFree_quiet (slot : Option Nat) (s : St w) : Quiet (tHFree slot s) := by
  unfold tHFree
  refine Quiet.bind Quiet.null fun _ => ?_
  cases slot with
  | none => exact Quiet.pure'
  | some p => exact Quiet.bind (Quiet.one rfl) fun _ => Quiet.pure'

theorem tApiInitialize_quiet (A : Alg w) (env : Env w) (c : Option (Option Nat)) (s : St w) : Quiet (tApiInitialize A env c s) := by
  unfold tApiInitialize
  cases c with
  | none => exact Quiet.bind (tCtxInitialize_quiet A _ _) fun _ => Quiet.pure'
  | some c => exact Quiet.bind (tHInitialize_quiet A _ _ _) fun _ => Quiet.pure'

theorem tApiFree_quiet (c : Option (Option Nat)) (s : St w) : Quiet (tApiFree c s) := by
  unfold tApiFree
  refine Quiet.bind Quiet.null fun _ => ?_
  cases c with
  | none => exact Quiet.pure'
  | some c => exact Quiet.bind (tHFree_quiet _ _) fun _ => Quiet.pure'

/-- What one call reads of its input and writes of its output. -/
def stepTouches (A : Alg w) (c : ApiCall) (code : Int) (l m : List Nat) : Prop :=
  match c with
  | .update _ size => m = [] ∧ (code = 1 ∧ l.Perm (List.range' 0 size) ∨ code = -1 ∧ l = [])
  | .finalize _ _ => l = [] ∧ (code = 1 ∧ m.Perm (List.range' 0 A.hashSize) ∨ code = -1 ∧ m = [])
  | _ => l = [] ∧ m = []

theorem OnX.quiet {α} {x : Tr α} (h : Quiet x) : OnX b x fun _ l m => l = [] ∧ m = [] := (On.quiet h).toX.mono fun _ _ _ hv => hv.2

theorem tStep_on (h : T.Once) (hst : T.alg.Stores) (hT : T.Works B) (hs : T.alg.Sane) (u : Bool) (env : Env w) (call : ApiCall) (scr : Scr w) (slot : Option Nat) (s : St w) (hk : HeapOk T.alg s) :
    OnX b (tStep T u env call scr slot s) fun v l m => stepTouches T.alg call v.1.code l m := by
  cases call with
  | init =>
    refine OnX.quiet (Quiet.bind (tApiInitialize_quiet _ _ _ _) fun x => ?_)
    obtain ⟨r, c, s⟩ := x
    cases c with
    | none => exact Quiet.ub'
    | some c => exact Quiet.pure'
  | initNull => exact OnX.quiet (Quiet.bind (tApiInitialize_quiet _ _ _ _) fun x => Quiet.pure')
  | free =>
    refine OnX.quiet (Quiet.bind (tApiFree_quiet _ _) fun x => ?_)
    obtain ⟨r, c, s⟩ := x
    cases c with
    | none => exact Quiet.ub'
    | some c => exact Quiet.pure'
  | freeNull => exact OnX.quiet (Quiet.bind (tApiFree_quiet _ _) fun x => Quiet.pure')
  | update p n =>
    refine OnX.bind (tHUpdate_on h hT hs u _ slot p n s hk) fun b' x l m hx => ?_
    obtain ⟨r, s'⟩ := x
    exact (On.pure' (by simpa [stepTouches] using hx)).toX
  | finalize p n =>
    refine OnX.bind (tHFinalize_on h hst hT hs u _ slot p n s).toX fun b' x l m hx => ?_
    obtain ⟨r, o, s'⟩ := x
    exact (On.pure' (by simpa [stepTouches] using hx)).toX

theorem tCalculateError_quiet (c : Option Nat) (s : St w) : Quiet (tCalculateError c s) := by
  unfold tCalculateError
  refine Quiet.bind Quiet.null fun _ => ?_
  cases c with
  | none => exact Quiet.pure'
  | some c => exact Quiet.bind (tHFree_quiet _ _) fun _ => Quiet.pure'

theorem tCalculateError_onX (c : Option Nat) (s : St w) : OnX b (tCalculateError c s) fun v l m => l = [] ∧ m = [] ∧ v.1 = -1 := by
  unfold tCalculateError
  refine OnX.step Quiet.null fun _ _ => ?_
  cases c with
  | none => exact (On.pure' ⟨rfl, rfl, rfl⟩).toX
  | some c => exact OnX.step (tHFree_quiet _ _) fun _ _ => (On.pure' ⟨rfl, rfl, rfl⟩).toX

/-- What `calculate` reads of the message and writes of the output. -/
theorem tCalculate_on (h : T.Once) (hst : T.alg.Stores) (hT : T.Works B) (hs : T.alg.Sane) (u : Bool) (env : Env w) (buffer : Option Nat) (size : Nat) (hash : Option Nat) (n : Nat) (s : St w) (hk : HeapOk T.alg s) :
    OnX b (tCalculate T u env buffer size hash n s) fun v l m =>
      (l.Perm (List.range' 0 size) ∨ l = []) ∧ (m.Perm (List.range' 0 T.alg.hashSize) ∨ m = []) ∧ (v.1 = 1 → l.Perm (List.range' 0 size) ∧ m.Perm (List.range' 0 T.alg.hashSize)) := by
  unfold tCalculate
  refine OnX.step (tHInitialize_quiet _ _ _ _) fun x e => ?_
  have hx := (tHInitialize_bd T.alg hs.1 env none s hk).post x e
  obtain ⟨r, c, s⟩ := x
  have hk : HeapOk T.alg s := hx.1
  refine OnX.cond (fun _ => (tCalculateError_onX c s).mono fun v l m hv => ⟨.inr hv.1, .inr hv.2.1, fun h1 => absurd (hv.2.2.symm.trans h1) (by decide)⟩) fun _ => ?_
  refine OnX.step (Quiet.one rfl) fun p _ => ?_
  refine OnX.bind (tHUpdate_on h hT hs u env c p size s hk) fun b' x l m hx => ?_
  obtain ⟨r, s⟩ := x
  obtain ⟨rfl, hx⟩ := hx
  change r = 1 ∧ _ ∨ r = -1 ∧ _ at hx
  have hl : l.Perm (List.range' 0 size) ∨ l = [] := hx.imp (·.2) (·.2)
  refine OnX.cond (fun _ => (tCalculateError_onX c s).mono fun v l' m hv => ?_) fun h1 => ?_
  · obtain ⟨rfl, rfl, hc⟩ := hv
    exact ⟨by simpa using hl, .inr rfl, fun h1 => absurd (hc.symm.trans h1) (by decide)⟩
  have hl1 : l.Perm (List.range' 0 size) := by
    rcases hx with hx | hx
    · exact hx.2
    · exact absurd hx.1 (by omega)
  refine OnX.step (Quiet.one rfl) fun o _ => ?_
  refine OnX.bind (tHFinalize_on h hst hT hs u env c o n s).toX fun b' x l' m hx => ?_
  obtain ⟨r, o, s⟩ := x
  obtain ⟨rfl, hx⟩ := hx
  change r = 1 ∧ _ ∨ r = -1 ∧ _ at hx
  have hm : m.Perm (List.range' 0 T.alg.hashSize) ∨ m = [] := hx.imp (·.2) (·.2)
  refine OnX.cond (fun _ => (tCalculateError_onX c _).mono fun v l' m hv => ?_) fun h1 => ?_
  · obtain ⟨rfl, rfl, hc⟩ := hv
    exact ⟨by simpa using hl, by simpa using hm, fun h1 => absurd (hc.symm.trans h1) (by decide)⟩
  have hm1 : m.Perm (List.range' 0 T.alg.hashSize) := by
    rcases hx with hx | hx
    · exact hx.2
    · exact absurd hx.1 (by omega)
  refine OnX.step (tHFree_quiet _ _) fun x _ => ?_
  obtain ⟨r, c, s⟩ := x
  refine OnX.cond (fun _ => (tCalculateError_onX c _).mono fun v l' m hv => ?_) fun h1 => (On.pure' ?_).toX
  · obtain ⟨rfl, rfl, hc⟩ := hv
    exact ⟨by simpa using hl, by simpa using hm, fun h1 => absurd (hc.symm.trans h1) (by decide)⟩
  · exact ⟨by simpa using hl, by simpa using hm, fun _ => ⟨by simpa using hl1, by simpa using hm1⟩⟩

/-! ## HMAC -/

/-- No bound on the objects and areas. -/
abbrev anyObj : Nat → Prop := fun _ => True
/-- No bound on the areas. -/
abbrev anyArea : Option Nat → Nat → Prop := fun _ _ => True

theorem tAllocBytes_quiet (env : Env w) (n : Nat) (s : St w) : Quiet (tAllocBytes env n s) := by
  intro o ho
  simp only [tAllocBytes, List.mem_cons, List.not_mem_nil, or_false] at ho
  rcases ho with rfl | rfl <;> rfl

theorem tHmacKey_on (h : T.Once) (hst : T.alg.Stores) (hT : T.Works B) (hs : T.alg.Sane) (u : Bool) (env : Env w) (key : Option Nat) (ks : Nat) (lc : Loc) (s : St w) (hk : WorkMem T.alg anyObj s) :
    OnX b (tHmacKey T u env key ks lc s) fun v l m => v.1 = true → l.Perm (List.range' 0 ks) ∧
      (ks ≤ T.alg.hmacBlockSize → m = []) ∧ (T.alg.hmacBlockSize < ks → m.Perm (List.range' 0 T.alg.hashSize)) := by
  unfold tHmacKey
  refine OnX.step (tAllocBytes_quiet _ _ _) fun x e => ?_
  have hx := (tAllocBytes_bd (D := anyObj) (E := anyArea) env _ s hk).post x e
  obtain ⟨p, s⟩ := x
  have hk : WorkMem T.alg anyObj s := hx.1
  cases p with
  | none => exact (On.pure' (by rintro ⟨⟩)).toX
  | some p =>
    refine OnX.cond (fun hle => ?_) fun hgt => ?_
    · refine OnX.step (Quiet.one rfl) fun k _ => ?_
      cases k with
      | none => exact (On.ub').toX
      | some k =>
        refine OnX.step (Quiet.one rfl) fun d _ => ?_
        refine OnX.bind (on_copy (by decide)).toX fun b' d l m hl => ?_
        obtain ⟨rfl, rfl⟩ := hl
        refine OnX.step (Quiet.set (by decide)) fun _ _ => OnX.step (Quiet.one rfl) fun _ _ => (On.pure' fun _ => ⟨?_, fun _ => rfl, fun hlt => ?_⟩).toX
        · rw [List.append_nil]
        · omega
    · refine OnX.step (tHInitialize_quiet _ _ _ _) fun x e => ?_
      have hx := (oInit_bd (D := anyObj) (E := anyArea) hs.1 env _ s hk (fun _ _ => trivial)).post x e
      obtain ⟨r, c, s⟩ := x
      have hk : WorkMem T.alg anyObj s := hx.1
      refine OnX.cond (fun _ => (On.pure' (by rintro ⟨⟩)).toX) fun _ => ?_
      refine OnX.step (Quiet.one rfl) fun k _ => ?_
      refine OnX.bind (tHUpdate_on h hT hs u env _ k ks s hk.ok) fun b' x l m hx => ?_
      obtain ⟨r, s⟩ := x
      obtain ⟨rfl, hx⟩ := hx
      refine OnX.cond (fun _ => (On.pure' (by rintro ⟨⟩)).toX) fun h1 => ?_
      have hl : l.Perm (List.range' 0 ks) := by
        rcases hx with hx | hx
        · exact hx.2
        · exact absurd hx.1 (by omega)
      refine OnX.bind (tHFinalize_on h hst hT hs u env _ _ _ s).toX fun b' x l' m hx => ?_
      obtain ⟨r, o, s⟩ := x
      obtain ⟨rfl, hx⟩ := hx
      cases o with
      | none => exact (On.ub').toX
      | some o =>
        refine OnX.cond (fun _ => (On.pure' (by rintro ⟨⟩)).toX) fun h2 => ?_
        have hm : m.Perm (List.range' 0 T.alg.hashSize) := by
          rcases hx with hx | hx
          · exact hx.2
          · exact absurd hx.1 (by omega)
        refine OnX.step (tHFree_quiet _ _) fun x _ => ?_
        obtain ⟨r, c, s⟩ := x
        refine OnX.cond (fun _ => (On.pure' (by rintro ⟨⟩)).toX) fun h3 => ?_
        refine OnX.step (Quiet.one rfl) fun d _ => OnX.step Quiet.branch fun less _ => ?_
        cases less
        · refine OnX.step Quiet.pure' fun d _ => OnX.step (Quiet.copy (by decide) (by decide)) fun d _ => OnX.step (Quiet.one rfl) fun s _ => ?_
          exact (On.pure' fun _ => ⟨by simpa using hl, fun hle => absurd hle hgt, fun _ => by simpa using hm⟩).toX
        · refine OnX.step (Quiet.set (by decide)) fun d _ => OnX.step (Quiet.copy (by decide) (by decide)) fun d _ => OnX.step (Quiet.one rfl) fun s _ => ?_
          exact (On.pure' fun _ => ⟨by simpa using hl, fun hle => absurd hle hgt, fun _ => by simpa using hm⟩).toX

theorem tHmacPads_quiet (A : Alg w) (env : Env w) (lc : Loc) (s : St w) : Quiet (tHmacPads A env lc s) := by
  unfold tHmacPads
  refine Quiet.bind (tAllocBytes_quiet _ _ _) fun x => ?_
  obtain ⟨p, s⟩ := x
  cases p with
  | none => exact Quiet.pure'
  | some p =>
    refine Quiet.bind (Quiet.one rfl) fun _ => Quiet.bind (Quiet.set (by decide)) fun _ => Quiet.bind (Quiet.one rfl) fun _ => Quiet.bind (tAllocBytes_quiet _ _ _) fun x => ?_
    obtain ⟨p, s⟩ := x
    cases p with
    | none => exact Quiet.pure'
    | some p =>
      refine Quiet.bind (Quiet.one rfl) fun _ => Quiet.bind (Quiet.set (by decide)) fun _ => Quiet.bind (Quiet.one rfl) fun _ => Quiet.bind (Quiet.one rfl) fun _ => Quiet.bind (Quiet.one rfl) fun _ =>
        Quiet.bind (Quiet.one rfl) fun _ => Quiet.bind (Quiet.forLoop (fun i p => ?_) _ _ _) fun _ => Quiet.bind (Quiet.one rfl) fun _ => Quiet.bind (Quiet.one rfl) fun _ => Quiet.pure'
      quiets

theorem tHmacPass_on (h : T.Once) (hst : T.alg.Stores) (hT : T.Works B) (hs : T.alg.Sane) (u : Bool) (env : Env w) (pad buffer : Option Nat) (size : Nat) (hmac : Option Nat) (n : Nat) (lc : Loc) (s : St w)
    (hk : WorkMem T.alg anyObj s) :
    OnX b (tHmacPass T u env pad buffer size hmac n lc s) fun v l m => v.1 = true → ∃ l1 l2, l = l1 ++ l2 ∧ l1.Perm (List.range' 0 T.alg.hmacBlockSize) ∧ l2.Perm (List.range' 0 size) ∧
      m.Perm (List.range' 0 T.alg.hashSize) := by
  unfold tHmacPass
  refine OnX.step (tHInitialize_quiet _ _ _ _) fun x e => ?_
  have hx := (oInit_bd (D := anyObj) (E := anyArea) hs.1 env _ s hk (fun _ _ => trivial)).post x e
  obtain ⟨r, c, s⟩ := x
  have hk : WorkMem T.alg anyObj s := hx.1
  refine OnX.cond (fun _ => (On.pure' (by rintro ⟨⟩)).toX) fun _ => ?_
  refine OnX.step (Quiet.one rfl) fun d _ => ?_
  refine OnX.bind (Q := fun v l m => HeapOk T.alg v.2 ∧ m = [] ∧ (v.1 = 1 ∧ l.Perm (List.range' 0 T.alg.hmacBlockSize) ∨ v.1 = -1 ∧ l = [])) ?_ fun b' x l1 m hx => ?_
  · intro v e
    obtain ⟨b', l, h1, h2⟩ := tHUpdate_on (b := b) h hT hs u env c (some d) T.alg.hmacBlockSize s hk.ok v e
    exact ⟨b', l, h1, ((tHUpdate_bd hT hs u env c (some d) T.alg.hmacBlockSize s hk.ok).post v e).1, h2⟩
  obtain ⟨r, s⟩ := x
  obtain ⟨hk, rfl, hx⟩ := hx
  refine OnX.cond (fun _ => (On.pure' (by rintro ⟨⟩)).toX) fun h1 => ?_
  have hl1 : l1.Perm (List.range' 0 T.alg.hmacBlockSize) := by
    rcases hx with hx | hx
    · exact hx.2
    · exact absurd hx.1 (by omega)
  refine OnX.step (Quiet.one rfl) fun k _ => ?_
  refine OnX.bind (tHUpdate_on h hT hs u env _ k size s hk) fun b' x l2 m hx => ?_
  obtain ⟨r, s⟩ := x
  obtain ⟨rfl, hx⟩ := hx
  refine OnX.cond (fun _ => (On.pure' (by rintro ⟨⟩)).toX) fun h1 => ?_
  have hl2 : l2.Perm (List.range' 0 size) := by
    rcases hx with hx | hx
    · exact hx.2
    · exact absurd hx.1 (by omega)
  refine OnX.step (Quiet.one rfl) fun o _ => ?_
  refine OnX.bind (tHFinalize_on h hst hT hs u env _ o n s).toX fun b' x l' m hx => ?_
  obtain ⟨r, o, s⟩ := x
  obtain ⟨rfl, hx⟩ := hx
  refine OnX.cond (fun _ => (On.pure' (by rintro ⟨⟩)).toX) fun h2 => ?_
  have hm : m.Perm (List.range' 0 T.alg.hashSize) := by
    rcases hx with hx | hx
    · exact hx.2
    · exact absurd hx.1 (by omega)
  refine OnX.step (tHFree_quiet _ _) fun x _ => ?_
  obtain ⟨r, c, s⟩ := x
  refine OnX.cond (fun _ => (On.pure' (by rintro ⟨⟩)).toX) fun h3 => (On.pure' fun _ => ⟨l1, l2, by simp, hl1, hl2, by simpa using hm⟩).toX

theorem tWipeFree_quiet (A : Alg w) {n : Arr} (hn : n ≠ .output) (p : Option Nat) (s : St w) : Quiet (tWipeFree A n p s) := by
  unfold tWipeFree
  refine Quiet.bind (Quiet.one rfl) fun _ => Quiet.bind (Quiet.set hn) fun _ => Quiet.bind (Quiet.one rfl) fun _ => ?_
  cases p with
  | none => exact Quiet.ub'
  | some p => exact Quiet.one rfl

theorem tHmacError_on (A : Alg w) (lc : Loc) (s : St w) : OnX b (tHmacError A lc s) fun v _ _ => v.1 = -1 := by
  intro v e
  have q : Quiet (tHmacError A lc s) := by
    unfold tHmacError
    have h1 : ∀ p s, Quiet (tFreeOpt (w := w) p s) := by
      intro p s
      unfold tFreeOpt
      refine Quiet.bind Quiet.null fun _ => ?_
      cases p with
      | none => exact Quiet.pure'
      | some p => exact Quiet.bind (tHFree_quiet _ _) fun _ => Quiet.pure'
    have h2 : ∀ n p s, n ≠ Arr.output → Quiet (tWipeFreeOpt A n p s) := by
      intro n p s hn
      unfold tWipeFreeOpt
      refine Quiet.bind Quiet.null fun _ => ?_
      cases p with
      | none => exact Quiet.pure'
      | some p => exact tWipeFree_quiet A hn _ _
    exact Quiet.bind (h1 _ _) fun _ => Quiet.bind (h2 _ _ _ (by decide)) fun _ => Quiet.bind (h2 _ _ _ (by decide)) fun _ => Quiet.bind (h2 _ _ _ (by decide)) fun _ => Quiet.pure'
  refine ⟨b, [], fun t => by rw [quiet_list q]; rfl, ?_⟩
  unfold tHmacError at e
  obtain ⟨_, _, e, -⟩ := Tr.bind_ok e
  obtain ⟨_, _, e, -⟩ := Tr.bind_ok e
  obtain ⟨_, _, e, -⟩ := Tr.bind_ok e
  obtain ⟨_, _, e, -⟩ := Tr.bind_ok e
  cases e
  rfl

/-- What `calculate_hmac` reads of its inputs and writes of its outputs, if it succeeds. -/
theorem tCalculateHmac_on (h : T.Once) (hst : T.alg.Stores) (hT : T.Works B) (hs : T.alg.Sane) (hb : T.alg.hmacBlockSize < 2 ^ 64) (u : Bool) (env : Env w) (kh : List Byte) (key : Option Nat) (ks : Nat) (buffer : Option Nat) (size : Nat)
    (hmac : Option Nat) (n : Nat) (s : St w) (hk : WorkMem T.alg anyObj s) :
    OnX b (tCalculateHmac T u env kh key ks buffer size hmac n s) fun v l m => v.1 = 1 → ∃ l0 l1 l2 l3 l4 m0 m1 m2, l = l0 ++ (l1 ++ l2) ++ (l3 ++ l4) ∧ m = m0 ++ m1 ++ m2 ∧
      l0.Perm (List.range' 0 ks) ∧ l1.Perm (List.range' 0 T.alg.hmacBlockSize) ∧ l2.Perm (List.range' 0 size) ∧ l3.Perm (List.range' 0 T.alg.hmacBlockSize) ∧ l4.Perm (List.range' 0 T.alg.hashSize) ∧
      (ks ≤ T.alg.hmacBlockSize → m0 = []) ∧ (T.alg.hmacBlockSize < ks → m0.Perm (List.range' 0 T.alg.hashSize)) ∧ m1.Perm (List.range' 0 T.alg.hashSize) ∧ m2.Perm (List.range' 0 T.alg.hashSize) := by
  unfold tCalculateHmac
  refine OnX.step Quiet.null fun _ _ => ?_
  cases key with
  | none => exact (On.pure' (by rintro ⟨⟩)).toX
  | some k =>
    refine OnX.cond (fun _ => (On.pure' (by rintro ⟨⟩)).toX) fun _ => ?_
    refine OnX.cond (fun _ => (On.pure' (by rintro ⟨⟩)).toX) fun _ => ?_
    have hmine : Mine anyObj ⟨none, none, none, none, kh⟩ := ⟨fun _ _ => trivial, fun _ _ => trivial, fun _ _ => trivial, fun _ _ => trivial⟩
    refine OnX.bind (Q := fun v l m => WorkMem T.alg anyObj v.2.2 ∧ Mine anyObj v.2.1 ∧ (v.1 = true → l.Perm (List.range' 0 ks) ∧
      (ks ≤ T.alg.hmacBlockSize → m = []) ∧ (T.alg.hmacBlockSize < ks → m.Perm (List.range' 0 T.alg.hashSize)))) ?_ fun b' x l0 m0 hx => ?_
    · intro v e
      obtain ⟨b', l, h1, h2⟩ := tHmacKey_on (b := b) h hst hT hs u env (some k) ks _ s hk v e
      have hp := (tHmacKey_bd (D := anyObj) (E := anyArea) hT hs hb u env (some k) ks _ s hk hmine trivial).post v e
      exact ⟨b', l, h1, hp.1, hp.2, h2⟩
    obtain ⟨ok, lc, s⟩ := x
    obtain ⟨hk, hmine, h0⟩ := hx
    refine OnX.cond (fun _ => (tHmacError_on _ lc s).mono fun v l m hv h1 => absurd (hv.symm.trans h1) (by decide)) fun hok => ?_
    have h0 := h0 (by simpa using hok)
    unfold tHmacRest
    refine OnX.step (tHmacPads_quiet _ _ _ _) fun x e => ?_
    have hx := (tHmacPads_bd (D := anyObj) (E := anyArea) env lc s hk hmine).post x e
    obtain ⟨ok, lc, s⟩ := x
    obtain ⟨hk, hmine⟩ := hx
    refine OnX.cond (fun _ => (tHmacError_on _ lc s).mono fun v l m hv h1 => absurd (hv.symm.trans h1) (by decide)) fun hok => ?_
    refine OnX.bind (Q := fun v l m => WorkMem T.alg anyObj v.2.2 ∧ Mine anyObj v.2.1 ∧ (v.1 = true → ∃ l1 l2, l = l1 ++ l2 ∧ l1.Perm (List.range' 0 T.alg.hmacBlockSize) ∧ l2.Perm (List.range' 0 size) ∧
      m.Perm (List.range' 0 T.alg.hashSize))) ?_ fun b' x l12 m1 hx => ?_
    · intro v e
      obtain ⟨b'', l, h1, h2⟩ := tHmacPass_on (b := b') h hst hT hs u env lc.inner buffer size hmac n lc s hk v e
      have hp := (tHmacPass_bd (D := anyObj) (E := anyArea) hT hs u env lc.inner buffer size hmac n lc s hk hmine (fun _ _ => trivial) trivial trivial).post v e
      exact ⟨b'', l, h1, hp.1, hp.2, h2⟩
    obtain ⟨ok, lc, s⟩ := x
    obtain ⟨hk, hmine, h1⟩ := hx
    refine OnX.cond (fun _ => (tHmacError_on _ lc s).mono fun v l m hv h1 => absurd (hv.symm.trans h1) (by decide)) fun hok => ?_
    obtain ⟨l1, l2, rfl, hl1, hl2, hm1⟩ := h1 (by simpa using hok)
    refine OnX.bind (tHmacPass_on h hst hT hs u env lc.outer hmac T.alg.hashSize hmac n lc s hk) fun b' x l34 m2 h2 => ?_
    obtain ⟨ok, lc, s⟩ := x
    refine OnX.cond (fun _ => (tHmacError_on _ lc s).mono fun v l m hv h1 => absurd (hv.symm.trans h1) (by decide)) fun hok => ?_
    obtain ⟨l3, l4, rfl, hl3, hl4, hm2⟩ := h2 (by simpa using hok)
    refine OnX.step (tWipeFree_quiet _ (by decide) _ _) fun _ _ => OnX.step (tWipeFree_quiet _ (by decide) _ _) fun _ _ => OnX.step (tWipeFree_quiet _ (by decide) _ _) fun _ _ => (On.pure' fun _ => ?_).toX
    exact ⟨l0, l1, l2, l3, l4, m0, m1, m2, by simp, by simp, h0.1, hl1, hl2, hl3, hl4, h0.2.1, h0.2.2, hm1, hm2⟩

end Model
