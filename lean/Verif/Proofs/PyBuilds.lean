import Verif.Model.PyBuilds
import Verif.Spec.PyBuilds
import Verif.Proofs.Python
import Verif.Proofs.BuildsMulti
import Verif.Proofs.BackendOneShot
import Verif.Proofs.OneShotCounters
/-! The Python module in every build. -/

namespace Model

open Spec (Kind ApiCall Reply PyArg PyExc PyResult PyOp PyMessages maxSize pyMay pyMayRun)

/-! With the built-in functions the module is that of Model/Python. -/

namespace PyBuilds

/-- The state of Model/Python. -/
def ofSt (st : PySt) : PyState Mem := ⟨st.vars, st.mem, st.objects, st.noneRefs⟩

/-- The outcome of a function of Model/Python. -/
def ofRes {α : Type} : Res (α × PySt) → Res (α × PyState Mem)
  | .ok (r, st) => .ok (r, ofSt st)
  | .ub => .ub
  | .diverge => .diverge

variable {u : Kind → Bool} {al : Nat → Bool}

theorem init_builtin (k : Kind) (e : PyEnv) (m : Mem) : init (PyLibrary.builtin u al) e k m = pyInit k al e m := by
  simp only [init, acquire, PyLibrary.builtin, pyInit, step, depInitialize, apiInitialize]
  cases hInitialize (algOf k) { e.env k with allocOk := al } none (m.view k.width) with
  | ub => rfl
  | diverge => rfl
  | ok x =>
    obtain ⟨r, slot, s⟩ := x
    simp only [Res.ok_bind, Res.pure_eq]
    by_cases h : r = 1
    · simp [h]
    · simp [h]

theorem dealloc_builtin (k : Kind) (e : PyEnv) (slot : Option Nat) (m : Mem) (n : Int) : dealloc (PyLibrary.builtin u al) e k slot m n = pyFree k slot m n := by
  cases slot with
  | none => rfl
  | some p =>
    simp only [dealloc, free, PyLibrary.builtin, pyFree, step, depFree, apiFree]
    cases hFree (some p) (m.view k.width) with
    | ub => rfl
    | diverge => rfl
    | ok x =>
      obtain ⟨r, slot, s⟩ := x
      simp only [Res.ok_bind, Res.pure_eq]
      by_cases h : r = 1
      · simp [h]
      · simp [h]

theorem feed_builtin (k : Kind) (e : PyEnv) (slot : Option Nat) (arg : Option PyArg) (m : Mem) : feed (PyLibrary.builtin u al) e k slot arg m = pyUpdate k (u k) e slot arg m := by
  simp only [feed, pyUpdate]
  cases pyData arg with
  | inl x => rfl
  | inr b =>
    have hs : hUpdate (algOf k) (u k) { { e.env k with allocOk := al } with scr := (e.env k).scr } slot (some b) b.length (m.view k.width) = hUpdate (algOf k) (u k) (e.env k) slot (some b) b.length (m.view k.width) := rfl
    simp only [update, PyLibrary.builtin, step, depUpdate, hs]
    cases hUpdate (algOf k) (u k) (e.env k) slot (some b) b.length (m.view k.width) with
    | ub => rfl
    | diverge => rfl
    | ok x =>
      obtain ⟨r, s⟩ := x
      simp only [Res.ok_bind, Res.pure_eq]
      by_cases h : r = 1
      · simp [h]
      · simp [h]

theorem digest_builtin (k : Kind) (e : PyEnv) (slot : Option Nat) (ok : Bool) (m : Mem) : digest (PyLibrary.builtin u al) e k slot ok m = pyFinalize k (u k) e slot ok m := by
  have hs : hFinalize (algOf k) (u k) { { e.env k with allocOk := al } with scr := (e.env k).scr } slot (some (e.hash k)) k.hashSize (m.view k.width) =
      hFinalize (algOf k) (u k) (e.env k) slot (some (e.hash k)) k.hashSize (m.view k.width) := rfl
  simp only [digest, pyFinalize, finalize, PyLibrary.builtin, step, depFinalize, hs, algOf_hashSize]
  cases hFinalize (algOf k) (u k) (e.env k) slot (some (e.hash k)) k.hashSize (m.view k.width) with
  | ub => rfl
  | diverge => rfl
  | ok x =>
    obtain ⟨r, h, s⟩ := x
    simp only [Res.ok_bind, Res.pure_eq]
    by_cases h1 : r = 1
    · cases h <;> simp [h1]
    · cases h <;> simp [h1]

theorem create_builtin (k : Kind) (e : PyEnv) (i : Nat) (ok : Bool) (st : PySt) : create (PyLibrary.builtin u al) e k i ok (ofSt st) = ofRes (pyCreate k al e i ok st) := by
  cases ok with
  | false => rfl
  | true =>
    simp only [create, pyCreate, if_true, init_builtin, dealloc_builtin, ofSt]
    cases pyInit k al e st.mem with
    | ub => rfl
    | diverge => rfl
    | ok x =>
      obtain ⟨r, slot, m⟩ := x
      simp only [Res.ok_bind]
      by_cases h : r = 0
      · simp [h, ofRes, ofSt]
      · simp only [ne_eq, h, not_false_eq_true, if_true]
        cases pyFree k slot m (st.objects + 1) with
        | ub => rfl
        | diverge => rfl
        | ok y => rfl

theorem calculate_builtin (k : Kind) (e : PyEnv) (arg : Option PyArg) (ok : Bool) (st : PySt) :
    calculate (PyLibrary.builtin u al) e k arg ok (ofSt st) = ofRes (pyCalculate k (u k) al e arg ok st) := by
  simp only [calculate, pyCalculate]
  cases pyData arg with
  | inl x => rfl
  | inr b =>
    simp only [PyLibrary.builtin, ofSt]
    cases Model.calculate (algOf k) (u k) { e.env k with allocOk := al } (some 0) b.length (some b.length) (algOf k).hashSize { st.mem.view k.width with caller := b ++ e.hash k } with
    | ub => rfl
    | diverge => rfl
    | ok x =>
      obtain ⟨r, s⟩ := x
      simp only [Res.ok_bind, Res.pure_eq]
      by_cases h : r = 1
      · simp [h, ofRes, ofSt]
      · simp [h, ofRes, ofSt]

theorem calculateHmac_builtin (k : Kind) (e : PyEnv) (args : Option (PyArg × PyArg)) (ok : Bool) (st : PySt) :
    calculateHmac (PyLibrary.builtin u al) e k args ok (ofSt st) = ofRes (pyCalculateHmac k (u k) al e args ok st) := by
  cases args with
  | none => rfl
  | some args =>
    obtain ⟨key, data⟩ := args
    simp only [calculateHmac, pyCalculateHmac]
    cases pyKeyData key with
    | inl x => rfl
    | inr kb =>
      simp only
      cases pyData (some data) with
      | inl x => rfl
      | inr b =>
        simp only [PyLibrary.builtin, ofSt]
        cases Model.calculateHmac (algOf k) (u k) { e.env k with allocOk := al } (e.keyHash k) (some 0) kb.length (some kb.length) b.length (some (kb.length + b.length)) (algOf k).hashSize
            { st.mem.view k.width with caller := kb ++ (b ++ e.hash k) } with
        | ub => rfl
        | diverge => rfl
        | ok x =>
          obtain ⟨r, l, s⟩ := x
          simp only [Res.ok_bind, Res.pure_eq]
          by_cases h : r = 1
          · simp [h, ofRes, ofSt]
          · simp [h, ofRes, ofSt]

theorem method_builtin (k : Kind) (e : PyEnv) (op : PyOp) (i : Nat) (slot : Option Nat) (st : PySt) :
    method (PyLibrary.builtin u al) e k op i slot (ofSt st) = ofRes (pyMethod k (u k) al e op i slot st) := by
  cases op with
  | reinit j =>
    simp only [method, pyMethod, init_builtin, ofSt]
    cases pyInit k al e st.mem with
    | ub => rfl
    | diverge => rfl
    | ok x => rfl
  | update j arg =>
    simp only [method, pyMethod, feed_builtin, ofSt]
    cases pyUpdate k (u k) e slot arg st.mem with
    | ub => rfl
    | diverge => rfl
    | ok x => rfl
  | finalize j ok =>
    simp only [method, pyMethod, digest_builtin, ofSt]
    cases pyFinalize k (u k) e slot ok st.mem with
    | ub => rfl
    | diverge => rfl
    | ok x => rfl
  | release j =>
    simp only [method, pyMethod, dealloc_builtin, ofSt]
    cases pyFree k slot st.mem st.objects with
    | ub => rfl
    | diverge => rfl
    | ok x => rfl
  | create j ok => rfl
  | createRaw j ok => rfl
  | calculate k arg ok => rfl
  | calculateHmac k args ok => rfl

theorem on_builtin (kinds : Nat → Kind) (e : PyEnv) (op : PyOp) (i : Nat) (st : PySt) : on (PyLibrary.builtin u al) kinds e op i (ofSt st) = ofRes (pyOn kinds u al e op i st) := by
  have hv : (ofSt st).vars i = st.vars i := rfl
  simp only [on, pyOn, hv]
  cases st.vars i with
  | none => rfl
  | some slot => exact method_builtin ..

theorem new_builtin (kinds : Nat → Kind) (e : PyEnv) (raw : Bool) (i : Nat) (ok : Bool) (st : PySt) :
    new (PyLibrary.builtin u al) kinds e raw i ok (ofSt st) = ofRes (pyNew kinds al e raw i ok st) := by
  have hv : (ofSt st).vars i = st.vars i := rfl
  simp only [new, pyNew, hv]
  cases st.vars i with
  | some x => rfl
  | none =>
    cases raw with
    | true => cases ok <;> rfl
    | false => exact create_builtin ..

theorem exec_builtin (kinds : Nat → Kind) (e : PyEnv) (op : PyOp) (st : PySt) : exec (PyLibrary.builtin u al) kinds e op (ofSt st) = ofRes (pyExec kinds u al e op st) := by
  cases op with
  | create i ok => exact new_builtin ..
  | createRaw i ok => exact new_builtin ..
  | calculate k arg ok => exact calculate_builtin ..
  | calculateHmac k args ok => exact calculateHmac_builtin ..
  | reinit i => exact on_builtin ..
  | update i arg => exact on_builtin ..
  | finalize i ok => exact on_builtin ..
  | release i => exact on_builtin ..

theorem program_builtin (kinds : Nat → Kind) : ∀ (prog : List (PyOp × PyEnv)) (st : PySt), program (PyLibrary.builtin u al) kinds prog (ofSt st) = ofRes (pyProgram kinds u al prog st)
  | [], st => rfl
  | (op, e) :: t, st => by
    simp only [program, pyProgram, exec_builtin]
    cases pyExec kinds u al e op st with
    | ub => rfl
    | diverge => rfl
    | ok x =>
      obtain ⟨r, st1⟩ := x
      simp only [ofRes, Res.ok_bind, program_builtin kinds t st1]
      cases pyProgram kinds u al t st1 with
      | ub => rfl
      | diverge => rfl
      | ok y => rfl

end PyBuilds

/-! Any build. -/

variable {ch : Kind → Choice} {L : Kind → Library} {kinds : Nat → Kind} {base : (k : Kind) → List (Nat × BObj (L k).State)} {Rep : (k : Kind) → (L k).State → List Byte → Prop} {mbase : Nat → List Nat}
  {u : Kind → Bool} {al : Nat → Bool}

/-- The functions of algorithm `k` never fail by themselves. -/
def GoodKind (ch : Kind → Choice) (L : Kind → Library) (k : Kind) : Prop := ch k ≠ .builtin → Reliable (L k)

/-- Some allocation fails. -/
def Full (al : Nat → Bool) : Prop := ∃ n, al n = false

/-- One call on one of many variables, in any build. -/
theorem py_step (hL : ∀ k, ch k ≠ .builtin → Contract (L k) k (Rep k)) (htame : ∀ k, ch k ≠ .builtin → Tame (L k) k.hashSize) {e : PyEnv} (he : e.Ok) (i : Nat) (c : ApiCall)
    (hv : c.Valid) {slots : Nat → Option Nat} {m : MixedMem L} {acc : Nat → Option (List Byte)} (h : MixMulti ch L Rep kinds mbase base slots m acc) :
    ∃ r slot' m', (PyLibrary.mixed ch L u al).call e (kinds i) c (slots i) m = .ok (r, slot', m') ∧
      MixMulti ch L Rep kinds mbase base (Function.update slots i slot') m' (Function.update acc i (acceptedNext c r (acc i))) ∧
      StepFacts (kinds i) (ch (kinds i)).limit (GoodKind ch L (kinds i)) (al m.mem.count) (acc i) c (slots i) r slot' := by
  obtain ⟨⟨a, hrel, hmem, hst⟩, ent, hcr⟩ := h
  have hj := (he (kinds i)).1
  cases hk : ch (kinds i) with
  | builtin =>
    obtain ⟨slot', s', e1, hrel', hmem'⟩ := mem_step hmem hrel (u (kinds i)) al e i c hv (e.env (kinds i)).scr hj
    obtain ⟨slot2, s2, e2, -, -, hge, -⟩ := multi_step kinds (u (kinds i)) al (fun i => e.env (kinds i)) i c (e.env (kinds i)).scr _ m.mem a hv hj hrel
    have e2' := e1
    erw [e2] at e2'
    simp only [Res.ok.injEq, Prod.mk.injEq, true_and] at e2'
    obtain ⟨rfl, rfl⟩ := e2'
    have hview : (m.mem.put (kinds i).width s2).view (kinds i).width = s2 := by simp only [Mem.view, Mem.put, Function.update_self]
    have hvr := hrel'.1 i
    rw [Function.update_self, Function.update_self, hview] at hvr
    obtain ⟨hf, hst'⟩ := kindStep_facts (kinds i) (u (kinds i)) (e.env (kinds i)) al c (e.env (kinds i)).scr _ (m.mem.view (kinds i).width) (a i) (acc i) (hrel.1 i) (hst i hk) e1 hvr
    have hs0 : builtinSlots ch kinds slots i = slots i := by simp [builtinSlots, hk]
    rw [hs0] at e1 hf
    refine ⟨_, slot2, { m with mem := m.mem.put (kinds i).width s2 }, ?_, ⟨⟨Function.update a i (kindStep (kinds i) al c (a i) m.mem.count).2.slot, ?_, ?_, ?_⟩, ent, ?_⟩, hf.weaken (Nat.le_refl _) (fun _ => trivial)⟩
    · simp only [PyLibrary.mixed, hk, PyLibrary.builtin]
      erw [e1]
      rfl
    · rw [builtinSlots_builtin hk]
      exact hrel'
    · rw [builtinSlots_builtin hk]
      exact hmem'
    · intro j hj'
      by_cases hji : j = i
      · subst hji
        rw [Function.update_self, Function.update_self]
        exact hst'
      · rw [Function.update_of_ne hji, Function.update_of_ne hji]
        exact hst j hj'
    · refine (hcr.mono hge (Nat.le_refl _)).builtin i hk slot2 fun j hji => ?_
      rw [Function.update_of_ne hji]
  | crypto B =>
    have hne : ch (kinds i) ≠ .builtin := by rw [hk]; simp
    obtain ⟨r, slot', s', ent', e1, hge, hcr', hf⟩ := hcr.step i B hk (hL _ hne) (htame _ hne) al c hv
    have hle : m.mem.count ≤ s'.count := by omega
    obtain ⟨g1, g2⟩ := multiRel_count hrel hmem s'.count hle
    refine ⟨r, slot', { mem := { m.mem with count := s'.count }, calls := s'.calls, live := Function.update m.live (kinds i) s'.live }, by simp only [PyLibrary.mixed, hk, e1, Res.ok_bind, Res.pure_eq],
      ⟨⟨a, ?_, ?_, ?_⟩, ent', hcr'⟩, hf.weaken (Nat.le_refl _) fun h => h hne⟩
    · rw [builtinSlots_crypto hne]
      exact g1
    · rw [builtinSlots_crypto hne]
      exact g2
    · intro j hj'
      have hji : j ≠ i := by
        rintro rfl
        exact hne hj'
      rw [Function.update_of_ne hji]
      exact hst j hj'

/-- The same objects; the counters may have grown. -/
structure MixedMem.Same {L : Kind → Library} (m m' : MixedMem L) : Prop where
  live : m'.mem.live = m.mem.live
  crypto : m'.live = m.live
  count : m.mem.count ≤ m'.mem.count
  calls : m.calls ≤ m'.calls

theorem MixMulti.same {slots : Nat → Option Nat} {m m' : MixedMem L} {acc : Nat → Option (List Byte)} (h : MixMulti ch L Rep kinds mbase base slots m acc) (hs : m.Same m') :
    MixMulti ch L Rep kinds mbase base slots m' acc := by
  obtain ⟨⟨a, hrel, hmem, hst⟩, ent, hcr⟩ := h
  refine ⟨⟨a, ⟨fun j => ?_, hrel.2⟩, fun w => ?_, hst⟩, ent, ?_⟩
  · have hj := hrel.1 j
    revert hj
    unfold VarRel
    cases builtinSlots ch kinds slots j with
    | none => cases a j <;> exact id
    | some p =>
      cases a j with
      | none => exact id
      | some x =>
        obtain ⟨h0, msg⟩ := x
        rintro ⟨hp, hlen, c, hget, hrep⟩
        refine ⟨Nat.lt_of_lt_of_le hp hs.count, hlen, c, ?_, hrep⟩
        simp only [Mem.view, hs.live] at hget ⊢
        exact hget
  · obtain ⟨h1, h2, h3⟩ := hmem w
    rw [hs.live]
    exact ⟨h1, fun p hp => Nat.lt_of_lt_of_le (h2 p hp) hs.count, h3⟩
  · rw [hs.crypto]
    exact hcr.mono hs.count hs.calls

/-- What is known of a variable without context can be changed. -/
theorem MixMulti.setNone {slots : Nat → Option Nat} {m : MixedMem L} {acc acc' : Nat → Option (List Byte)} (h : MixMulti ch L Rep kinds mbase base slots m acc)
    (ha : ∀ i, slots i ≠ none → acc' i = acc i) : MixMulti ch L Rep kinds mbase base slots m acc' := by
  obtain ⟨⟨a, hrel, hmem, hst⟩, ent, hcr⟩ := h
  refine ⟨⟨a, hrel, hmem, fun i hi h0 msg y h1 h2 => ?_⟩, ent, hcr.wf, fun i => ?_, hcr.inLive, hcr.kept, hcr.apart, hcr.other, hcr.all⟩
  · have := hrel.1 i
    rw [h1] at this
    have hs : builtinSlots ch kinds slots i = slots i := by simp [builtinSlots, hi]
    rw [hs] at this
    refine hst i hi h0 msg y h1 ?_
    rw [← ha i ?_]
    · exact h2
    · intro hn
      rw [hn] at this
      exact this.elim
  · have := hcr.ok i
    cases hs : slots i with
    | none =>
      rw [hs] at this
      revert this
      cases ch (kinds i) <;> exact id
    | some p =>
      rw [ha i (by rw [hs]; simp), ← hs]
      exact this

/-- The context of variable `i` is forgotten. -/
theorem MixMulti.forget {slots : Nat → Option Nat} {m : MixedMem L} {acc : Nat → Option (List Byte)} (h : MixMulti ch L Rep kinds mbase base slots m acc) (i : Nat) :
    ∃ mbase' base', MixMulti ch L Rep kinds mbase' base' (Function.update slots i none) m acc ∧ (∀ w, mbase w ⊆ mbase' w) ∧ (∀ k, base k ⊆ base' k) ∧
      (slots i ≠ none → (∃ w, mbase' w ≠ []) ∨ ∃ k, base' k ≠ []) := by
  obtain ⟨⟨a, hrel, hmem, hst⟩, ent, hcr⟩ := h
  by_cases hk : ch (kinds i) = .builtin
  · obtain ⟨g1, g2⟩ := Model.forget hmem hrel i
    refine ⟨Function.update mbase (kinds i).width ((builtinSlots ch kinds slots i).toList ++ mbase (kinds i).width), base, ⟨⟨Function.update a i none, ?_, ?_, ?_⟩, ent, hcr.builtin i hk none fun _ _ => rfl⟩, fun w => ?_, fun _ => List.Subset.refl _, fun hs => .inl ⟨(kinds i).width, ?_⟩⟩
    · rw [builtinSlots_builtin hk]
      exact g1
    · rw [builtinSlots_builtin hk]
      exact g2
    · intro j hj h0 msg y h1 h2
      by_cases hji : j = i
      · subst hji
        rw [Function.update_self] at h1
        cases h1
      · rw [Function.update_of_ne hji] at h1
        exact hst j hj h0 msg y h1 h2
    · by_cases hw : w = (kinds i).width
      · subst hw
        rw [Function.update_self]
        exact List.subset_append_right _ _
      · rw [Function.update_of_ne hw]
        exact List.Subset.refl _
    · obtain ⟨p, hp⟩ := Option.ne_none_iff_exists'.1 hs
      rw [Function.update_self]
      simp [builtinSlots, hk, hp]
  · refine ⟨mbase, Function.update base (kinds i) (ent i ++ base (kinds i)), ⟨⟨a, ?_, ?_, hst⟩, _, hcr.forget i⟩, fun _ => List.Subset.refl _, fun k => ?_, fun hs => .inr ⟨kinds i, ?_⟩⟩
    · rw [builtinSlots_crypto hk]
      exact hrel
    · rw [builtinSlots_crypto hk]
      exact hmem
    · by_cases hw : k = kinds i
      · subst hw
        rw [Function.update_self]
        exact List.subset_append_right _ _
      · rw [Function.update_of_ne hw]
        exact List.Subset.refl _
    · have hok := hcr.ok i
      obtain ⟨p, hp⟩ := Option.ne_none_iff_exists'.1 hs
      rw [Function.update_self]
      cases hB : ch (kinds i) with
      | builtin => exact absurd hB hk
      | crypto B =>
        rw [hB, hp] at hok
        obtain ⟨st, -, hH⟩ := hok
        have hne : ent i ≠ [] := by
          cases B with
          | direct b => simp only [Holds] at hH; rw [hH]; simp
          | evpEmbedded => simp only [Holds] at hH; rw [hH]; simp
          | evpAllocated =>
            obtain ⟨q, -, hH⟩ := hH
            rw [hH]; simp
        simp [hne]

theorem put_same {m : MixedMem L} {w : Nat} {s : St w} (hl : s.live = m.mem.live w) (hc : m.mem.count ≤ s.count) : m.Same { m with mem := m.mem.put w s } := by
  refine ⟨?_, rfl, hc, Nat.le_refl _⟩
  funext v
  by_cases hv : v = w
  · subst hv
    simp only [Mem.put, Function.update_self, hl]
  · simp only [Mem.put, Function.update_of_ne hv]

theorem crypto_same {m : MixedMem L} {k : Kind} {count calls : Nat} {live : List (Nat × BObj (L k).State)} (hl : live = m.live k) (h1 : m.mem.count ≤ count) (h2 : m.calls ≤ calls) :
    m.Same { mem := { m.mem with count := count }, calls := calls, live := Function.update m.live k live } := by
  refine ⟨rfl, ?_, h1, h2⟩
  show Function.update m.live k live = m.live
  rw [hl, Function.update_eq_self]

theorem calculate_len (k : Kind) : k.hashSize ≤ 64 := by cases k <;> decide

/-- `calculate` in any build. -/
theorem py_calculate (hL : ∀ k, ch k ≠ .builtin → Contract (L k) k (Rep k)) (htame : ∀ k, ch k ≠ .builtin → Tame (L k) k.hashSize) {e : PyEnv} (he : e.Ok) (k : Kind) (b : List Byte) (hb : b.length ≤ maxSize) (m : MixedMem L) :
    ∃ r d m', (PyLibrary.mixed ch L u al).calculate e k b m = .ok (r, d, m') ∧ d.length = k.hashSize ∧ m.Same m' ∧
      (r = 1 ∧ (b.length < 2 ^ 61 → d = k.std.digest b) ∨ r = -1 ∧ (Full al ∨ ¬ GoodKind ch L k ∨ (ch k).limit < b.length)) := by
  have hl : (e.hash k).length = k.hashSize := (he k).2.1
  have hm : k.hashSize ≤ maxSize := by cases k <;> decide
  cases hk : ch k with
  | builtin =>
    obtain ⟨enc, LL⟩ := lawful k
    rcases calculate_ok LL (u k) { e.env k with allocOk := al } (scrOk_of_junk (he k).1) (some 0) b.length (some b.length) (algOf k).hashSize { m.mem.view k.width with caller := b ++ e.hash k }
      (by rintro _ ⟨⟩ -; simp) (by rintro _ ⟨⟩ -; rw [algOf_hashSize]; simp [hl]) with ⟨h, e1⟩ | ⟨-, h2, -⟩ | ⟨h, i', o', hi, -, ho, -, -, e1⟩
    · refine ⟨-1, e.hash k, { m with mem := m.mem.put k.width ⟨m.mem.caller, m.mem.count + 1, m.mem.live k.width, m.mem.freed k.width⟩ }, ?_, hl, put_same rfl (Nat.le_succ _), .inr ⟨rfl, .inl ⟨_, h⟩⟩⟩
      simp only [PyLibrary.mixed, hk, PyLibrary.builtin]
      rw [e1]
      simp [Mem.view]
    · exact (h2 ⟨by simp, hb, by simp, le_refl _, by rw [algOf_hashSize]; exact hm⟩).elim
    · cases hi; cases ho
      refine ⟨1, k.len64.digest b, { m with mem := m.mem.put k.width ⟨m.mem.caller, m.mem.count + 1, m.mem.live k.width, (m.mem.count, .ctx (zeroCtx (algOf k))) :: m.mem.freed k.width⟩ }, ?_,
        digest_length k b, put_same rfl (Nat.le_succ _), .inl ⟨rfl, fun h => len64_digest k b (lengthOk_of_lt k h)⟩⟩
      simp only [PyLibrary.mixed, hk, PyLibrary.builtin]
      rw [e1]
      simp only [Res.ok_bind, Res.pure_eq]
      rw [slice_append_left, drop_overwrite_end _ _ _ (by rw [digest_length, hl])]
      rfl
  | crypto B =>
    have hne : ch k ≠ .builtin := by rw [hk]; simp
    obtain ⟨r, c, mem, e1, h1, h2, h3, h4⟩ := oCalculate_ok k (htame k hne) B ⟨al, (e.env k).junkByte⟩ (some 0) b.length (some b.length) k.hashSize ⟨b ++ e.hash k, ⟨m.mem.count, m.calls, m.live k⟩, [], []⟩
      (by rintro _ ⟨⟩ -; simp) (by rintro _ ⟨⟩ -; simp [hl])
    have hle := oCalculate_le (L := L k) B k.hashSize ⟨al, (e.env k).junkByte⟩ (some 0) b.length (some b.length) k.hashSize (s := ⟨b ++ e.hash k, ⟨m.mem.count, m.calls, m.live k⟩, [], []⟩) (t := ⟨m.mem.count, m.calls, m.live k⟩) (BSt.Le.refl _)
    rw [e1] at hle
    have hml : mem.length = (b ++ e.hash k).length := h3.length (by rintro _ ⟨⟩ -; simp [hl])
    refine ⟨r, mem.drop b.length, { mem := { m.mem with count := c.count }, calls := c.calls, live := Function.update m.live k c.live }, ?_, ?_, crypto_same h1 (hle _ rfl).1 (hle _ rfl).2, ?_⟩
    · simp only [PyLibrary.mixed, hk, e1, Res.ok_bind, Res.pure_eq]
    · rw [List.length_drop, hml, List.length_append, hl]
      omega
    · have hmo : k.hashSize ≤ B.maxOutput := Nat.le_trans (calculate_len k) (by cases B <;> simp [Backend.maxOutput, ssizeMax])
      rcases h4 with ⟨rfl, -, i', o', hi, ho, -, -, -, h5⟩ | ⟨rfl, -, h5⟩
      · cases hi; cases ho
        refine .inl ⟨rfl, fun h => ?_⟩
        rw [h5 ⟨_, hL k hne⟩ h]
        dsimp only
        rw [slice_append_left, drop_overwrite_end _ _ _ (by rw [std_digest_length, hl])]
      · refine .inr ⟨rfl, ?_⟩
        rcases h5 with h | h | h | h | h | h | h
        · exact .inl ⟨_, h⟩
        · exact .inr (.inl fun g => h (g hne))
        · cases h
        · exact .inr (.inr h)
        · cases h
        · omega
        · omega

/-- `calculate_hmac` in any build. -/
theorem py_hmac (hL : ∀ k, ch k ≠ .builtin → Contract (L k) k (Rep k)) (htame : ∀ k, ch k ≠ .builtin → Tame (L k) k.hashSize) {e : PyEnv} (he : e.Ok) (k : Kind) (kb b : List Byte) (hkb : kb.length ≤ maxSize)
    (hb : b.length ≤ maxSize) (m : MixedMem L) :
    ∃ r d m', (PyLibrary.mixed ch L u al).calculateHmac e k kb b m = .ok (r, d, m') ∧ m.Same m' ∧
      (r = 1 ∧ d.length = k.hashSize ∧ (kb.length < 2 ^ 61 → k.blockSize + b.length < 2 ^ 61 → d = Spec.hmac k.blockSize k.std.digest kb b) ∨
        r = -1 ∧ (Full al ∨ ¬ GoodKind ch L k ∨ (ch k).limit < b.length ∨ (ch k).limit < kb.length)) := by
  have hl : (e.hash k).length = k.hashSize := (he k).2.1
  have hm : k.hashSize ≤ maxSize := by cases k <;> decide
  cases hk : ch k with
  | builtin =>
    obtain ⟨enc, LL⟩ := lawful k
    obtain ⟨r, l', s', fl, e1, h⟩ := calculateHmac_ok LL (u k) { e.env k with allocOk := al } (scrOk_of_junk (he k).1) (e.keyHash k) (by rw [(he k).2.2, algOf_hashSize])
      (some 0) kb.length (some kb.length) b.length (some (kb.length + b.length)) (algOf k).hashSize { m.mem.view k.width with caller := kb ++ (b ++ e.hash k) }
      (by rintro _ ⟨⟩ -; simp) (by rintro _ ⟨⟩ -; simp) (by rintro _ ⟨⟩ -; rw [algOf_hashSize]; simp [hl]; omega)
    have hargs : (some 0 : Option Nat) ≠ none ∧ kb.length ≤ ssizeMax ∧ PassArgs (algOf k) (some kb.length) b.length (some (kb.length + b.length)) (algOf k).hashSize :=
      ⟨by simp, hkb, by simp, hb, by simp, le_refl _, by rw [algOf_hashSize]; exact hm⟩
    refine ⟨r, s'.caller.drop (kb.length + b.length), { m with mem := m.mem.put k.width { s' with caller := m.mem.caller } }, ?_, put_same h.live h.count.1, ?_⟩
    · simp only [PyLibrary.mixed, hk, PyLibrary.builtin]
      rw [e1]
      rfl
    · rcases h.result with ⟨rfl, -, k', i', o', h1, h2, h3, -, h5⟩ | ⟨h0, -, h1 | ⟨j, hj, h1⟩⟩ | ⟨h0, -, h2, -⟩
      · cases h1; cases h2; cases h3
        have hd : s'.caller.drop (kb.length + b.length) = Spec.hmac k.blockSize k.len64.digest kb b := by
          rw [h5]
          simp only
          rw [slice_append_left, slice_append_mid, algOf_hmacBs, hmacOf_paddedKey k.blockSize k.len64.digest kb b, ← List.append_assoc, ← List.length_append, drop_overwrite_end _ _ _ (by rw [hmac_length, hl])]
        rw [hd]
        exact .inl ⟨rfl, hmac_length k kb b, fun ha hb' => hmac_len64 k kb b (lengthOk_of_lt k ha) (lengthOk_of_lt k hb')⟩
      · exact (h1 hargs).elim
      · exact .inr ⟨h0, .inl ⟨_, h1⟩⟩
      · exact .inr ⟨h0, .inl ⟨_, h2⟩⟩
  | crypto B =>
    have hne : ch k ≠ .builtin := by rw [hk]; simp
    obtain ⟨r, c, mem, fl, e1, h1, -, h3, h4⟩ := oCalculateHmac_ok k (htame k hne) B ⟨al, (e.env k).junkByte⟩ (e.keyHash k) (he k).2.2 (some 0) kb.length (some kb.length) b.length (some (kb.length + b.length)) k.hashSize
      ⟨kb ++ (b ++ e.hash k), ⟨m.mem.count, m.calls, m.live k⟩, [], []⟩ (by rintro _ ⟨⟩ -; simp) (by rintro _ ⟨⟩ -; simp) (by rintro _ ⟨⟩ -; simp [hl]; omega)
    have hle := oCalculateHmac_le (L := L k) B k.hashSize k.blockSize ⟨al, (e.env k).junkByte⟩ (e.keyHash k) (some 0) kb.length (some kb.length) b.length (some (kb.length + b.length)) k.hashSize
      (s := ⟨kb ++ (b ++ e.hash k), ⟨m.mem.count, m.calls, m.live k⟩, [], []⟩) (t := ⟨m.mem.count, m.calls, m.live k⟩) (BSt.Le.refl _)
    rw [e1] at hle
    have hml : mem.length = (kb ++ (b ++ e.hash k)).length := h3.length (by rintro _ ⟨⟩ -; simp [hl]; omega)
    refine ⟨r, mem.drop (kb.length + b.length), { mem := { m.mem with count := c.count }, calls := c.calls, live := Function.update m.live k c.live }, ?_, crypto_same h1 (hle _ rfl).1 (hle _ rfl).2, ?_⟩
    · simp only [PyLibrary.mixed, hk, e1, Res.ok_bind, Res.pure_eq]
    · have hmo : k.hashSize ≤ B.maxOutput := Nat.le_trans (calculate_len k) (by cases B <;> simp [Backend.maxOutput, ssizeMax])
      rcases h4 with ⟨rfl, -, -, q', i', o', hq, hi, ho, -, -, -, -, -, h5⟩ | ⟨rfl, -, h5⟩
      · cases hq; cases hi; cases ho
        refine .inl ⟨rfl, ?_, fun ha hb' => ?_⟩
        · rw [List.length_drop, hml, List.length_append, List.length_append, hl]
          omega
        rw [h5 ⟨_, hL k hne⟩ ha hb']
        dsimp only
        rw [slice_append_left, slice_append_mid, ← List.append_assoc, ← List.length_append, drop_overwrite_end _ _ _ (by rw [hl]; exact std_digest_length k _)]
      · refine .inr ⟨rfl, ?_⟩
        rcases h5 with ⟨j, -, h⟩ | h | h | h | h | h | h | h | h | h
        · exact .inl ⟨_, h⟩
        · exact .inr (.inl fun g => h (g hne))
        · cases h
        · have : kb.length ≤ ssizeMax := hkb
          omega
        · exact .inr (.inr (.inr h.2))
        · cases h
        · exact .inr (.inr (.inl h))
        · cases h
        · omega
        · omega

/-- A variable and what is known of its object. -/
def PyShape (x : Option (Option Nat)) (y : Option (Option (Option (List Byte)))) : Prop :=
  match x, y with
  | none, none => True
  | some none, some none => True
  | some (some _), some (some _) => True
  | _, _ => False

/-- The state of a program in a build. -/
structure PyMix (ch : Kind → Choice) (L : Kind → Library) (Rep : (k : Kind) → (L k).State → List Byte → Prop) (kinds : Nat → Kind) (mbase : Nat → List Nat) (base : (k : Kind) → List (Nat × BObj (L k).State))
    (st : PyState (MixedMem L)) (o : PyMessages) : Prop where
  shape : ∀ i, PyShape (st.vars i) (o i)
  mix : MixMulti ch L Rep kinds mbase base (fun i => (st.vars i).join) st.mem (fun i => (o i).join.join)

/-- A statement that the module carries out. -/
structure PyMixDone (ch : Kind → Choice) (L : Kind → Library) (Rep : (k : Kind) → (L k).State → List Byte → Prop) (kinds : Nat → Kind) (u : Kind → Bool) (al : Nat → Bool) (mbase : Nat → List Nat)
    (base : (k : Kind) → List (Nat × BObj (L k).State)) (e : PyEnv) (op : PyOp) (st : PyState (MixedMem L)) (o : PyMessages) (r : PyResult) (st' : PyState (MixedMem L)) (o' : PyMessages) (mbase' : Nat → List Nat)
    (base' : (k : Kind) → List (Nat × BObj (L k).State)) : Prop where
  eq : PyBuilds.exec (PyLibrary.mixed ch L u al) kinds e op st = .ok (r, st')
  may : pyMay kinds (GoodKind ch L) (fun k => (ch k).limit) (Full al) op o r o'
  mix : PyMix ch L Rep kinds mbase' base' st' o'
  objects : st'.objects = st.objects + Spec.pyObjectChange op r
  keep : (∀ i, op ≠ .reinit i) → mbase' = mbase ∧ base' = base
  grow : (∀ w, mbase w ⊆ mbase' w) ∧ ∀ k, base k ⊆ base' k
  leak : ∀ i, op = .reinit i → (o i).join ≠ none → (∃ w, mbase' w ≠ []) ∨ ∃ k, base' k ≠ []

theorem PyShape.update {vars : Nat → Option (Option Nat)} {o : PyMessages} (h : ∀ i, PyShape (vars i) (o i)) (i : Nat) {x : Option (Option Nat)} {y : Option (Option (Option (List Byte)))} (hxy : PyShape x y) (j : Nat) :
    PyShape (Function.update vars i x j) (Function.update o i y j) := by
  by_cases hj : j = i
  · subst hj
    rw [Function.update_self, Function.update_self]
    exact hxy
  · rw [Function.update_of_ne hj, Function.update_of_ne hj]
    exact h j

theorem joins_update (o : PyMessages) (i : Nat) (y : Option (Option (Option (List Byte)))) : (fun j => (Function.update o i y j).join.join) = Function.update (fun j => (o j).join.join) i y.join.join := by
  funext j
  by_cases h : j = i
  · subst h; simp
  · simp [h]

/-- A statement that changes variable `i`. -/
theorem PyMix.set {st : PyState (MixedMem L)} {o : PyMessages} {mbase0 mbase' : Nat → List Nat} {base0 base' : (k : Kind) → List (Nat × BObj (L k).State)} (h : PyMix ch L Rep kinds mbase0 base0 st o) {i : Nat} {x : Option (Option Nat)}
    {y : Option (Option (Option (List Byte)))} (hxy : PyShape x y) {m : MixedMem L} {n : Int} {r : Nat}
    (h1 : MixMulti ch L Rep kinds mbase' base' (Function.update (fun i => (st.vars i).join) i x.join) m (Function.update (fun i => (o i).join.join) i y.join.join)) :
    PyMix ch L Rep kinds mbase' base' ⟨Function.update st.vars i x, m, n, r⟩ (Function.update o i y) where
  shape := PyShape.update h.shape i hxy
  mix := by
    rw [joins_update]
    show MixMulti ch L Rep kinds mbase' base' (fun j => (Function.update st.vars i x j).join) m _
    rw [join_update (β := fun _ => Nat) st.vars]
    exact h1

theorem PyMix.set' {st : PyState (MixedMem L)} {o : PyMessages} {mbase0 mbase' : Nat → List Nat} {base0 base' : (k : Kind) → List (Nat × BObj (L k).State)} (h : PyMix ch L Rep kinds mbase0 base0 st o) {i : Nat} {x : Option (Option Nat)}
    (hx : st.vars i = x) {y : Option (Option (Option (List Byte)))} (hxy : PyShape x y) {m : MixedMem L} {n : Int} {r : Nat}
    (h1 : MixMulti ch L Rep kinds mbase' base' (Function.update (fun i => (st.vars i).join) i x.join) m (Function.update (fun i => (o i).join.join) i y.join.join)) :
    PyMix ch L Rep kinds mbase' base' ⟨st.vars, m, n, r⟩ (Function.update o i y) := by
  have := h.set hxy (m := m) (n := n) (r := r) h1
  rwa [← hx, Function.update_eq_self] at this

/-- `tp_init` on the object of variable `i`, or on a new one. -/
theorem py_init (hL : ∀ k, ch k ≠ .builtin → Contract (L k) k (Rep k)) (htame : ∀ k, ch k ≠ .builtin → Tame (L k) k.hashSize) {e : PyEnv} (he : e.Ok) (i : Nat) {slots : Nat → Option Nat} {m : MixedMem L}
    {acc : Nat → Option (List Byte)} (h : MixMulti ch L Rep kinds mbase base slots m acc) (hs : slots i = none) :
    (∃ p m', PyBuilds.init (PyLibrary.mixed ch L u al) e (kinds i) m = .ok (0, some p, m') ∧ MixMulti ch L Rep kinds mbase base (Function.update slots i (some p)) m' (Function.update acc i (some []))) ∨
    (∃ m', PyBuilds.init (PyLibrary.mixed ch L u al) e (kinds i) m = .ok (-1, none, m') ∧ MixMulti ch L Rep kinds mbase base slots m' acc ∧ (Full al ∨ ¬ GoodKind ch L (kinds i))) := by
  obtain ⟨r, slot', m', e1, h1, hf⟩ := py_step (u := u) (al := al) hL htame he i .init trivial h
  rw [hs] at e1 hf
  obtain ⟨-, ⟨hc, -, hn⟩ | ⟨hc, rfl, hw⟩⟩ := hf
  · obtain ⟨p, rfl⟩ := Option.ne_none_iff_exists'.1 hn
    refine .inl ⟨p, m', by simp [PyBuilds.init, PyBuilds.acquire, e1, hc], ?_⟩
    simpa [acceptedNext, Spec.accepted, hc] using h1
  · refine .inr ⟨m', by simp [PyBuilds.init, PyBuilds.acquire, e1, hc], ?_, hw.imp (fun h => ⟨_, h⟩) id⟩
    rw [← hs, Function.update_eq_self] at h1
    simpa [acceptedNext, Spec.accepted, hc] using h1

theorem exec_may (hL : ∀ k, ch k ≠ .builtin → Contract (L k) k (Rep k)) (htame : ∀ k, ch k ≠ .builtin → Tame (L k) k.hashSize) {e : PyEnv} (he : e.Ok) {st : PyState (MixedMem L)} {o : PyMessages}
    (hr : PyMix ch L Rep kinds mbase base st o) (op : PyOp) : ∃ r st' o' mbase' base', PyMixDone ch L Rep kinds u al mbase base e op st o r st' o' mbase' base' := by
  have same : ∀ r, (∀ i, op ≠ .reinit i) → PyBuilds.exec (PyLibrary.mixed ch L u al) kinds e op st = .ok (r, st) → pyMay kinds (GoodKind ch L) (fun k => (ch k).limit) (Full al) op o r o → Spec.pyObjectChange op r = 0 →
      ∃ r st' o' mbase' base', PyMixDone ch L Rep kinds u al mbase base e op st o r st' o' mbase' base' := fun r h0 h1 h2 h3 =>
    ⟨r, st, o, mbase, base, h1, h2, hr, by rw [h3, Int.add_zero], fun _ => ⟨rfl, rfl⟩, ⟨fun _ => List.Subset.refl _, fun _ => List.Subset.refl _⟩, fun i h => absurd h (h0 i)⟩
  cases op with
  | create i ok =>
    have hsh := hr.shape i
    cases hv : st.vars i with
    | some x =>
      obtain ⟨y, hy⟩ : ∃ y, o i = some y := by
        rw [hv] at hsh
        cases hy : o i with
        | none => rw [hy] at hsh; cases x <;> exact hsh.elim
        | some y => exact ⟨y, rfl⟩
      exact same (.raised .name) (by simp) (by simp [PyBuilds.exec, PyBuilds.new, hv]) (by simp [pyMay, hy]) rfl
    | none =>
      have hy : o i = none := by
        rw [hv] at hsh
        cases hy : o i with
        | none => rfl
        | some y => rw [hy] at hsh; exact hsh.elim
      cases ok with
      | false => exact same (.raised .memory) (by simp) (by simp [PyBuilds.exec, PyBuilds.new, hv, PyBuilds.create]) (by simp [pyMay, hy]) rfl
      | true =>
        rcases py_init (u := u) (al := al) hL htame he i hr.mix (by simp [hv]) with ⟨p, m', e1, h1⟩ | ⟨m', e1, h1, hw⟩
        · refine ⟨.none, { st with vars := Function.update st.vars i (some (some p)), mem := m', objects := st.objects + 1 }, Function.update o i (some (some (some []))), mbase, base, ?_, ?_, ?_, rfl, fun _ => ⟨rfl, rfl⟩,
            ⟨fun _ => List.Subset.refl _, fun _ => List.Subset.refl _⟩, nofun⟩
          · simp [PyBuilds.exec, PyBuilds.new, hv, PyBuilds.create, e1]
          · simp [pyMay, hy]
          · exact hr.set (by exact trivial) h1
        · refine ⟨.raised .value, { st with mem := m', objects := st.objects + 1 }, o, mbase, base, ?_, ?_, ⟨hr.shape, h1⟩, rfl, fun _ => ⟨rfl, rfl⟩,
            ⟨fun _ => List.Subset.refl _, fun _ => List.Subset.refl _⟩, nofun⟩
          · simp [PyBuilds.exec, PyBuilds.new, hv, PyBuilds.create, e1, PyBuilds.dealloc]
          · simp [pyMay, hy, hw]
  | createRaw i ok =>
    have hsh := hr.shape i
    cases hv : st.vars i with
    | some x =>
      obtain ⟨y, hy⟩ : ∃ y, o i = some y := by
        rw [hv] at hsh
        cases hy : o i with
        | none => rw [hy] at hsh; cases x <;> exact hsh.elim
        | some y => exact ⟨y, rfl⟩
      exact same (.raised .name) (by simp) (by simp [PyBuilds.exec, PyBuilds.new, hv]) (by simp [pyMay, hy]) rfl
    | none =>
      have hy : o i = none := by
        rw [hv] at hsh
        cases hy : o i with
        | none => rfl
        | some y => rw [hy] at hsh; exact hsh.elim
      cases ok with
      | false => exact same (.raised .memory) (by simp) (by simp [PyBuilds.exec, PyBuilds.new, hv]) (by simp [pyMay, hy]) rfl
      | true =>
        refine ⟨.none, { st with vars := Function.update st.vars i (some none), objects := st.objects + 1 }, Function.update o i (some none), mbase, base, ?_, ?_, ?_, rfl, fun _ => ⟨rfl, rfl⟩,
          ⟨fun _ => List.Subset.refl _, fun _ => List.Subset.refl _⟩, nofun⟩
        · simp [PyBuilds.exec, PyBuilds.new, hv]
        · simp [pyMay, hy]
        · refine hr.set (by exact trivial) ?_
          have h1 : (st.vars i).join = none := by simp [hv]
          have h2 : (o i).join.join = none := by simp [hy]
          have := hr.mix
          rwa [← Function.update_eq_self i (fun i => (st.vars i).join), ← Function.update_eq_self i (fun i => (o i).join.join), h1, h2] at this
  | reinit i =>
    have hsh := hr.shape i
    cases hv : st.vars i with
    | none =>
      have hy : o i = none := by
        rw [hv] at hsh
        cases hy : o i with
        | none => rfl
        | some y => rw [hy] at hsh; exact hsh.elim
      refine ⟨.raised .name, st, o, mbase, base, ?_, ?_, hr, by simp [Spec.pyObjectChange], fun _ => ⟨rfl, rfl⟩, ⟨fun _ => List.Subset.refl _, fun _ => List.Subset.refl _⟩, ?_⟩
      · simp [PyBuilds.exec, PyBuilds.on, hv]
      · simp [pyMay, hy]
      · rintro j ⟨⟩ hj
        rw [hy] at hj
        exact absurd rfl hj
    | some x =>
      obtain ⟨y, hy⟩ : ∃ y, o i = some y := by
        rw [hv] at hsh
        cases hy : o i with
        | none => rw [hy] at hsh; cases x <;> exact hsh.elim
        | some y => exact ⟨y, rfl⟩
      obtain ⟨mbase', base', hf, hg1, hg2, hl⟩ := hr.mix.forget i
      have hleak : ∀ j, PyOp.reinit i = .reinit j → (o j).join ≠ none → (∃ w, mbase' w ≠ []) ∨ ∃ k, base' k ≠ [] := by
        rintro j ⟨⟩ hj
        refine hl ?_
        rw [hv, hy] at hsh
        rw [hy] at hj
        show (st.vars i).join ≠ none
        rw [hv]
        cases x with
        | none =>
          cases y with
          | none => exact absurd rfl hj
          | some y => exact hsh.elim
        | some p => simp
      rcases py_init (u := u) (al := al) hL htame he i hf (by simp) with ⟨p, m', e1, h1⟩ | ⟨m', e1, h1, hw⟩
      · refine ⟨.none, { st with vars := Function.update st.vars i (some (some p)), mem := m' }, Function.update o i (some (some (some []))), mbase', base', ?_, ?_, ?_, by simp [Spec.pyObjectChange], fun h => absurd rfl (h i), ⟨hg1, hg2⟩, hleak⟩
        · simp [PyBuilds.exec, PyBuilds.on, hv, PyBuilds.method, e1]
        · simp [pyMay, hy]
        · rw [Function.update_idem] at h1
          exact hr.set (by exact trivial) h1
      · refine ⟨.raised .memory, { st with vars := Function.update st.vars i (some none), mem := m' }, Function.update o i (some none), mbase', base', ?_, ?_, ?_, by simp [Spec.pyObjectChange], fun h => absurd rfl (h i), ⟨hg1, hg2⟩, hleak⟩
        · simp [PyBuilds.exec, PyBuilds.on, hv, PyBuilds.method, e1]
        · simp [pyMay, hy, hw]
        · refine hr.set (by exact trivial) (h1.setNone fun j hj => ?_)
          by_cases hji : j = i
          · subst hji
            simp at hj
          · rw [Function.update_of_ne hji]
  | update i arg =>
    have hsh := hr.shape i
    cases hv : st.vars i with
    | none =>
      have hy : o i = none := by
        rw [hv] at hsh
        cases hy : o i with
        | none => rfl
        | some y => rw [hy] at hsh; exact hsh.elim
      exact same (.raised .name) (by simp) (by simp [PyBuilds.exec, PyBuilds.on, hv]) (by simp [pyMay, hy]) rfl
    | some x =>
      obtain ⟨y, hy⟩ : ∃ y, o i = some y := by
        rw [hv] at hsh
        cases hy : o i with
        | none => rw [hy] at hsh; cases x <;> exact hsh.elim
        | some y => exact ⟨y, rfl⟩
      rw [hv, hy] at hsh
      cases ha : Spec.pyBytes arg with
      | inl ex => exact same (.raised ex) (by simp) (by simp [PyBuilds.exec, PyBuilds.on, hv, PyBuilds.method, PyBuilds.feed, pyData_eq, ha]) (by simp [pyMay, hy, ha]) rfl
      | inr b =>
        obtain ⟨r, slot', m', e1, h1, hf⟩ := py_step (u := u) (al := al) hL htame he i (.update (some b) b.length) (by simp [ApiCall.Valid]) hr.mix
        simp only [hv, Option.join_some] at e1 hf
        cases x with
        | none =>
          cases y with
          | some y => exact hsh.elim
          | none =>
            obtain ⟨rfl, rfl⟩ := hf
            refine ⟨.raised .io, { st with mem := m' }, o, mbase, base, ?_, ?_, ⟨hr.shape, ?_⟩, by simp [Spec.pyObjectChange], fun _ => ⟨rfl, rfl⟩, ⟨fun _ => List.Subset.refl _, fun _ => List.Subset.refl _⟩, nofun⟩
            · simp [PyBuilds.exec, PyBuilds.on, hv, PyBuilds.method, PyBuilds.feed, pyData_eq, ha, PyBuilds.update, e1]
            · simp [pyMay, hy, ha]
            · have g1 : Function.update (fun i => (st.vars i).join) i none = fun i => (st.vars i).join := by
                conv => rhs; rw [← Function.update_eq_self i (fun i => (st.vars i).join)]
                simp [hv]
              rw [g1] at h1
              refine h1.setNone fun j hj => ?_
              by_cases hji : j = i
              · subst hji
                simp [hv] at hj
              · rw [Function.update_of_ne hji]
        | some p =>
          cases y with
          | none => exact hsh.elim
          | some y =>
            obtain ⟨rfl, -, hc, hgood⟩ := hf
            rcases hc with ⟨hc, -⟩ | hc
            · refine ⟨.none, { st with mem := m' }, Function.update o i (some (some (y.map (· ++ b)))), mbase, base, ?_, ?_, ?_, by simp [Spec.pyObjectChange], fun _ => ⟨rfl, rfl⟩, ⟨fun _ => List.Subset.refl _, fun _ => List.Subset.refl _⟩, nofun⟩
              · simp [PyBuilds.exec, PyBuilds.on, hv, PyBuilds.method, PyBuilds.feed, pyData_eq, ha, PyBuilds.update, e1, hc]
              · simp [pyMay, hy, ha]
              · refine hr.set' hv (by exact trivial) ?_
                simpa [acceptedNext, Spec.accepted, hc, hy] using h1
            · refine ⟨.raised .io, { st with mem := m' }, Function.update o i (some (some none)), mbase, base, ?_, ?_, ?_, by simp [Spec.pyObjectChange], fun _ => ⟨rfl, rfl⟩, ⟨fun _ => List.Subset.refl _, fun _ => List.Subset.refl _⟩, nofun⟩
              · simp [PyBuilds.exec, PyBuilds.on, hv, PyBuilds.method, PyBuilds.feed, pyData_eq, ha, PyBuilds.update, e1, hc]
              · simp only [pyMay, hy, ha]
                refine .inr ⟨trivial, trivial, ?_⟩
                by_contra hn
                rw [not_or, Nat.not_lt, not_not] at hn
                have := hgood (by simp) hn.1 hn.2
                omega
              · refine hr.set' hv (by exact trivial) ?_
                simpa [acceptedNext, Spec.accepted, hc, hy] using h1
  | finalize i ok =>
    have hsh := hr.shape i
    cases hv : st.vars i with
    | none =>
      have hy : o i = none := by
        rw [hv] at hsh
        cases hy : o i with
        | none => rfl
        | some y => rw [hy] at hsh; exact hsh.elim
      exact same (.raised .name) (by simp) (by simp [PyBuilds.exec, PyBuilds.on, hv]) (by simp [pyMay, hy]) rfl
    | some x =>
      obtain ⟨y, hy⟩ : ∃ y, o i = some y := by
        rw [hv] at hsh
        cases hy : o i with
        | none => rw [hy] at hsh; cases x <;> exact hsh.elim
        | some y => exact ⟨y, rfl⟩
      rw [hv, hy] at hsh
      have hl : (e.hash (kinds i)).length = (kinds i).hashSize := (he _).2.1
      obtain ⟨r, slot', m', e1, h1, hf⟩ := py_step (u := u) (al := al) hL htame he i (.finalize (some (e.hash (kinds i))) (kinds i).hashSize) (by simp [ApiCall.Valid, hl]) hr.mix
      simp only [hv, Option.join_some] at e1 hf
      cases x with
      | none =>
        cases y with
        | some y => exact hsh.elim
        | none =>
          obtain ⟨rfl, rfl⟩ := hf
          refine ⟨.raised .io, { st with mem := m' }, o, mbase, base, ?_, ?_, ⟨hr.shape, ?_⟩, by simp [Spec.pyObjectChange], fun _ => ⟨rfl, rfl⟩, ⟨fun _ => List.Subset.refl _, fun _ => List.Subset.refl _⟩, nofun⟩
          · simp [PyBuilds.exec, PyBuilds.on, hv, PyBuilds.method, PyBuilds.digest, PyBuilds.finalize, e1]
          · simp [pyMay, hy]
          · have g1 : Function.update (fun i => (st.vars i).join) i none = fun i => (st.vars i).join := by
              conv => rhs; rw [← Function.update_eq_self i (fun i => (st.vars i).join)]
              simp [hv]
            rw [g1] at h1
            refine h1.setNone fun j hj => ?_
            by_cases hji : j = i
            · subst hji
              simp [hv] at hj
            · rw [Function.update_of_ne hji]
      | some p =>
        cases y with
        | none => exact hsh.elim
        | some y =>
          obtain ⟨rfl, hc, hgood, hout⟩ := hf
          have h64 := calculate_len (kinds i)
          have hmix : PyMix ch L Rep kinds mbase base ⟨st.vars, m', st.objects, st.noneRefs⟩ (Function.update o i (some (some none))) := by
            refine hr.set' hv (by exact trivial) ?_
            simpa [acceptedNext, Spec.accepted] using h1
          rcases hc with ⟨hc, -⟩ | hc
          · obtain ⟨d, hd, ho, hm⟩ : ∃ d, d.length = (kinds i).hashSize ∧ r.out = some d ∧ ∀ x, y = some x → x.length < 2 ^ 61 → d = (kinds i).std.digest x := by
              rcases hout with ⟨-, h⟩ | ⟨-, d, hd, ho, hm⟩
              · omega
              · refine ⟨d, hd, ?_, fun x hx hl => hm hc x (by simp [hy, hx]) hl⟩
                rw [ho, List.drop_eq_nil_of_le (by omega), List.append_nil]
            refine ⟨if ok then .bytes d else .raised .io, ⟨st.vars, m', st.objects, st.noneRefs⟩, Function.update o i (some (some none)), mbase, base, ?_, ?_, hmix, by simp [Spec.pyObjectChange], fun _ => ⟨rfl, rfl⟩,
              ⟨fun _ => List.Subset.refl _, fun _ => List.Subset.refl _⟩, nofun⟩
            · simp [PyBuilds.exec, PyBuilds.on, hv, PyBuilds.method, PyBuilds.digest, PyBuilds.finalize, e1, hc, ho]
            · simp only [pyMay, hy]
              exact ⟨trivial, .inl ⟨d, rfl, hd, hm⟩⟩
          · refine ⟨.raised .io, ⟨st.vars, m', st.objects, st.noneRefs⟩, Function.update o i (some (some none)), mbase, base, ?_, ?_, hmix, by simp [Spec.pyObjectChange], fun _ => ⟨rfl, rfl⟩,
              ⟨fun _ => List.Subset.refl _, fun _ => List.Subset.refl _⟩, nofun⟩
            · obtain ⟨d, hd⟩ : ∃ d, r.out = some d := by
                rcases hout with ⟨h, -⟩ | ⟨-, d, -, h, -⟩ <;> exact ⟨_, h⟩
              simp [PyBuilds.exec, PyBuilds.on, hv, PyBuilds.method, PyBuilds.digest, PyBuilds.finalize, e1, hc, hd]
            · simp only [pyMay, hy]
              refine ⟨trivial, .inr ⟨trivial, fun hg => ?_⟩⟩
              have := hgood hg (Nat.le_refl _) (by omega)
              omega
  | release i =>
    have hsh := hr.shape i
    cases hv : st.vars i with
    | none =>
      have hy : o i = none := by
        rw [hv] at hsh
        cases hy : o i with
        | none => rfl
        | some y => rw [hy] at hsh; exact hsh.elim
      exact same (.raised .name) (by simp) (by simp [PyBuilds.exec, PyBuilds.on, hv]) (by simp [pyMay, hy]) rfl
    | some x =>
      obtain ⟨y, hy⟩ : ∃ y, o i = some y := by
        rw [hv] at hsh
        cases hy : o i with
        | none => rw [hy] at hsh; cases x <;> exact hsh.elim
        | some y => exact ⟨y, rfl⟩
      rw [hv, hy] at hsh
      cases x with
      | none =>
        cases y with
        | some y => exact hsh.elim
        | none =>
          refine ⟨.raised .value, { st with vars := Function.update st.vars i none }, Function.update o i none, mbase, base, ?_, ?_, ?_, by simp [Spec.pyObjectChange], fun _ => ⟨rfl, rfl⟩,
            ⟨fun _ => List.Subset.refl _, fun _ => List.Subset.refl _⟩, nofun⟩
          · simp [PyBuilds.exec, PyBuilds.on, hv, PyBuilds.method, PyBuilds.dealloc]
          · simp [pyMay, hy]
          · refine hr.set (by exact trivial) ?_
            have h1 : (st.vars i).join = none := by simp [hv]
            have h2 : (o i).join.join = none := by simp [hy]
            have := hr.mix
            rwa [← Function.update_eq_self i (fun i => (st.vars i).join), ← Function.update_eq_self i (fun i => (o i).join.join), h1, h2] at this
      | some p =>
        cases y with
        | none => exact hsh.elim
        | some y =>
          obtain ⟨r, slot', m', e1, h1, hf⟩ := py_step (u := u) (al := al) hL htame he i .free trivial hr.mix
          simp only [hv, Option.join_some] at e1 hf
          obtain ⟨rfl, rfl⟩ := hf
          refine ⟨.none, { st with vars := Function.update st.vars i none, mem := m', objects := st.objects - 1 }, Function.update o i none, mbase, base, ?_, ?_, ?_, rfl, fun _ => ⟨rfl, rfl⟩,
            ⟨fun _ => List.Subset.refl _, fun _ => List.Subset.refl _⟩, nofun⟩
          · simp [PyBuilds.exec, PyBuilds.on, hv, PyBuilds.method, PyBuilds.dealloc, PyBuilds.free, e1]
          · simp [pyMay, hy]
          · refine hr.set (by exact trivial) ?_
            simpa [acceptedNext, Spec.accepted] using h1
  | calculate k arg ok =>
    cases ha : Spec.pyBytes arg with
    | inl ex => exact same (.raised ex) (by simp) (by simp [PyBuilds.exec, PyBuilds.calculate, pyData_eq, ha]) (by simp [pyMay, ha]) rfl
    | inr b =>
      obtain ⟨r, d, m', e1, hd, hs, hc⟩ := py_calculate (u := u) (al := al) hL htame he k b (pyBytes_le ha) st.mem
      rcases hc with ⟨rfl, hc⟩ | ⟨rfl, hc⟩
      · refine ⟨if ok then .bytes d else .raised .io, { st with mem := m', noneRefs := st.noneRefs + 1 }, o, mbase, base, ?_, ?_, ⟨hr.shape, hr.mix.same hs⟩, by simp [Spec.pyObjectChange], fun _ => ⟨rfl, rfl⟩,
          ⟨fun _ => List.Subset.refl _, fun _ => List.Subset.refl _⟩, nofun⟩
        · simp [PyBuilds.exec, PyBuilds.calculate, pyData_eq, ha, e1]
        · simp only [pyMay, ha]
          exact ⟨trivial, .inl ⟨d, rfl, hd, hc⟩⟩
      · refine ⟨.raised .io, { st with mem := m' }, o, mbase, base, ?_, ?_, ⟨hr.shape, hr.mix.same hs⟩, by simp [Spec.pyObjectChange], fun _ => ⟨rfl, rfl⟩,
          ⟨fun _ => List.Subset.refl _, fun _ => List.Subset.refl _⟩, nofun⟩
        · simp [PyBuilds.exec, PyBuilds.calculate, pyData_eq, ha, e1]
        · simp only [pyMay, ha]
          exact ⟨trivial, .inr ⟨trivial, hc⟩⟩
  | calculateHmac k args ok =>
    cases args with
    | none => exact same (.raised .type) (by simp) (by simp [PyBuilds.exec, PyBuilds.calculateHmac]) (by simp [pyMay]) rfl
    | some args =>
      obtain ⟨key, data⟩ := args
      cases hk : Spec.pyKey key with
      | inl ex => exact same (.raised ex) (by simp) (by simp [PyBuilds.exec, PyBuilds.calculateHmac, pyKeyData_eq, hk]) (by simp [pyMay, hk]) rfl
      | inr kb =>
        cases ha : Spec.pyBytes (some data) with
        | inl ex => exact same (.raised ex) (by simp) (by simp [PyBuilds.exec, PyBuilds.calculateHmac, pyKeyData_eq, hk, pyData_eq, ha]) (by simp [pyMay, hk, ha]) rfl
        | inr b =>
          obtain ⟨r, d, m', e1, hs, hc⟩ := py_hmac (u := u) (al := al) hL htame he k kb b (pyKey_le hk) (pyBytes_le ha) st.mem
          rcases hc with ⟨rfl, hd, hc⟩ | ⟨rfl, hc⟩
          · refine ⟨if ok then .bytes d else .raised .io, { st with mem := m', noneRefs := st.noneRefs + 1 }, o, mbase, base, ?_, ?_, ⟨hr.shape, hr.mix.same hs⟩, by simp [Spec.pyObjectChange], fun _ => ⟨rfl, rfl⟩,
              ⟨fun _ => List.Subset.refl _, fun _ => List.Subset.refl _⟩, nofun⟩
            · simp [PyBuilds.exec, PyBuilds.calculateHmac, pyData_eq, ha, pyKeyData_eq, hk, e1]
            · simp only [pyMay, ha, hk]
              exact ⟨trivial, .inl ⟨d, rfl, hd, hc⟩⟩
          · refine ⟨.raised .io, { st with mem := m' }, o, mbase, base, ?_, ?_, ⟨hr.shape, hr.mix.same hs⟩, by simp [Spec.pyObjectChange], fun _ => ⟨rfl, rfl⟩,
              ⟨fun _ => List.Subset.refl _, fun _ => List.Subset.refl _⟩, nofun⟩
            · simp [PyBuilds.exec, PyBuilds.calculateHmac, pyData_eq, ha, pyKeyData_eq, hk, e1]
            · simp only [pyMay, ha, hk]
              exact ⟨trivial, .inr ⟨trivial, hc⟩⟩

/-- Every program runs, and does what it may do. -/
theorem program_may (hL : ∀ k, ch k ≠ .builtin → Contract (L k) k (Rep k)) (htame : ∀ k, ch k ≠ .builtin → Tame (L k) k.hashSize) :
    ∀ (prog : List (PyOp × PyEnv)) {mbase : Nat → List Nat} {base : (k : Kind) → List (Nat × BObj (L k).State)} (st : PyState (MixedMem L)) (o : PyMessages), (∀ x ∈ prog, x.2.Ok) → PyMix ch L Rep kinds mbase base st o →
      ∃ rs st' o' mbase' base', PyBuilds.program (PyLibrary.mixed ch L u al) kinds prog st = .ok (rs, st') ∧ rs.length = prog.length ∧
        pyMayRun kinds (GoodKind ch L) (fun k => (ch k).limit) (Full al) (prog.map (·.1)) rs o o' ∧ PyMix ch L Rep kinds mbase' base' st' o' ∧
        st'.objects = st.objects + (((prog.map (·.1)).zip rs).map (fun x => Spec.pyObjectChange x.1 x.2)).sum ∧ ((∀ x ∈ prog, ∀ i, x.1 ≠ .reinit i) → mbase' = mbase ∧ base' = base) ∧
        (∀ w, mbase w ⊆ mbase' w) ∧ ∀ k, base k ⊆ base' k
  | [], mbase, base, st, o, _, hr => ⟨[], st, o, mbase, base, rfl, rfl, rfl, hr, by simp, fun _ => ⟨rfl, rfl⟩, fun _ => List.Subset.refl _, fun _ => List.Subset.refl _⟩
  | (op, e) :: t, mbase, base, st, o, he, hr => by
    obtain ⟨r, st1, o1, mb1, b1, h⟩ := exec_may (u := u) (al := al) hL htame (he _ (List.mem_cons_self ..)) hr op
    obtain ⟨rs, st2, o2, mb2, b2, e2, hlen, hrun, hr2, hobj, hkeep, hg1, hg2⟩ := program_may hL htame t st1 o1 (fun x hx => he x (List.mem_cons_of_mem _ hx)) h.mix
    refine ⟨r :: rs, st2, o2, mb2, b2, ?_, by simp [hlen], ⟨o1, h.may, hrun⟩, hr2, ?_, fun hre => ?_, fun w => List.Subset.trans (h.grow.1 w) (hg1 w), fun k => List.Subset.trans (h.grow.2 k) (hg2 k)⟩
    · simp only [PyBuilds.program, h.eq, e2, Res.ok_bind, Res.pure_eq]
    · rw [hobj, h.objects]
      simp only [List.map_cons, List.zip_cons_cons, List.sum_cons]
      omega
    · obtain ⟨h1, h2⟩ := h.keep fun i => hre _ (List.mem_cons_self ..) i
      obtain ⟨h3, h4⟩ := hkeep fun x hx i => hre x (List.mem_cons_of_mem _ hx) i
      exact ⟨h3.trans h1, h4.trans h2⟩

/-- A run, cut in two. -/
theorem pyMayRun_at {good : Kind → Prop} {limit : Kind → Nat} {full : Prop} : ∀ {ops : List PyOp} {rs : List PyResult} {o o' : PyMessages}, pyMayRun kinds good limit full ops rs o o' → ∀ {j : Nat} {op : PyOp}, ops[j]? = some op →
    ∃ r o1 o2, rs[j]? = some r ∧ pyMayRun kinds good limit full (ops.take j) (rs.take j) o o1 ∧ pyMay kinds good limit full op o1 r o2
  | [], rs, o, o', _, j, op, hj => by simp at hj
  | op0 :: t, [], o, o', h, j, op, hj => h.elim
  | op0 :: t, r0 :: rs, o, o', ⟨o1, h1, h2⟩, 0, op, hj => by
    simp only [List.getElem?_cons_zero, Option.some.injEq] at hj
    subst hj
    exact ⟨r0, o, o1, rfl, rfl, h1⟩
  | op0 :: t, r0 :: rs, o, o', ⟨o1, h1, h2⟩, j + 1, op, hj => by
    rw [List.getElem?_cons_succ] at hj
    obtain ⟨r, o2, o3, g1, g2, g3⟩ := pyMayRun_at h2 hj
    exact ⟨r, o2, o3, by rw [List.getElem?_cons_succ]; exact g1, ⟨o1, h1, g2⟩, g3⟩

/-- What the outcomes of a statement say about a variable. -/
theorem pyMay_message {good : Kind → Prop} {limit : Kind → Nat} {full : Prop} {op : PyOp} {o o' : PyMessages} {r : PyResult} (h : pyMay kinds good limit full op o r o') (i : Nat) {m m' : Option (List Byte)}
    (hm : ∀ d, m = some d → o i = some (some (some d))) (e : m' = Spec.pyMessageNext i m (op, r)) : ∀ d, m' = some d → o' i = some (some (some d)) := by
  intro d hd
  subst e
  cases op with
  | create j ok =>
    simp only [pyMay] at h
    cases hj : o j with
    | some x =>
      rw [hj] at h
      obtain ⟨rfl, rfl⟩ := h
      exact hm d hd
    | none =>
      rw [hj] at h
      simp only at h
      split at h
      · rcases h with ⟨rfl, rfl⟩ | ⟨rfl, rfl, -⟩
        · simp only [Spec.pyMessageNext] at hd
          by_cases hji : j = i
          · subst hji
            rw [if_pos rfl, Option.some.injEq] at hd
            rw [Function.update_self, hd]
          · rw [if_neg hji] at hd
            rw [Function.update_of_ne (Ne.symm hji)]
            exact hm d hd
        · exact hm d hd
      · obtain ⟨rfl, rfl⟩ := h
        exact hm d hd
  | createRaw j ok =>
    simp only [pyMay] at h
    cases hj : o j with
    | some x =>
      rw [hj] at h
      obtain ⟨rfl, rfl⟩ := h
      exact hm d hd
    | none =>
      rw [hj] at h
      simp only at h
      have hd' := hm d hd
      split at h
      · obtain ⟨rfl, rfl⟩ := h
        by_cases hji : j = i
        · subst hji
          rw [hj] at hd'
          cases hd'
        · rw [Function.update_of_ne (Ne.symm hji)]
          exact hd'
      · obtain ⟨rfl, rfl⟩ := h
        exact hd'
  | reinit j =>
    simp only [pyMay] at h
    simp only [Spec.pyMessageNext] at hd
    cases hj : o j with
    | none =>
      rw [hj] at h
      obtain ⟨rfl, rfl⟩ := h
      by_cases hji : j = i
      · rw [if_pos hji] at hd
        simp at hd
      · rw [if_neg hji] at hd
        exact hm d hd
    | some x =>
      rw [hj] at h
      rcases h with ⟨rfl, rfl⟩ | ⟨rfl, rfl, -⟩
      · by_cases hji : j = i
        · subst hji
          rw [if_pos rfl, if_pos rfl, Option.some.injEq] at hd
          rw [Function.update_self, hd]
        · rw [if_neg hji] at hd
          rw [Function.update_of_ne (Ne.symm hji)]
          exact hm d hd
      · by_cases hji : j = i
        · rw [if_pos hji] at hd
          simp at hd
        · rw [if_neg hji] at hd
          rw [Function.update_of_ne (Ne.symm hji)]
          exact hm d hd
  | update j arg =>
    simp only [pyMay] at h
    cases hj : o j with
    | none =>
      rw [hj] at h
      obtain ⟨rfl, rfl⟩ := h
      rcases arg with _ | (b | _ | _ | _)
      case some.bytes =>
        simp only [Spec.pyMessageNext] at hd
        by_cases hji : j = i
        · rw [if_pos hji] at hd
          simp at hd
        · rw [if_neg hji] at hd
          exact hm d hd
      all_goals exact hm d hd
    | some x =>
      rw [hj] at h
      simp only at h
      rcases arg with _ | (b | _ | _ | _)
      case some.bytes =>
        simp only [Spec.pyMessageNext] at hd
        cases ha : Spec.pyBytes (some (.bytes b)) with
        | inl ex =>
          rw [ha] at h
          obtain ⟨rfl, rfl⟩ := h
          by_cases hji : j = i
          · rw [if_pos hji] at hd
            simp at hd
          · rw [if_neg hji] at hd
            exact hm d hd
        | inr b' =>
          obtain rfl : b' = b := by
            simp only [Spec.pyBytes] at ha
            split at ha
            · injection ha with ha; exact ha.symm
            · cases ha
          rw [ha] at h
          cases x with
          | none =>
            obtain ⟨rfl, rfl⟩ := h
            by_cases hji : j = i
            · rw [if_pos hji] at hd
              simp at hd
            · rw [if_neg hji] at hd
              exact hm d hd
          | some y =>
            rcases h with ⟨rfl, rfl⟩ | ⟨rfl, rfl, -⟩
            · by_cases hji : j = i
              · subst hji
                rw [if_pos rfl, if_pos rfl] at hd
                rw [Function.update_self]
                cases m with
                | none => cases hd
                | some z =>
                  have := hm z rfl
                  rw [hj] at this
                  simp only [Option.some.injEq] at this
                  rw [this, hd]
              · rw [if_neg hji] at hd
                rw [Function.update_of_ne (Ne.symm hji)]
                exact hm d hd
            · by_cases hji : j = i
              · rw [if_pos hji] at hd
                simp at hd
              · rw [if_neg hji] at hd
                rw [Function.update_of_ne (Ne.symm hji)]
                exact hm d hd
      all_goals
        simp only [Spec.pyBytes] at h
        obtain ⟨rfl, rfl⟩ := h
        exact hm d hd
  | finalize j ok =>
    simp only [pyMay] at h
    simp only [Spec.pyMessageNext] at hd
    by_cases hji : j = i
    · rw [if_pos hji] at hd
      cases hd
    · rw [if_neg hji] at hd
      have hd' := hm d hd
      rcases hj : o j with _ | _ | y
      · rw [hj] at h
        rw [h.2]
        exact hd'
      · rw [hj] at h
        rw [h.2]
        exact hd'
      · rw [hj] at h
        rw [h.1, Function.update_of_ne (Ne.symm hji)]
        exact hd'
  | release j =>
    simp only [pyMay] at h
    simp only [Spec.pyMessageNext] at hd
    by_cases hji : j = i
    · rw [if_pos hji] at hd
      cases hd
    · rw [if_neg hji] at hd
      have hd' := hm d hd
      rcases hj : o j with _ | _ | y
      · rw [hj] at h
        rw [h.2]
        exact hd'
      · rw [hj] at h
        rw [h.2, Function.update_of_ne (Ne.symm hji)]
        exact hd'
      · rw [hj] at h
        rw [h.2, Function.update_of_ne (Ne.symm hji)]
        exact hd'
  | calculate k arg ok =>
    have hd' := hm d hd
    simp only [pyMay] at h
    cases ha : Spec.pyBytes arg with
    | inl ex => rw [ha] at h; rw [h.2]; exact hd'
    | inr b => rw [ha] at h; rw [h.1]; exact hd'
  | calculateHmac k args ok =>
    have hd' := hm d hd
    simp only [pyMay] at h
    cases args with
    | none => rw [h.2]; exact hd'
    | some args =>
      obtain ⟨key, data⟩ := args
      simp only at h
      cases hk : Spec.pyKey key with
      | inl ex => rw [hk] at h; rw [h.2]; exact hd'
      | inr kb =>
        rw [hk] at h
        simp only at h
        cases ha : Spec.pyBytes (some data) with
        | inl ex => rw [ha] at h; rw [h.2]; exact hd'
        | inr b => rw [ha] at h; rw [h.1]; exact hd'

theorem pyMayRun_message {good : Kind → Prop} {limit : Kind → Nat} {full : Prop} (i : Nat) : ∀ {ops : List PyOp} {rs : List PyResult} {o o' : PyMessages} {m : Option (List Byte)}, pyMayRun kinds good limit full ops rs o o' →
    (∀ d, m = some d → o i = some (some (some d))) → ∀ d, (ops.zip rs).foldl (Spec.pyMessageNext i) m = some d → o' i = some (some (some d))
  | [], [], o, o', m, h, hm, d, hd => by
    rw [show o' = o from h]
    exact hm d hd
  | [], _ :: _, o, o', m, h, _, _, _ => h.elim
  | _ :: _, [], o, o', m, h, _, _, _ => h.elim
  | op :: t, r :: rs, o, o', m, ⟨o1, h1, h2⟩, hm, d, hd => by
    rw [List.zip_cons_cons, List.foldl_cons] at hd
    exact pyMayRun_message i h2 (pyMay_message h1 i hm rfl) d hd

/-! Programs that use every object for one message. -/

/-- What is known of an object, and the object of the specification for the built-in functions; `f`: it was finalised. -/
def PyTrack (k : Kind) (B : Nat) (f : Bool) (x : Option (Option (Option (List Byte)))) (y : Option (Option (List (BitVec k.width) × List Byte))) : Prop :=
  match x, y with
  | none, none => True
  | some none, some none => True
  | some (some none), some (some _) => f = true
  | some (some (some m)), some (some z) => z = (k.len64.iv, m) ∧ m.length ≤ B
  | _, _ => False

/-- The variables whose object was finalised, after a statement. -/
def onceNext (f : Nat → Bool) : PyOp → Nat → Bool
  | .finalize i _ => Function.update f i true
  | .reinit i => Function.update f i false
  | .release i => Function.update f i false
  | _ => f

theorem PyTrack.mono {k : Kind} {B B' : Nat} {f : Bool} {x : Option (Option (Option (List Byte)))} {y : Option (Option (List (BitVec k.width) × List Byte))} (h : PyTrack k B f x y) (hB : B ≤ B') : PyTrack k B' f x y := by
  rcases x with _ | _ | _ | m <;> rcases y with _ | _ | z <;> first | exact h | exact ⟨h.1, Nat.le_trans h.2 hB⟩

theorem PyTrack.set {B : Nat} {f : Nat → Bool} {o : PyMessages} {os : Spec.PyObjects kinds} (h : ∀ i, PyTrack (kinds i) B (f i) (o i) (os i)) (j : Nat) {b : Bool} {x : Option (Option (Option (List Byte)))}
    {y : Option (Option (List (BitVec (kinds j).width) × List Byte))} (hxy : PyTrack (kinds j) B b x y) (i : Nat) :
    PyTrack (kinds i) B (Function.update f j b i) (Function.update o j x i) (Function.update os j y i) := by
  by_cases hi : i = j
  · subst hi
    simp only [Function.update_self]
    exact hxy
  · simp only [Function.update_of_ne hi]
    exact h i

theorem PyTrack.set' {B : Nat} {f : Nat → Bool} {o : PyMessages} {os : Spec.PyObjects kinds} (h : ∀ i, PyTrack (kinds i) B (f i) (o i) (os i)) (j : Nat) {x : Option (Option (Option (List Byte)))}
    {y : Option (Option (List (BitVec (kinds j).width) × List Byte))} (hxy : PyTrack (kinds j) B (f j) x y) (i : Nat) :
    PyTrack (kinds i) B (f i) (Function.update o j x i) (Function.update os j y i) := by
  have := PyTrack.set h j hxy i
  rwa [Function.update_eq_self] at this

theorem PyTrack.flag {B : Nat} {f : Nat → Bool} {o : PyMessages} {os : Spec.PyObjects kinds} (h : ∀ i, PyTrack (kinds i) B (f i) (o i) (os i)) (j : Nat) {b : Bool} (hj : (o j).join = none) (i : Nat) :
    PyTrack (kinds i) B (Function.update f j b i) (o i) (os i) := by
  by_cases hi : i = j
  · subst hi
    have := h i
    revert hj this
    rcases o i with _ | _ | y <;> rcases os i with _ | _ | z <;> simp [PyTrack]
  · rw [Function.update_of_ne hi]
    exact h i

/-- One statement does what the specification for the built-in functions says. -/
theorem pyMay_once {good : Kind → Prop} {limit : Kind → Nat} {full : Prop} (hgood : ∀ k, good k) {op : PyOp} {o o' : PyMessages} {r : PyResult} (h : pyMay kinds good limit full op o r o') (hfit : op.Fits kinds limit)
    {f : Nat → Bool} {B : Nat} (hB : B + op.fed < 2 ^ 61) (honce : ∀ i, (∃ arg, op = .update i arg) ∨ (∃ ok, op = .finalize i ok) → f i = false) {os : Spec.PyObjects kinds} (ht : ∀ i, PyTrack (kinds i) B (f i) (o i) (os i)) :
    ∃ fail, (Spec.pyStep kinds fail op os).1 = r ∧ (∀ i, PyTrack (kinds i) (B + op.fed) (onceNext f op i) (o' i) ((Spec.pyStep kinds fail op os).2 i)) ∧ (¬ full → fail = false) := by
  have nofail : ∀ {k : Kind} {P : Prop}, P ∨ ¬ good k → P := fun h => h.elim id fun h => absurd (hgood _) h
  cases op with
  | create j ok =>
    have htj := ht j
    simp only [pyMay] at h
    rcases hj : o j with _ | x
    · rw [hj] at h htj
      rcases hs : os j with _ | y
      · simp only at h
        cases ok with
        | false =>
          obtain ⟨rfl, rfl⟩ := h
          exact ⟨false, by simp [Spec.pyStep, hs], by simpa [Spec.pyStep, hs, PyOp.fed, onceNext] using ht, fun _ => rfl⟩
        | true =>
          rcases h with ⟨rfl, rfl⟩ | ⟨rfl, rfl, hw⟩
          · refine ⟨false, by simp [Spec.pyStep, hs], ?_, fun _ => rfl⟩
            simp only [Spec.pyStep, hs, if_true, Bool.false_eq_true, if_false, onceNext]
            exact PyTrack.set' ht j ⟨rfl, Nat.zero_le _⟩
          · exact ⟨true, by simp [Spec.pyStep, hs], by simpa [Spec.pyStep, hs, PyOp.fed, onceNext] using ht, fun hn => absurd (nofail hw) hn⟩
      · rw [hs] at htj
        exact htj.elim
    · rw [hj] at h htj
      obtain ⟨rfl, rfl⟩ := h
      rcases hs : os j with _ | y
      · rw [hs] at htj
        rcases x with _ | _ | _ <;> exact htj.elim
      · exact ⟨false, by simp [Spec.pyStep, hs], by simpa [Spec.pyStep, hs, PyOp.fed, onceNext] using ht, fun _ => rfl⟩
  | createRaw j ok =>
    have htj := ht j
    simp only [pyMay] at h
    rcases hj : o j with _ | x
    · rw [hj] at h htj
      rcases hs : os j with _ | y
      · simp only at h
        cases ok with
        | false =>
          obtain ⟨rfl, rfl⟩ := h
          exact ⟨false, by simp [Spec.pyStep, hs], by simpa [Spec.pyStep, hs, PyOp.fed, onceNext] using ht, fun _ => rfl⟩
        | true =>
          obtain ⟨rfl, rfl⟩ := h
          refine ⟨false, by simp [Spec.pyStep, hs], ?_, fun _ => rfl⟩
          simp only [Spec.pyStep, hs, if_true, onceNext]
          exact PyTrack.set' ht j (by exact trivial)
      · rw [hs] at htj
        exact htj.elim
    · rw [hj] at h htj
      obtain ⟨rfl, rfl⟩ := h
      rcases hs : os j with _ | y
      · rw [hs] at htj
        rcases x with _ | _ | _ <;> exact htj.elim
      · exact ⟨false, by simp [Spec.pyStep, hs], by simpa [Spec.pyStep, hs, PyOp.fed, onceNext] using ht, fun _ => rfl⟩
  | reinit j =>
    have htj := ht j
    simp only [pyMay] at h
    rcases hj : o j with _ | x
    · rw [hj] at h htj
      rcases hs : os j with _ | y
      · obtain ⟨rfl, rfl⟩ := h
        refine ⟨false, by simp [Spec.pyStep, hs], ?_, fun _ => rfl⟩
        simp only [Spec.pyStep, hs, onceNext]
        exact PyTrack.flag ht j (by rw [hj]; rfl)
      · rw [hs] at htj
        exact htj.elim
    · rw [hj] at h htj
      rcases hs : os j with _ | y
      · rw [hs] at htj
        rcases x with _ | _ | _ <;> exact htj.elim
      · rcases h with ⟨rfl, rfl⟩ | ⟨rfl, rfl, hw⟩
        · refine ⟨false, by simp [Spec.pyStep, hs], ?_, fun _ => rfl⟩
          simp only [Spec.pyStep, hs, Bool.false_eq_true, if_false, onceNext]
          exact PyTrack.set ht j ⟨rfl, Nat.zero_le _⟩
        · refine ⟨true, by simp [Spec.pyStep, hs], ?_, fun hn => absurd (nofail hw) hn⟩
          simp only [Spec.pyStep, hs, if_true, onceNext]
          exact PyTrack.set ht j (by exact trivial)
  | update j arg =>
    have htj := ht j
    have hfj := honce j (.inl ⟨_, rfl⟩)
    simp only [pyMay] at h
    have hle : B ≤ B + (PyOp.update j arg).fed := Nat.le_add_right _ _
    rcases hj : o j with _ | x
    · rw [hj] at h htj
      obtain ⟨rfl, rfl⟩ := h
      rcases hs : os j with _ | y
      · exact ⟨false, by simp [Spec.pyStep, hs], by simpa [Spec.pyStep, hs, onceNext] using fun i => (ht i).mono hle, fun _ => rfl⟩
      · rw [hs] at htj
        exact htj.elim
    · rw [hj] at h htj
      simp only at h
      rcases hs : os j with _ | y
      · rw [hs] at htj
        rcases x with _ | _ | _ <;> exact htj.elim
      · rw [hs] at htj
        cases ha : Spec.pyBytes arg with
        | inl ex =>
          rw [ha] at h
          obtain ⟨rfl, rfl⟩ := h
          exact ⟨false, by simp [Spec.pyStep, hs, ha], by simpa [Spec.pyStep, hs, ha, onceNext] using fun i => (ht i).mono hle, fun _ => rfl⟩
        | inr b =>
          obtain rfl : arg = some (.bytes b) := by
            rcases arg with _ | (b' | _ | _ | _) <;> simp only [Spec.pyBytes] at ha
            case some.bytes =>
              split at ha
              · injection ha with ha; rw [ha]
              · cases ha
            all_goals cases ha
          rw [ha] at h
          cases x with
          | none =>
            obtain ⟨rfl, rfl⟩ := h
            cases y with
            | some z => exact htj.elim
            | none => exact ⟨false, by simp [Spec.pyStep, hs, ha], by simpa [Spec.pyStep, hs, ha, onceNext] using fun i => (ht i).mono hle, fun _ => rfl⟩
          | some m =>
            cases y with
            | none => cases m <;> exact htj.elim
            | some z =>
              cases m with
              | none => rw [show f j = true from htj] at hfj; cases hfj
              | some m =>
                obtain ⟨rfl, hm⟩ := htj
                rcases h with ⟨rfl, rfl⟩ | ⟨rfl, rfl, hw⟩
                · refine ⟨false, by simp [Spec.pyStep, hs, ha], ?_, fun _ => rfl⟩
                  simp only [Spec.pyStep, hs, ha, onceNext]
                  refine PyTrack.set' (fun i => (ht i).mono hle) j ⟨rfl, ?_⟩
                  simp only [PyOp.fed, List.length_append]
                  omega
                · have h1 := nofail hw
                  have h2 : b.length ≤ limit (kinds j) := hfit
                  omega
  | finalize j ok =>
    have htj := ht j
    have hfj := honce j (.inr ⟨_, rfl⟩)
    simp only [pyMay] at h
    rcases hj : o j with _ | x
    · rw [hj] at h htj
      obtain ⟨rfl, rfl⟩ := h
      rcases hs : os j with _ | y
      · refine ⟨false, by simp [Spec.pyStep, hs], ?_, fun _ => rfl⟩
        simp only [Spec.pyStep, hs, onceNext]
        exact PyTrack.flag ht j (by rw [hj]; rfl)
      · rw [hs] at htj
        exact htj.elim
    · rw [hj] at h htj
      rcases hs : os j with _ | y
      · rw [hs] at htj
        rcases x with _ | _ | _ <;> exact htj.elim
      · rw [hs] at htj
        cases x with
        | none =>
          obtain ⟨rfl, rfl⟩ := h
          cases y with
          | some z => exact htj.elim
          | none =>
            refine ⟨false, by simp [Spec.pyStep, hs], ?_, fun _ => rfl⟩
            simp only [Spec.pyStep, hs, onceNext]
            exact PyTrack.flag ht j (by rw [hj]; rfl)
        | some m =>
          cases y with
          | none => cases m <;> exact htj.elim
          | some z =>
            cases m with
            | none => rw [show f j = true from htj] at hfj; cases hfj
            | some m =>
              obtain ⟨rfl, hm⟩ := htj
              obtain ⟨rfl, ⟨d, rfl, -, hd⟩ | ⟨-, hw⟩⟩ := h
              · have hl : m.length < 2 ^ 61 := by simp only [PyOp.fed] at hB; omega
                refine ⟨false, ?_, ?_, fun _ => rfl⟩
                · simp only [Spec.pyStep, hs]
                  rw [hd m rfl hl, ← len64_digest (kinds j) m (lengthOk_of_lt _ hl)]
                  rfl
                · simp only [Spec.pyStep, hs, onceNext]
                  exact PyTrack.set ht j (by exact rfl)
              · exact absurd (hgood _) hw
  | release j =>
    have htj := ht j
    simp only [pyMay] at h
    rcases hj : o j with _ | x
    · rw [hj] at h htj
      obtain ⟨rfl, rfl⟩ := h
      rcases hs : os j with _ | y
      · refine ⟨false, by simp [Spec.pyStep, hs], ?_, fun _ => rfl⟩
        simp only [Spec.pyStep, hs, onceNext]
        exact PyTrack.flag ht j (by rw [hj]; rfl)
      · rw [hs] at htj
        exact htj.elim
    · rw [hj] at h htj
      rcases hs : os j with _ | y
      · rw [hs] at htj
        rcases x with _ | _ | _ <;> exact htj.elim
      · rw [hs] at htj
        cases x with
        | none =>
          obtain ⟨rfl, rfl⟩ := h
          cases y with
          | some z => exact htj.elim
          | none =>
            refine ⟨false, by simp [Spec.pyStep, hs], ?_, fun _ => rfl⟩
            simp only [Spec.pyStep, hs, onceNext]
            exact PyTrack.set ht j (by exact trivial)
        | some m =>
          obtain ⟨rfl, rfl⟩ := h
          cases y with
          | none => cases m <;> exact htj.elim
          | some z =>
            refine ⟨false, by simp [Spec.pyStep, hs], ?_, fun _ => rfl⟩
            simp only [Spec.pyStep, hs, onceNext]
            exact PyTrack.set ht j (by exact trivial)
  | calculate k arg ok =>
    simp only [pyMay] at h
    cases ha : Spec.pyBytes arg with
    | inl ex =>
      rw [ha] at h
      obtain ⟨rfl, rfl⟩ := h
      exact ⟨false, by simp [Spec.pyStep, ha], by simpa [Spec.pyStep, ha, onceNext, PyOp.fed] using ht, fun _ => rfl⟩
    | inr b =>
      obtain rfl : arg = some (.bytes b) := by
        rcases arg with _ | (b' | _ | _ | _) <;> simp only [Spec.pyBytes] at ha
        case some.bytes =>
          split at ha
          · injection ha with ha; rw [ha]
          · cases ha
        all_goals cases ha
      rw [ha] at h
      obtain ⟨h1, h2⟩ : b.length ≤ limit k ∧ b.length < 2 ^ 61 := hfit
      obtain ⟨rfl, ⟨d, rfl, -, hd⟩ | ⟨rfl, hw⟩⟩ := h
      · refine ⟨false, ?_, by simpa [Spec.pyStep, ha, onceNext, PyOp.fed] using ht, fun _ => rfl⟩
        simp only [Spec.pyStep, ha]
        rw [hd h2, ← len64_digest k b (lengthOk_of_lt _ h2)]
        cases ok <;> rfl
      · refine ⟨true, by simp [Spec.pyStep, ha], by simpa [Spec.pyStep, ha, onceNext, PyOp.fed] using ht, fun hn => ?_⟩
        rcases hw with hw | hw | hw
        · exact absurd hw hn
        · exact absurd (hgood _) hw
        · omega
  | calculateHmac k args ok =>
    simp only [pyMay] at h
    cases args with
    | none =>
      obtain ⟨rfl, rfl⟩ := h
      exact ⟨false, by simp [Spec.pyStep], by simpa [Spec.pyStep, onceNext, PyOp.fed] using ht, fun _ => rfl⟩
    | some args =>
      obtain ⟨key, data⟩ := args
      simp only at h
      cases hk : Spec.pyKey key with
      | inl ex =>
        rw [hk] at h
        obtain ⟨rfl, rfl⟩ := h
        exact ⟨false, by simp [Spec.pyStep, hk], by simpa [Spec.pyStep, hk, onceNext, PyOp.fed] using ht, fun _ => rfl⟩
      | inr kb =>
        rw [hk] at h
        simp only at h
        cases ha : Spec.pyBytes (some data) with
        | inl ex =>
          rw [ha] at h
          obtain ⟨rfl, rfl⟩ := h
          exact ⟨false, by simp [Spec.pyStep, hk, ha], by simpa [Spec.pyStep, hk, ha, onceNext, PyOp.fed] using ht, fun _ => rfl⟩
        | inr b =>
          obtain rfl : data = .bytes b := by
            rcases data with b' | _ | _ | _ <;> simp only [Spec.pyBytes] at ha
            case bytes =>
              split at ha
              · injection ha with ha; rw [ha]
              · cases ha
            all_goals cases ha
          obtain rfl : key = .bytes kb := by
            rcases key with b' | _ | _ | _ <;> simp only [Spec.pyKey] at hk
            case bytes =>
              split at hk
              · injection hk with hk; rw [hk]
              · cases hk
            all_goals cases hk
          rw [ha] at h
          obtain ⟨h1, h2, h3, h4⟩ : b.length ≤ limit k ∧ kb.length ≤ limit k ∧ kb.length < 2 ^ 61 ∧ k.blockSize + b.length < 2 ^ 61 := hfit
          obtain ⟨rfl, ⟨d, rfl, -, hd⟩ | ⟨rfl, hw⟩⟩ := h
          · refine ⟨false, ?_, by simpa [Spec.pyStep, ha, hk, onceNext, PyOp.fed] using ht, fun _ => rfl⟩
            simp only [Spec.pyStep, ha, hk]
            rw [hd h3 h4, ← hmac_len64 k kb b (lengthOk_of_lt _ h3) (lengthOk_of_lt _ h4)]
            cases ok <;> rfl
          · refine ⟨true, by simp [Spec.pyStep, ha, hk], by simpa [Spec.pyStep, ha, hk, onceNext, PyOp.fed] using ht, fun hn => ?_⟩
            rcases hw with hw | hw | hw | hw
            · exact absurd hw hn
            · exact absurd (hgood _) hw
            · omega
            · omega

theorem pyMayRun_once {good : Kind → Prop} {limit : Kind → Nat} {full : Prop} (hgood : ∀ k, good k) : ∀ {ops : List PyOp} {rs : List PyResult} {o o' : PyMessages} {f : Nat → Bool} {B : Nat} {os : Spec.PyObjects kinds},
    pyMayRun kinds good limit full ops rs o o' → (∀ op ∈ ops, op.Fits kinds limit) → B + (ops.map PyOp.fed).sum < 2 ^ 61 → Spec.pyOnce f ops → (∀ i, PyTrack (kinds i) B (f i) (o i) (os i)) →
    ∃ fails, fails.length = ops.length ∧ rs = (Spec.pyRun kinds (ops.zip fails) os).1 ∧ (¬ full → ∀ x ∈ fails, x = false)
  | [], [], o, o', f, B, os, _, _, _, _, _ => ⟨[], rfl, rfl, by simp⟩
  | [], _ :: _, _, _, _, _, _, h, _, _, _, _ => h.elim
  | _ :: _, [], _, _, _, _, _, h, _, _, _, _ => h.elim
  | op :: t, r :: rs, o, o', f, B, os, ⟨o1, h1, h2⟩, hfit, hB, honce, ht => by
    rw [List.map_cons, List.sum_cons] at hB
    have hon : (∀ i, (∃ arg, op = .update i arg) ∨ (∃ ok, op = .finalize i ok) → f i = false) ∧ Spec.pyOnce (onceNext f op) t := by
      cases op with
      | update j arg => exact ⟨by rintro i (⟨_, ⟨⟩⟩ | ⟨_, ⟨⟩⟩); exact honce.1, honce.2⟩
      | finalize j ok => exact ⟨by rintro i (⟨_, ⟨⟩⟩ | ⟨_, ⟨⟩⟩); exact honce.1, honce.2⟩
      | _ => exact ⟨by rintro i (⟨_, ⟨⟩⟩ | ⟨_, ⟨⟩⟩), honce⟩
    obtain ⟨fail, e1, ht1, hf⟩ := pyMay_once hgood h1 (hfit _ (List.mem_cons_self ..)) (by omega) hon.1 ht
    obtain ⟨fails, g1, g2, g3⟩ := pyMayRun_once hgood h2 (fun x hx => hfit x (List.mem_cons_of_mem _ hx)) (by omega) hon.2 ht1
    refine ⟨fail :: fails, by simp [g1], ?_, fun hn x hx => ?_⟩
    · rw [List.zip_cons_cons, ← e1, g2]
      rfl
    · rcases List.mem_cons.1 hx with rfl | hx
      · exact hf hn
      · exact g3 hn x hx

end Model
