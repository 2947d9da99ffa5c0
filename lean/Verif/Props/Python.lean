import Verif.Proofs.Python
import Verif.Props.Independence
/-! C47: the Python module. Programs are any lists of statements; every variable has its own algorithm (`kinds`), every algorithm its build variant (`u`), and every allocation of the library its outcome (`al`). -/

namespace Props

open Model Spec

/-- The state in which a program starts: no variable is bound. What else is in memory was allocated before. -/
structure PyStart (st : PySt) : Prop where
  unbound : ∀ i, st.vars i = none
  before : ∀ w, ((st.mem.live w).map (·.1)).Nodup ∧ ∀ p ∈ (st.mem.live w).map (·.1), p < st.mem.count

/-- Statements and outcomes of a program. -/
def pyTrace (prog : List (PyOp × PyEnv)) (rs : List PyResult) : List (PyOp × PyResult) := (prog.map (·.1)).zip rs

theorem pyStart_rel {st : PySt} (h : PyStart st) (kinds : Nat → Kind) : PyRel kinds st (fun _ => none) (fun w => (st.mem.live w).map (·.1)) where
  bound := fun i => by rw [h.unbound]; rfl
  rel := by
    refine ⟨fun i => ?_, fun i j p hi => ?_⟩
    · show VarRel _ _ (st.vars i).join _ none
      rw [h.unbound]
      trivial
    · simp only [h.unbound] at hi
      cases hi
  mem := fun w => ⟨(h.before w).1, (h.before w).2, fun p => ⟨.inl, fun hp => hp.elim id (by rintro ⟨i, -, hi⟩; simp only [h.unbound] at hi; cases hi)⟩,
    fun p _ j _ => by simp only [h.unbound]; exact nofun⟩

/-- C47. Every program runs without undefined behaviour, and the outcome of every statement is that of the specification, for some failures of the library's allocations; none of them fails if no allocation does. The same variables are bound in the end. -/
theorem C47_refines (kinds : Nat → Kind) (u : Kind → Bool) (al : Nat → Bool) (prog : List (PyOp × PyEnv)) (st : PySt) (hs : PyStart st) (he : ∀ x ∈ prog, x.2.Ok) :
    ∃ fails st', fails.length = prog.length ∧ pyProgram kinds u al prog st = .ok ((pyRun kinds ((prog.map (·.1)).zip fails) (fun _ => none)).1, st') ∧ ((∀ n, al n = true) → ∀ f ∈ fails, f = false) ∧
      ∀ i, (st'.vars i).isSome = ((pyRun kinds ((prog.map (·.1)).zip fails) (fun _ => none)).2 i).isSome := by
  obtain ⟨fails, st', base', h1, h2, h4, h3, -⟩ := pyProgram_ok (u := u) (al := al) prog st _ _ he (pyStart_rel hs kinds)
  exact ⟨fails, st', h1, h2, h3, h4.bound⟩

/-- One statement of a program. -/
theorem pyAt {kinds : Nat → Kind} {u : Kind → Bool} {al : Nat → Bool} {prog : List (PyOp × PyEnv)} {st : PySt} (hs : PyStart st) (he : ∀ x ∈ prog, x.2.Ok) {rs : List PyResult} {st' : PySt}
    (hp : pyProgram kinds u al prog st = .ok (rs, st')) {j : Nat} {op : PyOp} {e : PyEnv} (hj : prog[j]? = some (op, e)) :
    ∃ fail o, ((∀ n, al n = true) → fail = false) ∧ rs[j]? = some (pyStep kinds fail op o).1 ∧
      ∀ i d, pyFed i ((pyTrace prog rs).take j) none = some d → o i = some (some ((kinds i).len64.iv, d)) := by
  obtain ⟨fails, st2, -, h1, h2, -, h3, -⟩ := pyProgram_ok (u := u) (al := al) prog st _ _ he (pyStart_rel hs kinds)
  rw [hp] at h2
  simp only [Res.ok.injEq, Prod.mk.injEq] at h2
  obtain ⟨hj1, hj2⟩ := List.getElem?_eq_some_iff.1 hj
  generalize hl : (prog.map (·.1)).zip fails = l at h2
  have hll : l.length = prog.length := by rw [← hl]; simp [h1]
  have hmap : l.map (·.1) = prog.map (·.1) := by rw [← hl]; exact List.map_fst_zip (by simp [h1])
  have hjl : j < l.length := by omega
  have hlj : l[j] = (op, fails[j]'(by omega)) := by
    subst hl
    simp [hj2]
  have hsplit : l = l.take j ++ (op, fails[j]'(by omega)) :: l.drop (j + 1) := by
    conv => lhs; rw [← List.take_append_drop j l, List.drop_eq_getElem_cons hjl, hlj]
  have hrun := pyRun_append kinds (l.take j) ((op, fails[j]'(by omega)) :: l.drop (j + 1)) (fun _ => none)
  rw [← hsplit] at hrun
  have hlen : (pyRun kinds (l.take j) (fun _ => none)).1.length = j := by rw [pyRun_length, List.length_take]; omega
  refine ⟨fails[j]'(by omega), (pyRun kinds (l.take j) (fun _ => none)).2, fun h => h3 h _ (List.getElem_mem _), ?_, fun i d hd => ?_⟩
  · rw [h2.1, hrun, List.getElem?_append_right (by omega), hlen, Nat.sub_self]
    rfl
  · refine pyFed_ok i (l.take j) (fun _ => none) none (by simp) d ?_
    rw [← hd]
    congr 1
    unfold pyTrace
    rw [h2.1, hrun, ← hmap, List.map_take, List.zip_eq_zipWith, List.zip_eq_zipWith, List.take_zipWith, List.take_left' hlen]

/-- C47. A finalised object returns the digest of all bytes it was fed since it was made or initialised again, however they were cut and whatever happened on other objects meanwhile (with the code's length field; see
`C47_digest_standard_partial`). -/
theorem C47_digest (kinds : Nat → Kind) (u : Kind → Bool) (al : Nat → Bool) (prog : List (PyOp × PyEnv)) (st : PySt) (hs : PyStart st) (he : ∀ x ∈ prog, x.2.Ok) (rs : List PyResult) (st' : PySt)
    (hp : pyProgram kinds u al prog st = .ok (rs, st')) (j i : Nat) (e : PyEnv) (hj : prog[j]? = some (.finalize i true, e)) (m : List Byte) (hm : pyFed i ((pyTrace prog rs).take j) none = some m) :
    rs[j]? = some (.bytes ((kinds i).len64.digest m)) := by
  obtain ⟨fail, o, -, h2, h3⟩ := pyAt hs he hp hj
  rw [h2]
  simp only [pyStep, h3 i m hm]
  rfl

/-- C47, the standard digest; partial: for SHA-512 only for data shorter than 2^61 bytes. -/
theorem C47_digest_standard_partial (kinds : Nat → Kind) (u : Kind → Bool) (al : Nat → Bool) (prog : List (PyOp × PyEnv)) (st : PySt) (hs : PyStart st) (he : ∀ x ∈ prog, x.2.Ok) (rs : List PyResult)
    (st' : PySt) (hp : pyProgram kinds u al prog st = .ok (rs, st')) (j i : Nat) (e : PyEnv) (hj : prog[j]? = some (.finalize i true, e)) (m : List Byte)
    (hm : pyFed i ((pyTrace prog rs).take j) none = some m) (hl : (kinds i).LengthOk m.length) : rs[j]? = some (.bytes ((kinds i).std.digest m)) := by
  rw [← len64_digest (kinds i) m hl]
  exact C47_digest kinds u al prog st hs he rs st' hp j i e hj m hm

/-- C47. Feeding an object that holds data never raises. -/
theorem C47_update (kinds : Nat → Kind) (u : Kind → Bool) (al : Nat → Bool) (prog : List (PyOp × PyEnv)) (st : PySt) (hs : PyStart st) (he : ∀ x ∈ prog, x.2.Ok) (rs : List PyResult) (st' : PySt)
    (hp : pyProgram kinds u al prog st = .ok (rs, st')) (j i : Nat) (b : List Byte) (e : PyEnv) (hj : prog[j]? = some (.update i (some (.bytes b)), e)) (hb : b.length ≤ maxSize) (m : List Byte)
    (hm : pyFed i ((pyTrace prog rs).take j) none = some m) : rs[j]? = some .none := by
  obtain ⟨fail, o, -, h2, h3⟩ := pyAt hs he hp hj
  rw [h2]
  simp only [pyStep, h3 i m hm, pyBytes, hb, if_true]

/-- C47. `calculate` returns the digest of its argument, or raises for lack of memory, wherever in a program it is called. -/
theorem C47_calculate (kinds : Nat → Kind) (u : Kind → Bool) (al : Nat → Bool) (prog : List (PyOp × PyEnv)) (st : PySt) (hs : PyStart st) (he : ∀ x ∈ prog, x.2.Ok) (rs : List PyResult) (st' : PySt)
    (hp : pyProgram kinds u al prog st = .ok (rs, st')) (j : Nat) (k : Kind) (b : List Byte) (e : PyEnv) (hj : prog[j]? = some (.calculate k (some (.bytes b)) true, e)) (hb : b.length ≤ maxSize) :
    rs[j]? = some (.bytes (k.len64.digest b)) ∨ (rs[j]? = some (.raised .io) ∧ ∃ n, al n = false) := by
  obtain ⟨fail, o, h1, h2, -⟩ := pyAt hs he hp hj
  rw [h2]
  cases fail with
  | false => left; simp [pyStep, pyBytes, hb]
  | true =>
    right
    refine ⟨by simp [pyStep, pyBytes, hb], ?_⟩
    by_contra h
    push Not at h
    cases h1 (fun n => by simpa using h n)

/-- C47, the standard digest; partial: for SHA-512 only for data shorter than 2^61 bytes. -/
theorem C47_calculate_standard_partial (kinds : Nat → Kind) (u : Kind → Bool) (al : Nat → Bool) (prog : List (PyOp × PyEnv)) (st : PySt) (hs : PyStart st) (he : ∀ x ∈ prog, x.2.Ok) (rs : List PyResult)
    (st' : PySt) (hp : pyProgram kinds u al prog st = .ok (rs, st')) (j : Nat) (k : Kind) (b : List Byte) (e : PyEnv) (hj : prog[j]? = some (.calculate k (some (.bytes b)) true, e))
    (hb : b.length ≤ maxSize) (hl : k.LengthOk b.length) (hal : ∀ n, al n = true) : rs[j]? = some (.bytes (k.std.digest b)) := by
  rw [← len64_digest k b hl]
  rcases C47_calculate kinds u al prog st hs he rs st' hp j k b e hj hb with h | ⟨-, n, h⟩
  · exact h
  · rw [hal] at h; cases h

/-- C47. `calculate_hmac` returns the HMAC of its arguments, or raises for lack of memory, wherever in a program it is called. -/
theorem C47_hmac (kinds : Nat → Kind) (u : Kind → Bool) (al : Nat → Bool) (prog : List (PyOp × PyEnv)) (st : PySt) (hs : PyStart st) (he : ∀ x ∈ prog, x.2.Ok) (rs : List PyResult) (st' : PySt)
    (hp : pyProgram kinds u al prog st = .ok (rs, st')) (j : Nat) (k : Kind) (key b : List Byte) (e : PyEnv) (hj : prog[j]? = some (.calculateHmac k (some (.bytes key, .bytes b)) true, e))
    (hk : key.length ≤ maxSize) (hb : b.length ≤ maxSize) :
    rs[j]? = some (.bytes (hmac k.blockSize k.len64.digest key b)) ∨ (rs[j]? = some (.raised .io) ∧ ∃ n, al n = false) := by
  obtain ⟨fail, o, h1, h2, -⟩ := pyAt hs he hp hj
  rw [h2]
  cases fail with
  | false => left; simp [pyStep, pyBytes, pyKey, hb, hk]
  | true =>
    right
    refine ⟨by simp [pyStep, pyBytes, pyKey, hb, hk], ?_⟩
    by_contra h
    push Not at h
    cases h1 (fun n => by simpa using h n)

/-- C47, the standard HMAC; partial: for SHA-512 only for keys shorter than 2^61 bytes and data shorter than 2^61 - 128 bytes. -/
theorem C47_hmac_standard_partial (kinds : Nat → Kind) (u : Kind → Bool) (al : Nat → Bool) (prog : List (PyOp × PyEnv)) (st : PySt) (hs : PyStart st) (he : ∀ x ∈ prog, x.2.Ok) (rs : List PyResult)
    (st' : PySt) (hp : pyProgram kinds u al prog st = .ok (rs, st')) (j : Nat) (k : Kind) (key b : List Byte) (e : PyEnv)
    (hj : prog[j]? = some (.calculateHmac k (some (.bytes key, .bytes b)) true, e)) (hk : key.length ≤ maxSize) (hb : b.length ≤ maxSize) (hlk : k.LengthOk key.length)
    (hlb : k.LengthOk (k.blockSize + b.length)) (hal : ∀ n, al n = true) : rs[j]? = some (.bytes (hmac k.blockSize k.std.digest key b)) := by
  rw [← hmac_len64 k key b hlk hlb]
  rcases C47_hmac kinds u al prog st hs he rs st' hp j k key b e hj hk hb with h | ⟨-, n, h⟩
  · exact h
  · rw [hal] at h; cases h

/-- C47. An argument that is not a bytes object raises, and changes nothing at all (whatever the state, and for a key as for data). -/
theorem C47_bad_argument (kinds : Nat → Kind) (u : Kind → Bool) (al : Nat → Bool) (e : PyEnv) (st : PySt) (arg arg' : PyArg) (h : ∀ b, arg ≠ .bytes b) (i : Nat) (k : Kind) (ok : Bool) (op : PyOp)
    (hop : op = .update i (some arg) ∨ op = .calculate k (some arg) ok ∨ op = .calculateHmac k (some (arg, arg')) ok ∨ op = .calculateHmac k (some (arg', arg)) ok) :
    ∃ x, pyExec kinds u al e op st = .ok (.raised x, st) := by
  have hd : ∃ x, pyData (some arg) = .inl x := by
    cases arg with
    | bytes b => exact (h b rfl).elim
    | pretender => exact ⟨_, rfl⟩
    | other => exact ⟨_, rfl⟩
    | broken => exact ⟨_, rfl⟩
  have hk : ∃ x, pyKeyData arg = .inl x := by
    cases arg with
    | bytes b => exact (h b rfl).elim
    | pretender => exact ⟨_, rfl⟩
    | other => exact ⟨_, rfl⟩
    | broken => exact ⟨_, rfl⟩
  obtain ⟨x, hd⟩ := hd
  obtain ⟨y, hk⟩ := hk
  rcases hop with rfl | rfl | rfl | rfl
  · cases hv : st.vars i with
    | none => exact ⟨.name, by simp [pyExec, pyOn, hv]⟩
    | some slot => exact ⟨x, by simp [pyExec, pyOn, hv, pyMethod, pyUpdate, hd]⟩
  · exact ⟨x, by simp [pyExec, pyCalculate, hd]⟩
  · exact ⟨y, by simp [pyExec, pyCalculateHmac, hk]⟩
  · cases ho : pyKeyData arg' with
    | inl z => exact ⟨z, by simp [pyExec, pyCalculateHmac, ho]⟩
    | inr kb => exact ⟨x, by simp [pyExec, pyCalculateHmac, ho, hd]⟩

/-- C47. Where `__init__` is never called on an existing object, all contexts that the module made are released when no variable is bound any more: what is in memory is what was there before. -/
theorem C47_released (kinds : Nat → Kind) (u : Kind → Bool) (al : Nat → Bool) (prog : List (PyOp × PyEnv)) (st : PySt) (hs : PyStart st) (he : ∀ x ∈ prog, x.2.Ok) (rs : List PyResult) (st' : PySt)
    (hp : pyProgram kinds u al prog st = .ok (rs, st')) (hre : ∀ x ∈ prog, ∀ i, x.1 ≠ .reinit i) (hend : ∀ i, st'.vars i = none) (w : Nat) :
    ((st'.mem.live w).map (·.1)).Perm ((st.mem.live w).map (·.1)) := by
  obtain ⟨fails, st2, base', -, h2, h3, -, -, h4⟩ := pyProgram_ok (u := u) (al := al) prog st _ _ he (pyStart_rel hs kinds)
  rw [hp] at h2
  simp only [Res.ok.injEq, Prod.mk.injEq] at h2
  rw [← h2.2, h4 hre] at h3
  obtain ⟨g1, -, g3, -⟩ := h3.mem w
  rw [List.perm_ext_iff_of_nodup g1 (hs.before w).1]
  intro p
  rw [g3]
  exact ⟨fun h => h.elim id (by rintro ⟨i, -, hi⟩; simp only [hend] at hi; cases hi), .inl⟩

/-- C47. The number of module objects in memory: one more for every object made and for every constructor that failed, one less for every object with a context that was released. -/
theorem C47_objects (kinds : Nat → Kind) (u : Kind → Bool) (al : Nat → Bool) (prog : List (PyOp × PyEnv)) (st : PySt) (hs : PyStart st) (he : ∀ x ∈ prog, x.2.Ok) (rs : List PyResult) (st' : PySt)
    (hp : pyProgram kinds u al prog st = .ok (rs, st')) : st'.objects = st.objects + ((pyTrace prog rs).map (fun x => pyObjectChange x.1 x.2)).sum := by
  obtain ⟨fails, st2, base', -, h2, -, -, h3, -⟩ := pyProgram_ok (u := u) (al := al) prog st _ _ he (pyStart_rel hs kinds)
  rw [hp] at h2
  simp only [Res.ok.injEq, Prod.mk.injEq] at h2
  rw [h2.2, h3, h2.1]
  rfl

/-- A Python environment and a start for the examples. -/
def pyEnv0 : PyEnv := ⟨fun k => env0 k, fun k => List.replicate k.hashSize 7, fun k => List.replicate k.hashSize 8⟩

theorem pyEnv0_ok : pyEnv0.Ok := fun k => ⟨junk0_ok k, by simp [pyEnv0], by simp [pyEnv0]⟩

def pySt0 : PySt := ⟨fun _ => none, ⟨[], 3, fun _ => [], fun _ => []⟩, 0, 0⟩

theorem pySt0_start : PyStart pySt0 := ⟨fun _ => rfl, fun w => ⟨by simp [pySt0], by simp [pySt0]⟩⟩

/-- The full claim that nothing stays in memory is false: calling `__init__` again on an object makes a second context, and the first one is never released. -/
theorem C47_reinit_leaks (kinds : Nat → Kind) (u : Kind → Bool) :
    ∃ st', pyProgram kinds u (fun _ => true) [(.create 0 true, pyEnv0), (.reinit 0, pyEnv0), (.release 0, pyEnv0)] pySt0 = .ok ([.none, .none, .none], st') ∧ (∀ i, st'.vars i = none) ∧
      pySt0.mem.live (kinds 0).width = [] ∧ st'.mem.live (kinds 0).width ≠ [] := by
  have hr := pyStart_rel pySt0_start kinds
  have hal : ∀ n, (fun _ : Nat => true) n = true := fun _ => rfl
  obtain ⟨f1, st1, h1⟩ := pyExec_ok (u := u) (al := fun _ => true) pyEnv0_ok hr (.create 0 true)
  obtain rfl := h1.fails hal
  obtain ⟨f2, st2, h2⟩ := pyExec_ok (u := u) (al := fun _ => true) pyEnv0_ok h1.rel (.reinit 0)
  obtain rfl := h2.fails hal
  obtain ⟨f3, st3, h3⟩ := pyExec_ok (u := u) (al := fun _ => true) pyEnv0_ok h2.rel (.release 0)
  obtain rfl := h3.fails hal
  refine ⟨st3, ?_, ?_, rfl, ?_⟩
  · simp only [pyProgram, h1.eq, h2.eq, h3.eq, Res.ok_bind, Res.pure_eq]
    simp [pyStep]
  · intro i
    have := h3.rel.bound i
    by_cases hi : i = 0
    · subst hi
      simpa [pyStep] using this
    · simpa [pyStep, hi] using this
  · have hv : ∃ p, st1.vars 0 = some (some p) := by
      rcases method_done h1.rel 0 with ⟨-, h⟩ | ⟨x, y, hx, hy, hxy⟩
      · simp [pyStep] at h
      · have : y = some ((kinds 0).len64.iv, []) := by simpa [pyStep] using hy.symm
        rw [this] at hxy
        obtain ⟨p, rfl⟩ := Option.isSome_iff_exists.1 hxy
        exact ⟨p, hx⟩
    obtain ⟨p, hv⟩ := hv
    have hp : p ∈ leakBy kinds (.reinit 0) st1 (leakBy kinds (.create 0 true) pySt0 (fun w => (pySt0.mem.live w).map (·.1))) (kinds 0).width := by
      simp [leakBy, hv]
    have := ((h3.rel.mem (kinds 0).width).2.2.1 p).2 (.inl hp)
    intro h
    rw [h] at this
    cases this

/-- Likewise false for the objects: one made with `__new__` alone, without a context, raises when it is released, and stays in memory. -/
theorem C47_raw_object_leaks (kinds : Nat → Kind) (u : Kind → Bool) (al : Nat → Bool) :
    ∃ st', pyProgram kinds u al [(.createRaw 0 true, pyEnv0), (.release 0, pyEnv0)] pySt0 = .ok ([.none, .raised .value], st') ∧ (∀ i, st'.vars i = none) ∧ st'.objects = pySt0.objects + 1 := by
  refine ⟨⟨Function.update (Function.update (fun _ => none) 0 (some none)) 0 none, pySt0.mem, 1, 0⟩, rfl, fun i => ?_, rfl⟩
  show Function.update (Function.update (fun _ : Nat => (none : Option (Option Nat))) 0 (some none)) 0 none i = none
  by_cases hi : i = 0
  · subst hi; rw [Function.update_self]
  · rw [Function.update_of_ne hi, Function.update_of_ne hi]

/-- A constructor that finds no memory raises ValueError, not MemoryError, and its object stays in memory. -/
theorem C47_failed_constructor (kinds : Nat → Kind) (u : Kind → Bool) (e : PyEnv) (st : PySt) (i : Nat) (hv : st.vars i = none) (al : Nat → Bool) (hal : al st.mem.count = false) :
    ∃ m, pyExec kinds u al e (.create i true) st = .ok (.raised .value, { st with mem := m, objects := st.objects + 1 }) := by
  refine ⟨st.mem.put (kinds i).width { st.mem.view (kinds i).width with count := st.mem.count + 1 }, ?_⟩
  have hi : depInitialize (algOf (kinds i)) { e.env (kinds i) with allocOk := al } (some none) (st.mem.view (kinds i).width) =
      .ok (-1, some none, { st.mem.view (kinds i).width with count := st.mem.count + 1 }) := by
    simp only [depInitialize, apiInitialize]
    rw [hInitialize_fail (algOf (kinds i)) { e.env (kinds i) with allocOk := al } (st.mem.view (kinds i).width) hal]
    rfl
  simp only [pyExec, pyNew, hv, pyCreate, pyInit, hi, Res.ok_bind, if_true]
  rfl

/-- Every digest that `calculate` returns costs a reference to None. -/
theorem C47_none_reference (kinds : Nat → Kind) (u : Kind → Bool) (al : Nat → Bool) (e : PyEnv) (k : Kind) (arg : Option PyArg) (ok : Bool) (st st' : PySt) (b : List Byte)
    (h : pyExec kinds u al e (.calculate k arg ok) st = .ok (.bytes b, st')) : st'.noneRefs = st.noneRefs + 1 := by
  simp only [pyExec, pyCalculate] at h
  cases hd : pyData arg with
  | inl x => rw [hd] at h; simp at h
  | inr d =>
    rw [hd] at h
    simp only at h
    cases hc : calculate (algOf k) (u k) { e.env k with allocOk := al } (some 0) d.length (some d.length) (algOf k).hashSize { st.mem.view k.width with caller := d ++ e.hash k } with
    | ub => rw [hc] at h; cases h
    | diverge => rw [hc] at h; cases h
    | ok x =>
      rw [hc] at h
      simp only [Res.ok_bind] at h
      split at h
      · simp at h
      · simp only [Res.pure_eq, Res.ok.injEq, Prod.mk.injEq] at h
        rw [← h.2]

/-- The hypotheses of the theorems about programs hold: two objects of different algorithms, one of them used after a failing call and initialised again, and the one-shot functions. -/
def pyProg0 : List (PyOp × PyEnv) :=
  [(.create 0 true, pyEnv0), (.update 0 (some (.bytes [1, 2, 3])), pyEnv0), (.create 1 true, pyEnv0), (.update 0 (some .pretender), pyEnv0), (.update 1 (some (.bytes [9])), pyEnv0),
   (.update 0 (some (.bytes [4])), pyEnv0), (.finalize 0 true, pyEnv0), (.finalize 1 true, pyEnv0), (.release 0, pyEnv0), (.calculate .sha1 (some (.bytes [5, 6])) true, pyEnv0),
   (.calculateHmac .md5 (some (.bytes [5, 6], .bytes [])) true, pyEnv0), (.release 1, pyEnv0)]

theorem pyProg0_ok : ∀ x ∈ pyProg0, x.2.Ok := by
  intro x hx
  have : x.2 = pyEnv0 := by
    simp only [pyProg0, List.mem_cons, List.not_mem_nil, or_false] at hx
    rcases hx with rfl | rfl | rfl | rfl | rfl | rfl | rfl | rfl | rfl | rfl | rfl | rfl <;> rfl
  rw [this]
  exact pyEnv0_ok

/-- Variable 0 was fed 1, 2, 3, 4 when it is finalised, and variable 1 was fed 9; so the theorems give both digests, and nothing is left in memory. -/
example (kinds : Nat → Kind) (u : Kind → Bool) : ∃ rs st', pyProgram kinds u (fun _ => true) pyProg0 pySt0 = .ok (rs, st') ∧ rs[6]? = some (.bytes ((kinds 0).std.digest [1, 2, 3, 4])) ∧
    rs[7]? = some (.bytes ((kinds 1).std.digest [9])) ∧ rs[9]? = some (.bytes (Kind.sha1.std.digest [5, 6])) ∧ rs[10]? = some (.bytes (hmac Kind.md5.blockSize Kind.md5.std.digest [5, 6] [])) ∧
    rs[5]? = some .none ∧ st'.mem.live 32 = [] ∧ st'.objects = 0 := by
  obtain ⟨fails, st', hlen, e, hf, hb⟩ := C47_refines kinds u (fun _ => true) pyProg0 pySt0 pySt0_start pyProg0_ok
  have hfs : fails = List.replicate 12 false := List.eq_replicate_iff.2 ⟨hlen, hf (fun _ => rfl)⟩
  have hok : ∀ k : Kind, ∀ n, n ≤ 200 → k.LengthOk n := by intro k n hn; cases k <;> first | trivial | (simp only [Kind.LengthOk]; omega)
  have htr : ∀ n, n ≤ 12 → (pyTrace pyProg0 (pyRun kinds ((pyProg0.map (·.1)).zip fails) (fun _ => none)).1).take n =
      (pyTrace pyProg0 [.none, .none, .none, .raised .value, .none, .none, .bytes ((kinds 0).len64.digest [1, 2, 3, 4]), .bytes ((kinds 1).len64.digest [9]), .none, .bytes (Kind.sha1.len64.digest [5, 6]),
        .bytes (hmac Kind.md5.blockSize Kind.md5.len64.digest [5, 6] []), .none]).take n := by
    intro n _
    rw [hfs]
    simp [pyProg0, pyRun, pyStep, pyBytes, pyKey, maxSize, IterHash.digest]
  refine ⟨_, st', e, ?_, ?_, ?_, ?_, ?_, ?_, ?_⟩
  · refine C47_digest_standard_partial kinds u _ _ _ pySt0_start pyProg0_ok _ _ e 6 0 pyEnv0 rfl [1, 2, 3, 4] ?_ (hok _ _ (by simp))
    rw [htr 6 (by omega)]
    rfl
  · refine C47_digest_standard_partial kinds u _ _ _ pySt0_start pyProg0_ok _ _ e 7 1 pyEnv0 rfl [9] ?_ (hok _ _ (by simp))
    rw [htr 7 (by omega)]
    rfl
  · exact C47_calculate_standard_partial kinds u _ _ _ pySt0_start pyProg0_ok _ _ e 9 .sha1 [5, 6] pyEnv0 rfl (by simp [maxSize]) (hok _ _ (by simp)) (fun _ => rfl)
  · exact C47_hmac_standard_partial kinds u _ _ _ pySt0_start pyProg0_ok _ _ e 10 .md5 [5, 6] [] pyEnv0 rfl (by simp [maxSize]) (by simp [maxSize]) (hok _ _ (by simp)) (hok _ _ (by decide)) (fun _ => rfl)
  · refine C47_update kinds u _ _ _ pySt0_start pyProg0_ok _ _ e 5 0 [4] pyEnv0 rfl (by simp [maxSize]) [1, 2, 3] ?_
    rw [htr 5 (by omega)]
    rfl
  · refine List.map_eq_nil_iff.1 (List.perm_nil.1 (C47_released kinds u _ _ _ pySt0_start pyProg0_ok _ _ e ?_ (fun i => ?_) 32))
    · intro x hx i
      simp only [pyProg0, List.mem_cons, List.not_mem_nil, or_false] at hx
      rcases hx with rfl | rfl | rfl | rfl | rfl | rfl | rfl | rfl | rfl | rfl | rfl | rfl <;> simp
    · have := hb i
      rw [hfs] at this
      have hz : (pyProg0.map (·.1)).zip (List.replicate 12 false) = pyProg0.map (fun x => (x.1, false)) := rfl
      rw [hz] at this
      simp [pyProg0, pyRun, pyStep, pyBytes, maxSize, pyKey] at this
      by_cases h1 : i = 1
      · subst h1; simpa using this
      · by_cases h0 : i = 0
        · subst h0; simpa using this
        · simpa [h1, h0] using this
  · rw [C47_objects kinds u _ _ _ pySt0_start pyProg0_ok _ _ e, ← List.take_length (l := pyTrace _ _)]
    have hl : (pyTrace pyProg0 (pyRun kinds ((pyProg0.map (·.1)).zip fails) (fun _ => none)).1).length = 12 := by simp [pyTrace, pyRun_length, hlen, pyProg0]
    rw [hl, htr 12 (le_refl _)]
    rfl

end Props
