import Verif.Proofs.PyBuilds
import Verif.Props.Python
import Verif.Props.MultiBuilds
/-! C76: the Python module in every build of the library: for each algorithm the built-in functions, or those of a crypto library (any of the three kinds of calls, with any library that meets its contract, which may fail at any time). -/

namespace Props

open Model Spec

variable {ch : Kind → Choice} {L : Kind → Library}

/-- The state in which a program starts: no variable is bound. What else is in memory was allocated before. -/
structure PyBuildStart (st : PyState (MixedMem L)) : Prop where
  unbound : ∀ i, st.vars i = none
  before : st.mem.Wf

/-- The functions of algorithm `k` do not fail by themselves. -/
def NeverFails (ch : Kind → Choice) (L : Kind → Library) (k : Kind) : Prop := ch k ≠ .builtin → Reliable (L k)

theorem pyBuildStart_mix {st : PyState (MixedMem L)} (h : PyBuildStart st) (Rep : (k : Kind) → (L k).State → List Byte → Prop) (kinds : Nat → Kind) :
    PyMix ch L Rep kinds (fun w => (st.mem.mem.live w).map (·.1)) st.mem.live st (fun _ => none) where
  shape := fun i => by rw [h.unbound]; trivial
  mix := by
    have : (fun i => (st.vars i).join) = fun _ => none := by funext i; rw [h.unbound]; rfl
    rw [this]
    exact mixMulti_start h.before _

/-- C76. With the built-in functions the module is that of C47: every program has the same outcome. -/
theorem C76_builtin (kinds : Nat → Kind) (u : Kind → Bool) (al : Nat → Bool) (prog : List (PyOp × PyEnv)) (st : PySt) (rs : List PyResult) (st' : PySt) :
    PyBuilds.program (.builtin u al) kinds prog ⟨st.vars, st.mem, st.objects, st.noneRefs⟩ = .ok (rs, ⟨st'.vars, st'.mem, st'.objects, st'.noneRefs⟩) ↔ pyProgram kinds u al prog st = .ok (rs, st') := by
  have h := PyBuilds.program_builtin (u := u) (al := al) kinds prog st
  rw [PyBuilds.ofSt] at h
  rw [h]
  cases pyProgram kinds u al prog st with
  | ub => simp [PyBuilds.ofRes]
  | diverge => simp [PyBuilds.ofRes]
  | ok x =>
    obtain ⟨r, v, m, n, k⟩ := x
    obtain ⟨v', m', n', k'⟩ := st'
    simp [PyBuilds.ofRes, PyBuilds.ofSt]

/-- C76. Every program runs to its end without undefined behaviour, whatever the crypto library does, and every statement does what `pyMay` allows. -/
theorem C76_safe (hC : Correct ch L) (kinds : Nat → Kind) (u : Kind → Bool) (al : Nat → Bool) (prog : List (PyOp × PyEnv)) (st : PyState (MixedMem L)) (hs : PyBuildStart st) (he : ∀ x ∈ prog, x.2.Ok) :
    ∃ rs st' o, PyBuilds.program (.mixed ch L u al) kinds prog st = .ok (rs, st') ∧ rs.length = prog.length ∧
      pyMayRun kinds (NeverFails ch L) (fun k => (ch k).limit) (∃ n, al n = false) (prog.map (·.1)) rs (fun _ => none) o ∧ ∀ i, (st'.vars i).isSome = (o i).isSome := by
  obtain ⟨Rep, hL⟩ := hC.rep
  obtain ⟨rs, st', o', mb, b, e, hlen, hrun, hmix, -⟩ := program_may (u := u) (al := al) hL (fun k hk => (hC k hk).2) prog st _ he (pyBuildStart_mix hs Rep kinds)
  refine ⟨rs, st', o', e, hlen, hrun, fun i => ?_⟩
  have := hmix.shape i
  revert this
  rcases st'.vars i with _ | _ | p <;> rcases o' i with _ | _ | y <;> simp [PyShape]

/-- One statement of a program. -/
theorem pyBuildAt (hC : Correct ch L) {kinds : Nat → Kind} {u : Kind → Bool} {al : Nat → Bool} {prog : List (PyOp × PyEnv)} {st : PyState (MixedMem L)} (hs : PyBuildStart st) (he : ∀ x ∈ prog, x.2.Ok)
    {rs : List PyResult} {st' : PyState (MixedMem L)} (hp : PyBuilds.program (.mixed ch L u al) kinds prog st = .ok (rs, st')) {j : Nat} {op : PyOp} {e : PyEnv} (hj : prog[j]? = some (op, e)) :
    ∃ r o o', rs[j]? = some r ∧ pyMay kinds (NeverFails ch L) (fun k => (ch k).limit) (∃ n, al n = false) op o r o' ∧ ∀ i d, pyMessage i ((pyTrace prog rs).take j) = some d → o i = some (some (some d)) := by
  obtain ⟨rs2, st2, o2, e2, -, hrun, -⟩ := C76_safe hC kinds u al prog st hs he
  rw [hp] at e2
  simp only [Res.ok.injEq, Prod.mk.injEq] at e2
  obtain ⟨rfl, -⟩ := e2
  obtain ⟨r, o, o', h1, h2, h3⟩ := pyMayRun_at hrun (j := j) (op := op) (by rw [List.getElem?_map, hj]; rfl)
  refine ⟨r, o, o', h1, h3, fun i d hd => ?_⟩
  refine pyMayRun_message i (m := none) h2 (by simp) d ?_
  rw [← hd, pyMessage, pyTrace, List.zip_eq_zipWith, List.zip_eq_zipWith, List.take_zipWith]

/-- C76. A digest that `finalize` returns is the standard one of all bytes that the object accepted since it was made or initialised again, however they were cut and whatever happened on other objects meanwhile, for messages shorter
than 2^61 bytes. (The size of the result is right in any case.) -/
theorem C76_no_wrong_digest (hC : Correct ch L) (kinds : Nat → Kind) (u : Kind → Bool) (al : Nat → Bool) (prog : List (PyOp × PyEnv)) (st : PyState (MixedMem L)) (hs : PyBuildStart st) (he : ∀ x ∈ prog, x.2.Ok)
    (rs : List PyResult) (st' : PyState (MixedMem L)) (hp : PyBuilds.program (.mixed ch L u al) kinds prog st = .ok (rs, st')) (j i : Nat) (ok : Bool) (e : PyEnv) (hj : prog[j]? = some (.finalize i ok, e)) (d : List Byte)
    (hr : rs[j]? = some (.bytes d)) : d.length = (kinds i).hashSize ∧ ∀ m, pyMessage i ((pyTrace prog rs).take j) = some m → m.length < 2 ^ 61 → d = (kinds i).std.digest m := by
  obtain ⟨r, o, o', h1, h2, h3⟩ := pyBuildAt hC hs he hp hj
  rw [hr] at h1
  obtain rfl := Option.some.inj h1
  simp only [pyMay] at h2
  rcases ho : o i with _ | _ | x
  · rw [ho] at h2; cases h2.1
  · rw [ho] at h2; cases h2.1
  · rw [ho] at h2
    obtain ⟨-, ⟨d', hd, hl, hx⟩ | ⟨hd, -⟩⟩ := h2
    · have hok : ok = true := by
        cases ok with
        | true => rfl
        | false => cases hd
      rw [hok, if_pos rfl] at hd
      cases hd
      refine ⟨hl, fun m hm hlm => hx m ?_ hlm⟩
      have := h3 i m hm
      rw [ho] at this
      simpa using this
    · cases hd

/-- C76. Where the crypto library does not fail, `finalize` returns that digest. -/
theorem C76_digest (hC : Correct ch L) (kinds : Nat → Kind) (u : Kind → Bool) (al : Nat → Bool) (prog : List (PyOp × PyEnv)) (st : PyState (MixedMem L)) (hs : PyBuildStart st) (he : ∀ x ∈ prog, x.2.Ok)
    (rs : List PyResult) (st' : PyState (MixedMem L)) (hp : PyBuilds.program (.mixed ch L u al) kinds prog st = .ok (rs, st')) (j i : Nat) (e : PyEnv) (hj : prog[j]? = some (.finalize i true, e))
    (hg : NeverFails ch L (kinds i)) (m : List Byte) (hm : pyMessage i ((pyTrace prog rs).take j) = some m) (hl : m.length < 2 ^ 61) : rs[j]? = some (.bytes ((kinds i).std.digest m)) := by
  obtain ⟨r, o, o', h1, h2, h3⟩ := pyBuildAt hC hs he hp hj
  rw [h1]
  simp only [pyMay, h3 i m hm] at h2
  obtain ⟨-, ⟨d, rfl, -, hx⟩ | ⟨-, h⟩⟩ := h2
  · rw [if_pos trivial, hx m rfl hl]
  · exact absurd hg h

/-- C76. Where the crypto library does not fail, feeding an object that holds data never raises, up to the size that the library takes. -/
theorem C76_update (hC : Correct ch L) (kinds : Nat → Kind) (u : Kind → Bool) (al : Nat → Bool) (prog : List (PyOp × PyEnv)) (st : PyState (MixedMem L)) (hs : PyBuildStart st) (he : ∀ x ∈ prog, x.2.Ok)
    (rs : List PyResult) (st' : PyState (MixedMem L)) (hp : PyBuilds.program (.mixed ch L u al) kinds prog st = .ok (rs, st')) (j i : Nat) (b : List Byte) (e : PyEnv)
    (hj : prog[j]? = some (.update i (some (.bytes b)), e)) (hb : b.length ≤ maxSize) (hg : NeverFails ch L (kinds i)) (hl : b.length ≤ (ch (kinds i)).limit) (m : List Byte)
    (hm : pyMessage i ((pyTrace prog rs).take j) = some m) : rs[j]? = some .none := by
  obtain ⟨r, o, o', h1, h2, h3⟩ := pyBuildAt hC hs he hp hj
  rw [h1]
  simp only [pyMay, h3 i m hm, pyBytes, hb, if_true] at h2
  rcases h2 with ⟨rfl, -⟩ | ⟨-, -, h | h⟩
  · rfl
  · omega
  · exact absurd hg h

/-- C76. `calculate` returns the standard digest of its argument, or raises: for lack of memory, when the crypto library fails, or when it does not take data of that size. -/
theorem C76_calculate (hC : Correct ch L) (kinds : Nat → Kind) (u : Kind → Bool) (al : Nat → Bool) (prog : List (PyOp × PyEnv)) (st : PyState (MixedMem L)) (hs : PyBuildStart st) (he : ∀ x ∈ prog, x.2.Ok)
    (rs : List PyResult) (st' : PyState (MixedMem L)) (hp : PyBuilds.program (.mixed ch L u al) kinds prog st = .ok (rs, st')) (j : Nat) (k : Kind) (b : List Byte) (e : PyEnv)
    (hj : prog[j]? = some (.calculate k (some (.bytes b)) true, e)) (hb : b.length < 2 ^ 61) :
    rs[j]? = some (.bytes (k.std.digest b)) ∨ rs[j]? = some (.raised .io) ∧ ((∃ n, al n = false) ∨ ¬ NeverFails ch L k ∨ (ch k).limit < b.length) := by
  obtain ⟨r, o, o', h1, h2, -⟩ := pyBuildAt hC hs he hp hj
  have hm : b.length ≤ maxSize := by unfold maxSize; omega
  rw [h1]
  simp only [pyMay, pyBytes, hm, if_true] at h2
  obtain ⟨-, ⟨d, rfl, -, hd⟩ | ⟨rfl, h⟩⟩ := h2
  · exact .inl (by rw [hd hb])
  · exact .inr ⟨rfl, h⟩

/-- C76. `calculate_hmac` returns the standard HMAC of its arguments, or raises for the same reasons. -/
theorem C76_hmac (hC : Correct ch L) (kinds : Nat → Kind) (u : Kind → Bool) (al : Nat → Bool) (prog : List (PyOp × PyEnv)) (st : PyState (MixedMem L)) (hs : PyBuildStart st) (he : ∀ x ∈ prog, x.2.Ok)
    (rs : List PyResult) (st' : PyState (MixedMem L)) (hp : PyBuilds.program (.mixed ch L u al) kinds prog st = .ok (rs, st')) (j : Nat) (k : Kind) (key b : List Byte) (e : PyEnv)
    (hj : prog[j]? = some (.calculateHmac k (some (.bytes key, .bytes b)) true, e)) (hk : key.length < 2 ^ 61) (hb : k.blockSize + b.length < 2 ^ 61) :
    rs[j]? = some (.bytes (hmac k.blockSize k.std.digest key b)) ∨ rs[j]? = some (.raised .io) ∧ ((∃ n, al n = false) ∨ ¬ NeverFails ch L k ∨ (ch k).limit < b.length ∨ (ch k).limit < key.length) := by
  obtain ⟨r, o, o', h1, h2, -⟩ := pyBuildAt hC hs he hp hj
  have hm : b.length ≤ maxSize := by unfold maxSize; omega
  have hm' : key.length ≤ maxSize := by unfold maxSize; omega
  rw [h1]
  simp only [pyMay, pyBytes, pyKey, hm, hm', if_true] at h2
  obtain ⟨-, ⟨d, rfl, -, hd⟩ | ⟨rfl, h⟩⟩ := h2
  · exact .inl (by rw [hd hk hb])
  · exact .inr ⟨rfl, h⟩

/-- C76. A program that uses no object again after it was finalised (unless it was initialised again) cannot tell the builds apart: where the crypto library does not fail, and takes data of these sizes, its outcomes are those of the
specification of C47 for the built-in functions; for some failures of allocations, of which there are none if no allocation fails. -/
theorem C76_same (hC : Correct ch L) (hg : ∀ k, NeverFails ch L k) (kinds : Nat → Kind) (u : Kind → Bool) (al : Nat → Bool) (prog : List (PyOp × PyEnv)) (st : PyState (MixedMem L)) (hs : PyBuildStart st)
    (he : ∀ x ∈ prog, x.2.Ok) (honce : pyOnce (fun _ => false) (prog.map (·.1))) (hfit : ∀ x ∈ prog, x.1.Fits kinds (fun k => (ch k).limit)) (hfed : (prog.map (fun x => x.1.fed)).sum < 2 ^ 61) :
    ∃ fails st', fails.length = prog.length ∧ PyBuilds.program (.mixed ch L u al) kinds prog st = .ok ((pyRun kinds ((prog.map (·.1)).zip fails) (fun _ => none)).1, st') ∧
      ((∀ n, al n = true) → ∀ f ∈ fails, f = false) := by
  obtain ⟨rs, st', o, e, -, hrun, -⟩ := C76_safe hC kinds u al prog st hs he
  obtain ⟨fails, h1, h2, h3⟩ := pyMayRun_once hg (B := 0) (os := fun _ => none) hrun (fun op hop => by
    obtain ⟨x, hx, rfl⟩ := List.mem_map.1 hop
    exact hfit x hx) (by rw [List.map_map, Nat.zero_add]; exact hfed) honce (fun _ => trivial)
  refine ⟨fails, st', by rw [h1, List.length_map], by rw [e, h2], fun hal => h3 ?_⟩
  rintro ⟨n, hn⟩
  rw [hal] at hn
  cases hn

/-- C76. An argument that is not a bytes object raises, and changes nothing at all, in every build (whatever the state, and for a key as for data). -/
theorem C76_bad_argument {M : Type} (P : PyLibrary M) (kinds : Nat → Kind) (e : PyEnv) (st : PyState M) (arg arg' : PyArg) (h : ∀ b, arg ≠ .bytes b) (i : Nat) (k : Kind) (ok : Bool) (op : PyOp)
    (hop : op = .update i (some arg) ∨ op = .calculate k (some arg) ok ∨ op = .calculateHmac k (some (arg, arg')) ok ∨ op = .calculateHmac k (some (arg', arg)) ok) :
    ∃ x, PyBuilds.exec P kinds e op st = .ok (.raised x, st) := by
  have hd : ∃ x, pyData (some arg) = .inl x := by
    cases arg with
    | bytes b => exact (h b rfl).elim
    | pretender => exact ⟨_, rfl⟩
    | other => exact ⟨_, rfl⟩
    | broken => exact ⟨_, rfl⟩
  have hk : ∃ x, pyKeyData arg = .inl x := by
    cases arg with
    | bytes b => exact (h b rfl).elim
    | pretender => exact ⟨_, rfl⟩
    | other => exact ⟨_, rfl⟩
    | broken => exact ⟨_, rfl⟩
  obtain ⟨x, hd⟩ := hd
  obtain ⟨y, hk⟩ := hk
  rcases hop with rfl | rfl | rfl | rfl
  · cases hv : st.vars i with
    | none => exact ⟨.name, by simp [PyBuilds.exec, PyBuilds.on, hv]⟩
    | some slot => exact ⟨x, by simp [PyBuilds.exec, PyBuilds.on, hv, PyBuilds.method, PyBuilds.feed, hd]⟩
  · exact ⟨x, by simp [PyBuilds.exec, PyBuilds.calculate, hd]⟩
  · exact ⟨y, by simp [PyBuilds.exec, PyBuilds.calculateHmac, hk]⟩
  · cases ho : pyKeyData arg' with
    | inl z => exact ⟨z, by simp [PyBuilds.exec, PyBuilds.calculateHmac, ho]⟩
    | inr kb => exact ⟨x, by simp [PyBuilds.exec, PyBuilds.calculateHmac, ho, hd]⟩

/-- C76. Where `__init__` is never called on an existing object, all contexts that the module made, and all objects of the crypto library, are released when no variable is bound any more: what is in memory is what was there before. -/
theorem C76_released (hC : Correct ch L) (kinds : Nat → Kind) (u : Kind → Bool) (al : Nat → Bool) (prog : List (PyOp × PyEnv)) (st : PyState (MixedMem L)) (hs : PyBuildStart st) (he : ∀ x ∈ prog, x.2.Ok)
    (rs : List PyResult) (st' : PyState (MixedMem L)) (hp : PyBuilds.program (.mixed ch L u al) kinds prog st = .ok (rs, st')) (hre : ∀ x ∈ prog, ∀ i, x.1 ≠ .reinit i) (hend : ∀ i, st'.vars i = none) :
    (∀ w, ((st'.mem.mem.live w).map (·.1)).Perm ((st.mem.mem.live w).map (·.1))) ∧ ∀ k, (st'.mem.live k).Perm (st.mem.live k) := by
  obtain ⟨Rep, hL⟩ := hC.rep
  obtain ⟨rs2, st2, o', mb, b, e, -, -, hmix, -, hkeep, -⟩ := program_may (u := u) (al := al) hL (fun k hk => (hC k hk).2) prog st _ he (pyBuildStart_mix hs Rep kinds)
  rw [hp] at e
  simp only [Res.ok.injEq, Prod.mk.injEq] at e
  obtain ⟨-, rfl⟩ := e
  obtain ⟨rfl, rfl⟩ := hkeep hre
  have hm := hmix.mix
  have : (fun i => (st'.vars i).join) = fun _ => none := by funext i; rw [hend]; rfl
  rw [this] at hm
  exact mixMulti_end hs.before.keys (fun k => (hs.before.crypto k).nodup) hm

/-- C76. The number of module objects in memory: one more for every object made and for every constructor that failed, one less for every object with a context that was released. -/
theorem C76_objects (hC : Correct ch L) (kinds : Nat → Kind) (u : Kind → Bool) (al : Nat → Bool) (prog : List (PyOp × PyEnv)) (st : PyState (MixedMem L)) (hs : PyBuildStart st) (he : ∀ x ∈ prog, x.2.Ok)
    (rs : List PyResult) (st' : PyState (MixedMem L)) (hp : PyBuilds.program (.mixed ch L u al) kinds prog st = .ok (rs, st')) :
    st'.objects = st.objects + ((pyTrace prog rs).map (fun x => pyObjectChange x.1 x.2)).sum := by
  obtain ⟨Rep, hL⟩ := hC.rep
  obtain ⟨rs2, st2, o', mb, b, e, -, -, -, hobj, -⟩ := program_may (u := u) (al := al) hL (fun k hk => (hC k hk).2) prog st _ he (pyBuildStart_mix hs Rep kinds)
  rw [hp] at e
  simp only [Res.ok.injEq, Prod.mk.injEq] at e
  obtain ⟨rfl, rfl⟩ := e
  exact hobj

/-- Calling `__init__` again on an object leaks its context in every build, as in C47: after the object is released, memory is not empty. -/
theorem C76_reinit_leaks (hC : Correct ch L) (kinds : Nat → Kind) (hg : NeverFails ch L (kinds 0)) (u : Kind → Bool) (st : PyState (MixedMem L)) (hs : PyBuildStart st) :
    ∃ st', PyBuilds.program (.mixed ch L u (fun _ => true)) kinds [(.create 0 true, pyEnv0), (.reinit 0, pyEnv0), (.release 0, pyEnv0)] st = .ok ([.none, .none, .none], st') ∧ (∀ i, st'.vars i = none) ∧
      ((∃ w, st'.mem.mem.live w ≠ []) ∨ ∃ k, st'.mem.live k ≠ []) := by
  obtain ⟨Rep, hL⟩ := hC.rep
  have hT := fun k hk => (hC k hk).2
  have hfull : ¬ Full (fun _ : Nat => true) := by rintro ⟨n, hn⟩; cases hn
  obtain ⟨r1, st1, o1, mb1, b1, h1⟩ := exec_may (u := u) (al := fun _ => true) hL hT pyEnv0_ok (pyBuildStart_mix hs Rep kinds) (.create 0 true)
  have m1 : r1 = .none ∧ o1 = Function.update (fun _ : Nat => none) 0 (some (some (some []))) := by
    rcases h1.may with h | ⟨-, -, h⟩
    · exact h
    · exact absurd h (by rintro (h | h); exacts [hfull h, h hg])
  obtain ⟨rfl, rfl⟩ := m1
  obtain ⟨r2, st2, o2, mb2, b2, h2⟩ := exec_may (u := u) (al := fun _ => true) hL hT pyEnv0_ok h1.mix (.reinit 0)
  have m2 : r2 = .none ∧ o2 = Function.update (Function.update (fun _ : Nat => none) 0 (some (some (some [])))) 0 (some (some (some []))) := by
    rcases (show _ ∨ _ from h2.may) with h | ⟨-, -, h⟩
    · exact h
    · exact absurd h (by rintro (h | h); exacts [hfull h, h hg])
  obtain ⟨rfl, rfl⟩ := m2
  obtain ⟨r3, st3, o3, mb3, b3, h3⟩ := exec_may (u := u) (al := fun _ => true) hL hT pyEnv0_ok h2.mix (.release 0)
  have m3 := h3.may
  simp only [pyMay, Function.update_self, Function.update_idem] at m3
  obtain ⟨rfl, rfl⟩ := m3
  refine ⟨st3, ?_, fun i => ?_, ?_⟩
  · simp only [PyBuilds.program, h1.eq, h2.eq, h3.eq, Res.ok_bind, Res.pure_eq]
  · have := h3.mix.shape i
    have ho : Function.update (fun _ : Nat => (none : Option (Option (Option (List Byte))))) 0 none i = none := by
      by_cases hi : i = 0
      · subst hi; rw [Function.update_self]
      · rw [Function.update_of_ne hi]
    rw [ho] at this
    revert this
    rcases st3.vars i with _ | _ | _ <;> simp [PyShape]
  · obtain ⟨⟨a, -, hmem, -⟩, ent, hcr⟩ := h3.mix.mix
    obtain ⟨g1, g2⟩ := h3.grow
    rcases h2.leak 0 rfl (by simp) with ⟨w, hw⟩ | ⟨k, hk⟩
    · obtain ⟨p, hp⟩ := List.exists_mem_of_ne_nil _ hw
      have := ((hmem w).2.2.1 p).2 (.inl (g1 w hp))
      refine .inl ⟨w, fun h => ?_⟩
      rw [h] at this
      simp at this
    · obtain ⟨x, hx⟩ := List.exists_mem_of_ne_nil _ hk
      have := hcr.kept k (g2 k hx)
      refine .inr ⟨k, fun h => ?_⟩
      rw [h] at this
      simp at this

/-- A start for the examples. -/
def pyBuild0 (L : Kind → Library) : PyState (MixedMem L) := ⟨fun _ => none, (mixed0 L).mem, 0, 0⟩

theorem pyBuild0_start (L : Kind → Library) : PyBuildStart (pyBuild0 L) := ⟨fun _ => rfl, mixed0_wf L⟩

example (kinds : Nat → Kind) (u : Kind → Bool) (al : Nat → Bool) := C76_safe failing_correct kinds u al pyProg0 (pyBuild0 _) (pyBuild0_start _) pyProg0_ok

/-- The program of C47 in a build where some algorithms are those of a crypto library: its outcomes, and what stays in memory. -/
theorem pyProg0_mixed (kinds : Nat → Kind) (u : Kind → Bool) : ∃ st', PyBuilds.program (.mixed choice0 exactLibrary u (fun _ => true)) kinds pyProg0 (pyBuild0 _) = .ok ([.none, .none, .none, .raised .value, .none, .none,
    .bytes ((kinds 0).len64.digest [1, 2, 3, 4]), .bytes ((kinds 1).len64.digest [9]), .none, .bytes (Kind.sha1.len64.digest [5, 6]), .bytes (hmac Kind.md5.blockSize Kind.md5.len64.digest [5, 6] []), .none], st') := by
  have hlim : ∀ k, 200 ≤ (choice0 k).limit := by intro k; cases k <;> simp [choice0, Choice.limit, Backend.maxUpdate, maxSize, ssizeMax]
  obtain ⟨fails, st', hlen, e, hf⟩ := C76_same exact_correct (fun k _ => exact_reliable k) kinds u (fun _ => true) pyProg0 (pyBuild0 _) (pyBuild0_start _) pyProg0_ok (by simp [pyProg0, pyOnce]) (by
    intro x hx
    simp only [pyProg0, List.mem_cons, List.not_mem_nil, or_false] at hx
    rcases hx with rfl | rfl | rfl | rfl | rfl | rfl | rfl | rfl | rfl | rfl | rfl | rfl <;> simp only [PyOp.Fits, List.length_cons, List.length_nil]
    case inr.inl => exact Nat.le_trans (by omega) (hlim _)
    case inr.inr.inr.inr.inl => exact Nat.le_trans (by omega) (hlim _)
    case inr.inr.inr.inr.inr.inl => exact Nat.le_trans (by omega) (hlim _)
    case inr.inr.inr.inr.inr.inr.inr.inr.inr.inl => exact ⟨Nat.le_trans (by omega) (hlim _), by omega⟩
    case inr.inr.inr.inr.inr.inr.inr.inr.inr.inr.inl => exact ⟨Nat.le_trans (by omega) (hlim _), Nat.le_trans (by omega) (hlim _), by omega, by decide⟩) (by decide)
  have hfs : fails = List.replicate 12 false := List.eq_replicate_iff.2 ⟨hlen, hf (fun _ => rfl)⟩
  refine ⟨st', ?_⟩
  rw [e, hfs]
  simp [pyProg0, pyRun, pyStep, pyBytes, pyKey, maxSize, IterHash.digest]

/-- MD5 of the crypto library (limited sizes) and SHA-224 of the crypto library (allocated context) in the two variables. -/
def pyKinds0 (i : Nat) : Kind := if i = 0 then .md5 else .sha224

example (u : Kind → Bool) : ∃ rs st', PyBuilds.program (.mixed choice0 exactLibrary u (fun _ => true)) pyKinds0 pyProg0 (pyBuild0 _) = .ok (rs, st') ∧ rs[6]? = some (.bytes (Kind.md5.std.digest [1, 2, 3, 4])) ∧
    rs[7]? = some (.bytes (Kind.sha224.std.digest [9])) := by
  obtain ⟨st', e⟩ := pyProg0_mixed pyKinds0 u
  refine ⟨_, st', e, ?_, ?_⟩
  · exact C76_digest exact_correct _ u _ pyProg0 _ (pyBuild0_start _) pyProg0_ok _ st' e 6 0 pyEnv0 rfl (fun _ => exact_reliable _) [1, 2, 3, 4] (by simp [pyMessage, pyTrace, pyProg0, pyMessageNext]) (by decide)
  · exact C76_digest exact_correct _ u _ pyProg0 _ (pyBuild0_start _) pyProg0_ok _ st' e 7 1 pyEnv0 rfl (fun _ => exact_reliable _) [9] (by simp [pyMessage, pyTrace, pyProg0, pyMessageNext]) (by decide)

example (u : Kind → Bool) : ∃ rs st', PyBuilds.program (.mixed choice0 exactLibrary u (fun _ => true)) pyKinds0 pyProg0 (pyBuild0 _) = .ok (rs, st') ∧
    ∃ d, rs[7]? = some (.bytes d) ∧ (d.length = Kind.sha224.hashSize ∧ ∀ m, pyMessage 1 ((pyTrace pyProg0 rs).take 7) = some m → m.length < 2 ^ 61 → d = Kind.sha224.std.digest m) ∧
    rs[4]? = some .none ∧ st'.objects = 0 + ((pyTrace pyProg0 rs).map (fun x => pyObjectChange x.1 x.2)).sum := by
  obtain ⟨st', e⟩ := pyProg0_mixed pyKinds0 u
  refine ⟨_, st', e, _, rfl, ?_, ?_, ?_⟩
  · exact C76_no_wrong_digest exact_correct _ u _ pyProg0 _ (pyBuild0_start _) pyProg0_ok _ st' e 7 1 true pyEnv0 rfl _ rfl
  · exact C76_update exact_correct _ u _ pyProg0 _ (pyBuild0_start _) pyProg0_ok _ st' e 4 1 [9] pyEnv0 rfl (by decide) (fun _ => exact_reliable _)
      (by simp [pyKinds0, choice0, Choice.limit, Backend.maxUpdate, ssizeMax]) [] (by simp [pyMessage, pyTrace, pyProg0, pyMessageNext])
  · exact C76_objects exact_correct _ u _ pyProg0 _ (pyBuild0_start _) pyProg0_ok _ st' e

example (u : Kind → Bool) (al : Nat → Bool) : ∃ rs st', PyBuilds.program (.mixed choice0 failingLibrary u al) pyKinds0 pyProg0 (pyBuild0 _) = .ok (rs, st') ∧
    (rs[9]? = some (.bytes (Kind.sha1.std.digest [5, 6])) ∨ rs[9]? = some (.raised .io) ∧ ((∃ n, al n = false) ∨ ¬ NeverFails choice0 failingLibrary .sha1 ∨ (choice0 .sha1).limit < 2)) ∧
    (rs[10]? = some (.bytes (hmac Kind.md5.blockSize Kind.md5.std.digest [5, 6] [])) ∨ rs[10]? = some (.raised .io) ∧
      ((∃ n, al n = false) ∨ ¬ NeverFails choice0 failingLibrary .md5 ∨ (choice0 .md5).limit < 0 ∨ (choice0 .md5).limit < 2)) := by
  obtain ⟨rs, st', o, e, -⟩ := C76_safe failing_correct pyKinds0 u al pyProg0 (pyBuild0 _) (pyBuild0_start _) pyProg0_ok
  exact ⟨rs, st', e, C76_calculate failing_correct _ u al pyProg0 _ (pyBuild0_start _) pyProg0_ok rs st' e 9 .sha1 [5, 6] pyEnv0 rfl (by decide),
    C76_hmac failing_correct _ u al pyProg0 _ (pyBuild0_start _) pyProg0_ok rs st' e 10 .md5 [5, 6] [] pyEnv0 rfl (by decide) (by decide)⟩

example (u : Kind → Bool) : ∃ st', PyBuilds.program (.mixed choice0 exactLibrary u (fun _ => true)) pyKinds0 [(.create 0 true, pyEnv0), (.reinit 0, pyEnv0), (.release 0, pyEnv0)] (pyBuild0 _) = .ok ([.none, .none, .none], st') ∧
    (∀ i, st'.vars i = none) ∧ ((∃ w, st'.mem.mem.live w ≠ []) ∨ ∃ k, st'.mem.live k ≠ []) :=
  C76_reinit_leaks exact_correct pyKinds0 (fun _ => exact_reliable _) u _ (pyBuild0_start _)

/-- Two objects of different algorithms, released in the order in which they were made: nothing stays, although the library may fail at any time. -/
example (u : Kind → Bool) (al : Nat → Bool) : ∃ rs st', PyBuilds.program (.mixed choice0 failingLibrary u al) pyKinds0 [(.create 0 true, pyEnv0), (.create 1 true, pyEnv0), (.update 1 (some (.bytes [1, 2])), pyEnv0),
      (.release 0, pyEnv0), (.finalize 1 true, pyEnv0), (.release 1, pyEnv0)] (pyBuild0 _) = .ok (rs, st') ∧
    ((∀ i, st'.vars i = none) → (∀ w, ((st'.mem.mem.live w).map (·.1)).Perm (((pyBuild0 failingLibrary).mem.mem.live w).map (·.1))) ∧ ∀ k, (st'.mem.live k).Perm ((pyBuild0 failingLibrary).mem.live k)) := by
  have he : ∀ x ∈ [(PyOp.create 0 true, pyEnv0), (.create 1 true, pyEnv0), (.update 1 (some (.bytes [1, 2])), pyEnv0), (.release 0, pyEnv0), (.finalize 1 true, pyEnv0), (.release 1, pyEnv0)], x.2.Ok := by
    intro x hx
    simp only [List.mem_cons, List.not_mem_nil, or_false] at hx
    rcases hx with rfl | rfl | rfl | rfl | rfl | rfl <;> exact pyEnv0_ok
  obtain ⟨rs, st', o, e, -⟩ := C76_safe failing_correct pyKinds0 u al _ (pyBuild0 _) (pyBuild0_start _) he
  refine ⟨rs, st', e, fun hend => C76_released failing_correct _ u al _ _ (pyBuild0_start _) he rs st' e (fun x hx i => ?_) hend⟩
  simp only [List.mem_cons, List.not_mem_nil, or_false] at hx
  rcases hx with rfl | rfl | rfl | rfl | rfl | rfl <;> simp

example (u : Kind → Bool) (al : Nat → Bool) (st : PyState (MixedMem exactLibrary)) : ∃ x, PyBuilds.exec (.mixed choice0 exactLibrary u al) pyKinds0 pyEnv0 (.calculateHmac .md5 (some (.bytes [1], .other)) true) st = .ok (.raised x, st) :=
  C76_bad_argument _ _ _ st .other (.bytes [1]) (by simp) 0 .md5 true _ (.inr (.inr (.inr rfl)))

end Props
