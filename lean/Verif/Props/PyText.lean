import Verif.Proofs.PyText
import Verif.Proofs.PyTextBytes
import Verif.Props.PyBuilds
/-! C77: what the exceptions of the Python module say, in every build. -/

namespace Props

open Model Spec

variable {ch : Kind → Choice} {L : Kind → Library}

/-- C77. Texts do not change what a program does: its outcomes and its memory are those of C76. -/
theorem C77_results {M : Type} (P : PyLibrary M) (kinds : Nat → Kind) (prog : List (PyOp × PyEnv × PyTexts)) (st : PyState M) (hI : ∀ x ∈ prog, x.2.2.Ok) (rs : List PyResult) (st' : PyState M)
    (h : PyBuilds.program P kinds (prog.map fun x => (x.1, x.2.1)) st = .ok (rs, st')) : ∃ outs, PyText.program P kinds prog st = .ok (outs, st') ∧ outs.map PyOutcome.result = rs := by
  obtain ⟨outs, h1, h2, -⟩ := PyText.program_told prog st hI h
  exact ⟨outs, h1, h2⟩

/-- What one statement tells, and its result. -/
theorem pyTextAt (hC : Correct ch L) {kinds : Nat → Kind} {u : Kind → Bool} {al : Nat → Bool} {prog : List (PyOp × PyEnv × PyTexts)} {st : PyState (MixedMem L)} (hs : PyBuildStart st) (he : ∀ x ∈ prog, x.2.1.Ok ∧ x.2.2.Ok)
    {outs : List PyOutcome} {st' : PyState (MixedMem L)} (hp : PyText.program (.mixed ch L u al) kinds prog st = .ok (outs, st')) {j : Nat} {op : PyOp} {e : PyEnv} {I : PyTexts} (hj : prog[j]? = some (op, e, I))
    {x : PyExc} {t : List Byte} (hx : outs[j]? = some (.raised x t)) :
    Told kinds I op x t ∧ ∃ o o', pyMay kinds (NeverFails ch L) (fun k => (ch k).limit) (∃ n, al n = false) op o (.raised x) o' := by
  have he' : ∀ y ∈ prog.map (fun x => (x.1, x.2.1)), y.2.Ok := by
    intro y hy
    obtain ⟨z, hz, rfl⟩ := List.mem_map.1 hy
    exact (he z hz).1
  obtain ⟨rs, st2, o2, e2, -⟩ := C76_safe hC kinds u al (prog.map fun x => (x.1, x.2.1)) st hs he'
  obtain ⟨outs2, h1, h2, h3⟩ := PyText.program_told prog st (fun x hx => (he x hx).2) e2
  rw [hp] at h1
  simp only [Res.ok.injEq, Prod.mk.injEq] at h1
  obtain ⟨rfl, rfl⟩ := h1
  refine ⟨h3 j op e I x t hj hx, ?_⟩
  obtain ⟨r, o, o', h4, h5, -⟩ := pyBuildAt hC hs he' e2 (j := j) (op := op) (e := e) (by rw [List.getElem?_map, hj]; rfl)
  rw [← h2, List.getElem?_map, hx] at h4
  cases h4
  exact ⟨o, o', h5⟩

/-- The description that belongs to a reason: that of the library's error, or that of the exception that `isinstance` raised. -/
def PyDetails (I : PyTexts) : PyWhy → Option (List Byte)
  | .library => I.sprint.join
  | .instance => if I.fetched.encodes then I.fetched.repr else none
  | _ => none

/-- What an exception should tell: it is one of the interpreter's own, or it names the function that was called, gives the reason, and appends the description. -/
def PyTells (kinds : Nat → Kind) (I : PyTexts) (op : PyOp) (x : PyExc) (t : List Byte) : Prop :=
  t = I.own ∧ pyOwn op x ∨
    ∃ k f p why, pyReason kinds op = some (k, f, p) ∧ p why ∧ x = why.cls f ∧ t = pyText k f f why (PyDetails I why)

/-- C77 (partial: false for `calculate_hmac`, see `C77_hmac_wrong_name`, and for constructors, see `C77_constructor`). Every exception of every statement of every program tells the function that was called, the algorithm, the reason, and the
description of the library's error. -/
theorem C77_texts_partial (hC : Correct ch L) (kinds : Nat → Kind) (u : Kind → Bool) (al : Nat → Bool) (prog : List (PyOp × PyEnv × PyTexts)) (st : PyState (MixedMem L)) (hs : PyBuildStart st)
    (he : ∀ x ∈ prog, x.2.1.Ok ∧ x.2.2.Ok) (outs : List PyOutcome) (st' : PyState (MixedMem L)) (hp : PyText.program (.mixed ch L u al) kinds prog st = .ok (outs, st')) (j : Nat) (op : PyOp) (e : PyEnv) (I : PyTexts)
    (hj : prog[j]? = some (op, e, I)) (x : PyExc) (t : List Byte) (hx : outs[j]? = some (.raised x t)) (hnh : ∀ k args ok, op ≠ .calculateHmac k args ok) (hnc : ∀ i ok, op ≠ .create i ok) : PyTells kinds I op x t := by
  obtain ⟨hT, -⟩ := pyTextAt hC hs he hp hj hx
  rcases hT with ⟨rfl, ho⟩ | ⟨k, g, p, why, h1, h2, h3, h4⟩ | ⟨i, why, h1, -⟩
  · exact .inl ⟨rfl, ho⟩
  · refine .inr ⟨k, g, p, why, h1, h2, h3, ?_⟩
    have hg : g ≠ .calculateHmac := by
      rintro rfl
      cases op with
      | create i ok => exact hnc i ok rfl
      | createRaw i ok => cases h1
      | update i arg => cases arg <;> cases h1
      | calculate k arg ok => cases arg <;> cases h1
      | calculateHmac k arg ok => exact hnh k arg ok rfl
      | reinit i => cases h1
      | finalize i ok => cases h1
      | release i => cases h1
    rw [h4]
    have : namedFn g = g := by cases g <;> first | rfl | exact (hg rfl).elim
    rw [this]
    cases why <;> rfl
  · exact (hnc i true h1).elim

/-- C77 is false for `calculate_hmac`: its exceptions give the right reason and the right description, in the name of `calculate`. -/
theorem C77_hmac_names_calculate (hC : Correct ch L) (kinds : Nat → Kind) (u : Kind → Bool) (al : Nat → Bool) (prog : List (PyOp × PyEnv × PyTexts)) (st : PyState (MixedMem L)) (hs : PyBuildStart st)
    (he : ∀ x ∈ prog, x.2.1.Ok ∧ x.2.2.Ok) (outs : List PyOutcome) (st' : PyState (MixedMem L)) (hp : PyText.program (.mixed ch L u al) kinds prog st = .ok (outs, st')) (j : Nat) (k : Kind) (key data : PyArg) (ok : Bool) (e : PyEnv)
    (I : PyTexts) (hj : prog[j]? = some (.calculateHmac k (some (key, data)) ok, e, I)) (x : PyExc) (t : List Byte) (hx : outs[j]? = some (.raised x t)) :
    ∃ p why, pyReason kinds (.calculateHmac k (some (key, data)) ok) = some (k, .calculateHmac, p) ∧ p why ∧ x = why.cls .calculateHmac ∧ t = pyText k .calculate .calculateHmac why (PyDetails I why) := by
  obtain ⟨hT, o, o', hM⟩ := pyTextAt hC hs he hp hj hx
  rcases hT with ⟨rfl, ho⟩ | ⟨k', g, p, why, h1, h2, h3, h4⟩ | ⟨i, why, h1, -⟩
  · exfalso
    rcases ho with rfl | ho
    · simp only [pyMay] at hM
      rcases hk : pyKey key with y | kb
      · rw [hk] at hM
        cases key with
        | bytes b => simp only [pyKey] at hk; split at hk <;> cases hk; cases hM.1
        | pretender => cases hk; cases hM.1
        | other => cases hk; cases hM.1
        | broken => cases hk; cases hM.1
      · rw [hk] at hM
        simp only at hM
        rcases hd : pyBytes (some data) with y | b
        · rw [hd] at hM
          cases data with
          | bytes b => simp only [pyBytes] at hd; split at hd <;> cases hd; cases hM.1
          | pretender => cases hd; cases hM.1
          | other => cases hd; cases hM.1
          | broken => cases hd; cases hM.1
        · rw [hd] at hM
          rcases hM.2 with ⟨d, hd, -⟩ | ⟨hd, -⟩
          · cases ok <;> cases hd
          · cases hd
    · exact ho
  · simp only [pyReason, Option.some.injEq, Prod.mk.injEq] at h1
    obtain ⟨rfl, rfl, rfl⟩ := h1
    refine ⟨_, why, rfl, h2, h3, ?_⟩
    rw [h4]
    cases why <;> rfl
  · cases h1

/-- C77 is false for constructors: when the library cannot make a context, the exception is one of the release of the object. It names neither the function that failed nor the reason, and the description of the error is lost. -/
theorem C77_constructor (hC : Correct ch L) (kinds : Nat → Kind) (u : Kind → Bool) (al : Nat → Bool) (prog : List (PyOp × PyEnv × PyTexts)) (st : PyState (MixedMem L)) (hs : PyBuildStart st)
    (he : ∀ x ∈ prog, x.2.1.Ok ∧ x.2.2.Ok) (outs : List PyOutcome) (st' : PyState (MixedMem L)) (hp : PyText.program (.mixed ch L u al) kinds prog st = .ok (outs, st')) (j i : Nat) (e : PyEnv) (I : PyTexts)
    (hj : prog[j]? = some (.create i true, e, I)) (x : PyExc) (t : List Byte) (hx : outs[j]? = some (.raised x t)) :
    (x = .name ∧ t = I.own) ∨
      x = .value ∧ t = ascii ("pyhmac_" ++ pyKindName (kinds i) ++ "_context_free: invalid " ++ pyKindText (kinds i) ++ " context - missing libhmac " ++ pyKindText (kinds i) ++ " context.") := by
  obtain ⟨hT, o, o', hM⟩ := pyTextAt hC hs he hp hj hx
  have hc : x = .name ∨ x = .value := by
    simp only [pyMay] at hM
    rcases ho : o i with _ | y
    · rw [ho] at hM
      simp only [if_true] at hM
      rcases hM with ⟨h, -⟩ | ⟨h, -⟩ <;> cases h
      exact .inr rfl
    · rw [ho] at hM
      cases hM.1
      exact .inl rfl
  rcases hT with ⟨rfl, ho⟩ | ⟨k', g, p, why, h1, h2, h3, h4⟩ | ⟨i', why, h1, h2, h3, h4⟩
  · rcases ho with rfl | ⟨-, ho⟩
    · exact .inl ⟨rfl, rfl⟩
    · cases ho
  · simp only [pyReason, Option.some.injEq, Prod.mk.injEq] at h1
    obtain ⟨rfl, rfl, rfl⟩ := h1
    cases h2
    rcases hc with rfl | rfl <;> cases h3
  · simp only [PyOp.create.injEq, and_true] at h1
    cases h1
    rcases h2 with rfl | rfl
    · rcases hc with rfl | rfl <;> cases h3
    · refine .inr ⟨h3, ?_⟩
      rw [h4]
      show ascii (PyFn.free.name (kinds i) ++ ": " ++ PyWhy.context.text (kinds i) .free) = _
      cases kinds i <;> decide +kernel

/-- C77. A text tells which function failed, for which algorithm, and why: no two of these texts are the same, whatever descriptions follow. -/
theorem C77_tells_apart (k k' : Kind) (f f' : PyFn) (why why' : PyWhy) (d d' : Option (List Byte)) (h : pyText k f f why d = pyText k' f' f' why' d') : k = k' ∧ f = f' ∧ why = why' :=
  pyText_inj h

/-- C77. The text begins with the name of the function and a colon. -/
theorem C77_begins (k : Kind) (f g : PyFn) (why : PyWhy) (d : Option (List Byte)) : (pyText k f g why d).takeWhile (fun b => b ≠ 58) = ascii (f.name k) :=
  pyText_named k f g why d

/-- Texts for the examples: the library's description is "no memory" on two lines; `isinstance` raised nothing. -/
def pyTexts0 : PyTexts := ⟨some (some (ascii "no\nmemory" ++ List.replicate 2039 0)), ⟨false, some [], true⟩, List.replicate 2048 0, List.replicate 2048 0, ascii "own"⟩

theorem pyTexts0_ok : pyTexts0.Ok where
  exceptionString := List.length_replicate
  errorString := List.length_replicate
  sprint := by
    intro s hs
    simp only [pyTexts0, Option.some.injEq] at hs
    rw [← hs, List.length_append, List.length_replicate]
    simp [ascii]
  repr := rfl

/-- C77 is false for `calculate_hmac`: for data that is not a bytes object it raises, for every algorithm, in every build and every state, exactly the exception that `calculate` raises, and that does not begin with its own name. -/
theorem C77_hmac_wrong_name {M : Type} (P : PyLibrary M) (kinds : Nat → Kind) (e : PyEnv) (I : PyTexts) (st : PyState M) (k : Kind) :
    ∃ t, PyText.exec P kinds e I (.calculate k (some .other) true) st = .ok (.raised .type t, st) ∧ PyText.exec P kinds e I (.calculateHmac k (some (.bytes [1], .other)) true) st = .ok (.raised .type t, st) ∧
      t.takeWhile (fun b => b ≠ 58) = ascii ("pyhmac_" ++ pyKindName k ++ "_calculate") ∧ t.takeWhile (fun b => b ≠ 58) ≠ ascii (PyFn.calculateHmac.name k) := by
  refine ⟨PyText.message (PyFn.calculate.name k) "unsupported bytes object type", ?_, ?_, ?_, ?_⟩
  · rw [← PyText.name_calculate]
    rfl
  · rw [← PyText.name_calculate]
    rfl
  · exact pyText_named k .calculate .calculate .type none
  · intro h
    rw [show PyText.message (PyFn.calculate.name k) "unsupported bytes object type" = pyText k .calculate .calculate .type none from rfl, pyText_named] at h
    exact absurd (pyName_inj h).2 (by decide)

/-- A program whose statements fail in several ways. -/
def pyTextProg : List (PyOp × PyEnv × PyTexts) :=
  [(.create 0 true, pyEnv0, pyTexts0), (.update 0 (some .other), pyEnv0, pyTexts0), (.calculateHmac .md5 (some (.bytes [1], .pretender)) true, pyEnv0, pyTexts0), (.createRaw 1 true, pyEnv0, pyTexts0),
   (.update 1 (some (.bytes [1])), pyEnv0, pyTexts0)]

theorem pyTextProg_ok : ∀ x ∈ pyTextProg, x.2.1.Ok ∧ x.2.2.Ok := by
  intro x hx
  simp only [pyTextProg, List.mem_cons, List.not_mem_nil, or_false] at hx
  rcases hx with rfl | rfl | rfl | rfl | rfl <;> exact ⟨pyEnv0_ok, pyTexts0_ok⟩

/-- C77 (partial, as above). Two statements of two programs, in any builds, that raise the same text which is not one of the interpreter's: the same function failed for the same algorithm and the same reason. -/
theorem C77_cause_partial (hC : Correct ch L) {ch' : Kind → Choice} {L' : Kind → Library} (hC' : Correct ch' L') (kinds kinds' : Nat → Kind) (u u' : Kind → Bool) (al al' : Nat → Bool)
    (prog prog' : List (PyOp × PyEnv × PyTexts)) (st : PyState (MixedMem L)) (st2 : PyState (MixedMem L')) (hs : PyBuildStart st) (hs' : PyBuildStart st2)
    (he : ∀ x ∈ prog, x.2.1.Ok ∧ x.2.2.Ok) (he' : ∀ x ∈ prog', x.2.1.Ok ∧ x.2.2.Ok) (outs outs' : List PyOutcome) (st1 : PyState (MixedMem L)) (st3 : PyState (MixedMem L'))
    (hp : PyText.program (.mixed ch L u al) kinds prog st = .ok (outs, st1)) (hp' : PyText.program (.mixed ch' L' u' al') kinds' prog' st2 = .ok (outs', st3))
    (j j' : Nat) (op op' : PyOp) (e e' : PyEnv) (I I' : PyTexts) (hj : prog[j]? = some (op, e, I)) (hj' : prog'[j']? = some (op', e', I')) (x x' : PyExc) (t : List Byte) (hx : outs[j]? = some (.raised x t))
    (hx' : outs'[j']? = some (.raised x' t)) (hnh : ∀ k args ok, op ≠ .calculateHmac k args ok ∧ op' ≠ .calculateHmac k args ok) (hnc : ∀ i ok, op ≠ .create i ok ∧ op' ≠ .create i ok) (ho : t ≠ I.own) (ho' : t ≠ I'.own) :
    ∃ k f why p p', pyReason kinds op = some (k, f, p) ∧ pyReason kinds' op' = some (k, f, p') ∧ p why ∧ p' why ∧ x = why.cls f ∧ x' = x := by
  rcases C77_texts_partial hC kinds u al prog st hs he outs st1 hp j op e I hj x t hx (fun k a b => (hnh k a b).1) (fun i b => (hnc i b).1) with ⟨h, -⟩ | ⟨k, f, p, why, h1, h2, h3, h4⟩
  · exact absurd h ho
  rcases C77_texts_partial hC' kinds' u' al' prog' st2 hs' he' outs' st3 hp' j' op' e' I' hj' x' t hx' (fun k a b => (hnh k a b).2) (fun i b => (hnc i b).2) with ⟨h, -⟩ | ⟨k', f', p', why', h1', h2', h3', h4'⟩
  · exact absurd h ho'
  obtain ⟨rfl, rfl, rfl⟩ := pyText_inj (h4.symm.trans h4')
  exact ⟨k, f, why, p, p', h1, h1', h2, h2', h3, h3'.trans h3.symm⟩

/-- The outcomes of that program where MD5 and SHA-224 are of a crypto library. -/
theorem pyTextProg_runs (kinds : Nat → Kind) (u : Kind → Bool) : ∃ outs st', PyText.program (.mixed choice0 exactLibrary u (fun _ => true)) kinds pyTextProg (pyBuild0 _) = .ok (outs, st') ∧
    outs.map PyOutcome.result = [.none, .raised .type, .raised .value, .none, .raised .io] := by
  have hlim : ∀ k, 200 ≤ (choice0 k).limit := by intro k; cases k <;> simp [choice0, Choice.limit, Backend.maxUpdate, maxSize, ssizeMax]
  obtain ⟨fails, st', hlen, e, hf⟩ := C76_same exact_correct (fun k _ => exact_reliable k) kinds u (fun _ => true) (pyTextProg.map fun x => (x.1, x.2.1)) (pyBuild0 _) (pyBuild0_start _) (by
    intro y hy
    obtain ⟨z, hz, rfl⟩ := List.mem_map.1 hy
    exact (pyTextProg_ok z hz).1) (by simp [pyTextProg, pyOnce]) (by
    intro x hx
    simp only [pyTextProg, List.map_cons, List.map_nil, List.mem_cons, List.not_mem_nil, or_false] at hx
    rcases hx with rfl | rfl | rfl | rfl | rfl <;> simp only [PyOp.Fits, List.length_cons, List.length_nil]
    exact Nat.le_trans (by omega) (hlim _)) (by decide)
  have hfs : fails = List.replicate 5 false := List.eq_replicate_iff.2 ⟨hlen, hf (fun _ => rfl)⟩
  obtain ⟨outs, h1, h2⟩ := C77_results _ kinds pyTextProg (pyBuild0 _) (fun x hx => (pyTextProg_ok x hx).2) _ st' e
  refine ⟨outs, st', h1, ?_⟩
  rw [h2, hfs]
  simp [pyTextProg, pyRun, pyStep, pyBytes, pyKey, maxSize]

theorem raised_at {outs : List PyOutcome} {rs : List PyResult} (h : outs.map PyOutcome.result = rs) {j : Nat} {x : PyExc} (hj : rs[j]? = some (.raised x)) : ∃ t, outs[j]? = some (.raised x t) := by
  rw [← h, List.getElem?_map] at hj
  cases ho : outs[j]? with
  | none => rw [ho] at hj; cases hj
  | some o =>
    rw [ho] at hj
    cases o with
    | none => cases hj
    | bytes b => cases hj
    | raised y t => cases hj; exact ⟨t, rfl⟩

example (kinds : Nat → Kind) (u : Kind → Bool) : ∃ outs st', PyText.program (.mixed choice0 exactLibrary u (fun _ => true)) kinds pyTextProg (pyBuild0 _) = .ok (outs, st') ∧
    ∃ t1 t2 t4, outs[1]? = some (.raised .type t1) ∧ outs[2]? = some (.raised .value t2) ∧ outs[4]? = some (.raised .io t4) ∧ PyTells kinds pyTexts0 (.update 0 (some .other)) .type t1 ∧
      PyTells kinds pyTexts0 (.update 1 (some (.bytes [1]))) .io t4 ∧ t2 = pyText .md5 .calculate .calculateHmac .size none := by
  obtain ⟨outs, st', h1, h2⟩ := pyTextProg_runs kinds u
  obtain ⟨t1, e1⟩ := raised_at h2 (j := 1) (x := .type) rfl
  obtain ⟨t2, e2⟩ := raised_at h2 (j := 2) (x := .value) rfl
  obtain ⟨t4, e4⟩ := raised_at h2 (j := 4) (x := .io) rfl
  refine ⟨outs, st', h1, t1, t2, t4, e1, e2, e4, ?_, ?_, ?_⟩
  · exact C77_texts_partial exact_correct kinds u _ pyTextProg _ (pyBuild0_start _) pyTextProg_ok outs st' h1 1 _ pyEnv0 pyTexts0 rfl .type t1 e1 (by simp) (by simp)
  · exact C77_texts_partial exact_correct kinds u _ pyTextProg _ (pyBuild0_start _) pyTextProg_ok outs st' h1 4 _ pyEnv0 pyTexts0 rfl .io t4 e4 (by simp) (by simp)
  · obtain ⟨p, why, g1, g2, -, g4⟩ := C77_hmac_names_calculate exact_correct kinds u _ pyTextProg _ (pyBuild0_start _) pyTextProg_ok outs st' h1 2 .md5 (.bytes [1]) .pretender true pyEnv0 pyTexts0 rfl .value t2 e2
    simp only [pyReason, Option.some.injEq, Prod.mk.injEq, true_and] at g1
    subst g1
    have hk : (pyDataWhy (.bytes [1])).isSome = false := by simp [pyDataWhy, maxSize]
    simp only [hk, Bool.false_eq_true, pyDataWhy] at g2
    subst g2
    exact g4

/-- A constructor that finds no memory, in a build with the built-in functions: the text names the release of the object. -/
example (u : Kind → Bool) : ∃ outs st' t, PyText.program (.mixed (fun _ => .builtin) exactLibrary u (fun _ => false)) (fun _ => .sha256) [(.create 0 true, pyEnv0, pyTexts0)] (pyBuild0 _) = .ok (outs, st') ∧
    outs[0]? = some (.raised .value t) ∧ t = ascii ("pyhmac_sha256_context_free: invalid SHA256 context - missing libhmac SHA256 context.") := by
  have he : ∀ x ∈ [(PyOp.create 0 true, pyEnv0, pyTexts0)], x.2.1.Ok ∧ x.2.2.Ok := by
    intro x hx
    simp only [List.mem_cons, List.not_mem_nil, or_false] at hx
    subst hx
    exact ⟨pyEnv0_ok, pyTexts0_ok⟩
  have hr : ∃ st', PyBuilds.program (.mixed (fun _ => .builtin) exactLibrary u (fun _ => false)) (fun _ => .sha256) [(.create 0 true, pyEnv0)] (pyBuild0 _) = .ok ([.raised .value], st') := ⟨_, rfl⟩
  obtain ⟨st', hr⟩ := hr
  obtain ⟨outs, h1, h2⟩ := C77_results _ (fun _ => .sha256) [(.create 0 true, pyEnv0, pyTexts0)] (pyBuild0 _) (fun x hx => (he x hx).2) _ st' hr
  obtain ⟨t, ht⟩ := raised_at h2 (j := 0) (x := .value) rfl
  refine ⟨outs, st', t, h1, ht, ?_⟩
  rcases C77_constructor (fun _ h => (h rfl).elim) (fun _ => .sha256) u _ _ _ (pyBuild0_start _) he outs st' h1 0 0 pyEnv0 pyTexts0 rfl .value t ht with ⟨h, -⟩ | ⟨-, h⟩
  · cases h
  · exact h

end Props
