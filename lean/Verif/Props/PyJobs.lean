import Verif.Proofs.PyJobs
import Verif.Props.PyThreads
/-! C70: Python threads that make any calls, with objects of their own or with locks. -/

namespace Props

open Model Spec

/-- The context stands for the object, as the specification has it. -/
def Holds {kinds : Nat → Kind} (st : PyObjects kinds) (o : Nat) (c : Ctx (kinds o).width) : Prop :=
  ∃ h0 m, st o = some (some (h0, m)) ∧ h0.length = (algOf (kinds o)).nHash ∧ Rep (algOf (kinds o)) (kinds o).len64 h0 m c

/-- A whole call, alone on its object. -/
theorem call_ok {kinds : Nat → Kind} (u : Bool) (call : PyCall) (scr : Scr (kinds call.obj).width) (hscr : Kind.Junk (kinds call.obj) scr) (out : List Byte) (hout : out.length = (kinds call.obj).hashSize) (st : PyObjects kinds)
    (c : Ctx (kinds call.obj).width) (hc : Holds st call.obj c) :
    (∀ r, jobCall call = .inl r → pyStep kinds false call.op st = (r, st)) ∧
    (∀ pc, jobCall call = .inr pc → ∃ c', Leads (algOf (kinds call.obj)) u scr out pc c (pyStep kinds false call.op st).1 c' ∧ Holds (pyStep kinds false call.op st).2 call.obj c') ∧
    ∀ o, o ≠ call.obj → (pyStep kinds false call.op st).2 o = st o := by
  obtain ⟨h0, m, hst, hl, hr⟩ := hc
  obtain ⟨enc, L⟩ := lawful (kinds call.obj)
  cases call with
  | update o arg =>
    dsimp only [PyCall.obj] at *
    unfold jobCall PyCall.op pyStep
    dsimp only
    rw [hst, ← pyData_eq]
    dsimp only
    cases hd : pyData arg with
    | inl x => exact ⟨fun r h => (by cases h; rfl), fun pc h => (by cases h), fun _ _ => rfl⟩
    | inr b =>
      refine ⟨fun r h => (by cases h), fun pc h => ?_, fun o' ho => Function.update_of_ne ho _ _⟩
      cases h
      have hb : b.length ≤ ssizeMax := by
        rw [pyData_eq] at hd
        unfold pyBytes at hd
        split at hd <;> try cases hd
        rw [← maxSize_eq]
        split at hd
        · cases hd; assumption
        · cases hd
      obtain ⟨c', e, hr'⟩ := ctxUpdate_ok L hl u scr (scrOk_of_junk hscr) c b b.length hb (Nat.le_refl _) hr
      rw [List.take_length] at hr'
      exact ⟨c', leads_upd _ u scr out o b 1 c' 14 .enter c (enter_iter _ u scr b 0 c c' 1 e), h0, m ++ b, Function.update_self .., hl, hr'⟩
  | finalize o ok =>
    dsimp only [PyCall.obj] at *
    unfold jobCall PyCall.op pyStep
    dsimp only
    rw [hst]
    dsimp only
    refine ⟨fun r h => (by cases h), fun pc h => ?_, fun o' ho => Function.update_of_ne ho _ _⟩
    cases h
    have hsize : (kinds o).hashSize ≤ ssizeMax := by cases kinds o <;> decide
    have e := ctxFinalize_ok L hl u scr (scrOk_of_junk hscr) c out (kinds o).hashSize hsize (by rw [algOf_hashSize]) (by rw [hout]) hr
    rw [algOf_hashSize, List.drop_of_length_le (by rw [hout]), List.append_nil, ← algOf_hashSize] at e
    refine ⟨zeroCtx (algOf (kinds o)), leads_fin _ u scr out o ok 1 _ _ 9 .enter c (fin_iter _ u scr out _ c _ 1 _ e), _, _, Function.update_self .., ?_, ?_⟩
    · rw [algOf_nHash, List.length_replicate]
    · rw [← algOf_nHash]
      exact zeroCtx_rep L

/-- The threads are where they are after the calls in `S` have been begun, in the order of their beginnings. -/
structure JobsOk {kinds : Nat → Kind} (u : Bool) (scr : Nat → (k : Kind) → Scr k.width) (out : Nat → Kind → List Byte) (W : PyJobs kinds) (S : PySerial kinds) : Prop where
  todo : ∀ t, (W.threads t).todo = S.todo t
  idle : ∀ t, (W.threads t).pc.obj = none → (W.threads t).results = S.results t
  busy : ∀ t o, (W.threads t).pc.obj = some o → W.locks o = some t ∧ ∃ r c', (W.threads t).results ++ [r] = S.results t ∧
    Leads (algOf (kinds o)) u (scr t (kinds o)) (out t (kinds o)) (W.threads t).pc (W.ctxs o) r c' ∧ Holds S.objects o c'
  free : ∀ o, W.locks o = none → Holds S.objects o (W.ctxs o)
  owner : ∀ o t, W.locks o = some t → (W.threads t).pc.obj = some o

theorem run_snoc {kinds : Nat → Kind} (S : PySerial kinds) (t : Nat) : S.run [t] = S.next t := rfl

/-- One step keeps that. -/
theorem jobStep_ok {kinds : Nat → Kind} (locking u : Bool) (scr : Nat → (k : Kind) → Scr k.width) (hscr : ∀ t k, Kind.Junk k (scr t k)) (out : Nat → Kind → List Byte) (hout : ∀ t k, (out t k).length = k.hashSize) (t : Nat)
    (W : PyJobs kinds) (S : PySerial kinds) (h : JobsOk u scr out W S)
    (hfree : locking = true ∨ ∀ call rest, (W.threads t).pc.obj = none → (W.threads t).todo = call :: rest → W.locks call.obj = none) :
    ∃ W' l, jobStep locking u scr out t W = .ok W' ∧ W'.log = W.log ++ l ∧ JobsOk u scr out W' (S.run l) := by
  unfold jobStep
  dsimp only
  cases ho : (W.threads t).pc.obj with
  | none =>
    dsimp only
    cases htodo : (W.threads t).todo with
    | nil => exact ⟨W, [], rfl, by simp, h⟩
    | cons call rest =>
      dsimp only
      by_cases hb : (locking && (W.locks call.obj).isSome) = true
      · rw [if_pos hb]
        exact ⟨W, [], rfl, by simp, h⟩
      rw [if_neg hb]
      have hl : W.locks call.obj = none := by
        rcases hfree with hlk | hf
        · rw [hlk] at hb
          simpa using hb
        · exact hf call rest ho htodo
      refine ⟨_, [t], rfl, rfl, ?_⟩
      rw [run_snoc]
      have hs : S.todo t = call :: rest := by rw [← h.todo, htodo]
      obtain ⟨h1, h2, h3⟩ := call_ok u call (scr t _) (hscr t _) (out t _) (hout t _) S.objects _ (h.free _ hl)
      unfold PySerial.next
      rw [hs]
      dsimp only
      cases hj : jobCall call with
      | inl r =>
        rw [h1 r hj]
        dsimp only [jobGo, Sum.isRight]
        refine ⟨?_, ?_, ?_, ?_, ?_⟩
        · intro t'
          by_cases ht : t' = t
          · subst ht; simp
          · simp [ht, h.todo]
        · intro t'
          by_cases ht : t' = t
          · subst ht
            simp [h.idle _ ho]
          · simpa [ht] using h.idle t'
        · intro t' o
          by_cases ht : t' = t
          · subst ht
            simp [JobPc.obj]
          · simpa [ht] using h.busy t' o
        · simpa using h.free
        · intro o t' hlo
          have hlo : W.locks o = some t' := by simpa using hlo
          have hne : t' ≠ t := fun e => by
            have := h.owner o t' hlo
            rw [e, ho] at this
            cases this
          simpa [hne] using h.owner o t' hlo
      | inr pc =>
        obtain ⟨c', hle, hho⟩ := h2 pc hj
        have hpc := (jobCall_left call pc hj).1
        dsimp only [jobGo, Sum.isRight]
        refine ⟨?_, ?_, ?_, ?_, ?_⟩
        · intro t'
          by_cases ht : t' = t
          · subst ht; simp
          · simp [ht, h.todo]
        · intro t'
          by_cases ht : t' = t
          · subst ht
            simp [hpc]
          · simpa [ht] using h.idle t'
        · intro t' o hto
          by_cases ht : t' = t
          · subst ht
            simp only [Function.update_self] at hto ⊢
            rw [hpc] at hto
            cases hto
            refine ⟨by simp, _, c', ?_, hle, hho⟩
            rw [h.idle _ ho]
          · simp only [Function.update_of_ne ht] at hto ⊢
            obtain ⟨hk, r, c'', hr, hl', hh⟩ := h.busy t' o hto
            have hne : o ≠ call.obj := fun e => by
              rw [e, hl] at hk
              cases hk
            refine ⟨by simpa [hne] using hk, r, c'', hr, hl', ?_⟩
            obtain ⟨h0, m, hst, x⟩ := hh
            exact ⟨h0, m, (h3 o hne).trans hst, x⟩
        · intro o hlo
          by_cases hne : o = call.obj
          · subst hne; simp at hlo
          · obtain ⟨h0, m, hst, x⟩ := h.free o (by simpa [hne] using hlo)
            exact ⟨h0, m, (h3 o hne).trans hst, x⟩
        · intro o t' hlo
          by_cases hne : o = call.obj
          · subst hne
            simp only [Function.update_self, if_true] at hlo
            cases hlo
            simpa using hpc
          · have hlo : W.locks o = some t' := by simpa [hne] using hlo
            have ht : t' ≠ t := fun e => by
              have := h.owner o t' hlo
              rw [e, ho] at this
              cases this
            simpa [ht] using h.owner o t' hlo
  | some o =>
    dsimp only
    obtain ⟨hk, r, c', hr, hle, hho⟩ := h.busy t o ho
    cases hle with
    | ret e =>
      rw [e]
      refine ⟨_, [], rfl, by simp, ?_⟩
      dsimp only [jobGo, Sum.isLeft, PySerial.run, List.foldl]
      refine ⟨?_, ?_, ?_, ?_, ?_⟩
      · intro t'
        by_cases ht : t' = t
        · subst ht; simp [h.todo]
        · simp [ht, h.todo]
      · intro t'
        by_cases ht : t' = t
        · subst ht
          simp [hr]
        · simpa [ht] using h.idle t'
      · intro t' o' hto
        by_cases ht : t' = t
        · subst ht
          simp [JobPc.obj] at hto
        · simp only [Function.update_of_ne ht] at hto ⊢
          have hb := h.busy t' o' hto
          have hne : o' ≠ o := fun e => by
            subst e
            rw [hk] at hb
            exact ht (Option.some.inj hb.1).symm
          simpa [hne] using hb
      · intro o' hlo
        by_cases hne : o' = o
        · subst hne; simpa using hho
        · simpa [hne] using h.free o' (by simpa [hne] using hlo)
      · intro o' t' hlo
        by_cases hne : o' = o
        · subst hne; simp at hlo
        · have hlo : W.locks o' = some t' := by simpa [hne] using hlo
          have ht : t' ≠ t := fun e => by
            have := h.owner o' t' hlo
            rw [e, ho] at this
            exact hne (Option.some.inj this).symm
          simpa [ht] using h.owner o' t' hlo
    | @step pc pc₁ c c₁ r c' e hob hle =>
      rw [e]
      refine ⟨_, [], rfl, by simp, ?_⟩
      dsimp only [jobGo, Sum.isLeft, PySerial.run, List.foldl]
      rw [ho] at hob
      refine ⟨?_, ?_, ?_, ?_, ?_⟩
      · intro t'
        by_cases ht : t' = t
        · subst ht; simp [h.todo]
        · simp [ht, h.todo]
      · intro t'
        by_cases ht : t' = t
        · subst ht
          simp [hob]
        · simpa [ht] using h.idle t'
      · intro t' o' hto
        by_cases ht : t' = t
        · subst ht
          simp only [Function.update_self] at hto ⊢
          rw [hob] at hto
          cases hto
          exact ⟨by simpa using hk, r, c', hr, by simpa using hle, hho⟩
        · simp only [Function.update_of_ne ht] at hto ⊢
          have hb := h.busy t' o' hto
          have hne : o' ≠ o := fun e => by
            subst e
            rw [hk] at hb
            exact ht (Option.some.inj hb.1).symm
          simpa [hne] using hb
      · intro o' hlo
        by_cases hne : o' = o
        · subst hne
          simp [hk] at hlo
        · simpa [hne] using h.free o' (by simpa [hne] using hlo)
      · intro o' t' hlo
        have hk' : W.locks o' = some t' := by
          by_cases hne : o' = o
          · subst hne; simpa using hlo
          · simpa [hne] using hlo
        by_cases ht : t' = t
        · subst ht
          have := h.owner o' t' hk'
          rw [ho] at this
          cases this
          simpa using hob
        · simpa [ht] using h.owner o' t' hk'

theorem serial_append {kinds : Nat → Kind} (S : PySerial kinds) (a b : List Nat) : S.run (a ++ b) = (S.run a).run b := List.foldl_append ..

/-- A run with locks keeps that. -/
theorem jobsRun_ok {kinds : Nat → Kind} (u : Bool) (scr : Nat → (k : Kind) → Scr k.width) (hscr : ∀ t k, Kind.Junk k (scr t k)) (out : Nat → Kind → List Byte) (hout : ∀ t k, (out t k).length = k.hashSize) :
    ∀ (sched : List Nat) (W : PyJobs kinds) (S : PySerial kinds), JobsOk u scr out W S → ∃ W' l, jobsRun true u scr out sched W = .ok W' ∧ W'.log = W.log ++ l ∧ JobsOk u scr out W' (S.run l)
  | [], W, S, h => ⟨W, [], rfl, by simp, h⟩
  | t :: ts, W, S, h => by
    obtain ⟨W₁, l₁, e₁, hl₁, h₁⟩ := jobStep_ok true u scr hscr out hout t W S h (.inl rfl)
    obtain ⟨W', l, e, hl, h'⟩ := jobsRun_ok u scr hscr out hout ts W₁ _ h₁
    refine ⟨W', l₁ ++ l, ?_, ?_, ?_⟩
    · show jobStep true u scr out t W >>= _ = _
      rw [e₁]
      exact e
    · rw [hl, hl₁, List.append_assoc]
    · rw [serial_append]
      exact h'

/-- The threads before they begin: thread `t` has the calls `prog t` to make, and object `o` is new and has been given the bytes `m o`. -/
structure Begin {kinds : Nat → Kind} (W : PyJobs kinds) (prog : Nat → List PyCall) (m : Nat → List Byte) : Prop where
  threads : ∀ t, W.threads t = ⟨prog t, [], .idle⟩
  ctxs : ∀ o, Given (kinds o) (m o) (W.ctxs o)
  locks : ∀ o, W.locks o = none
  log : W.log = []

/-- What the threads would see if they made whole calls one after the other, in this order. -/
def oneAfterTheOther (kinds : Nat → Kind) (prog : Nat → List PyCall) (m : Nat → List Byte) (order : List Nat) : PySerial kinds := PySerial.run ⟨prog, fun _ => [], newObjects kinds m⟩ order

theorem begin_ok {kinds : Nat → Kind} (u : Bool) (scr : Nat → (k : Kind) → Scr k.width) (out : Nat → Kind → List Byte) {W : PyJobs kinds} {prog : Nat → List PyCall} {m : Nat → List Byte} (hB : Begin W prog m) :
    JobsOk u scr out W ⟨prog, fun _ => [], newObjects kinds m⟩ := by
  refine ⟨fun t => ?_, fun t _ => ?_, fun t o h => ?_, fun o _ => ?_, fun o t h => ?_⟩
  · rw [hB.threads]
  · rw [hB.threads]
  · rw [hB.threads] at h
    cases h
  · exact ⟨_, _, rfl, by rw [algOf_nHash]; exact iv_length _, given_rep (hB.ctxs o)⟩
  · rw [hB.locks] at h
    cases h

theorem holds_digests {kinds : Nat → Kind} {st : PyObjects kinds} {o : Nat} {c : Ctx (kinds o).width} (h : Holds st o c) : ∃ h0 m, st o = some (some (h0, m)) ∧ Digests (kinds o) c ((kinds o).len64.digestFrom h0 m) := by
  obtain ⟨h0, m, hst, hl, hr⟩ := h
  refine ⟨h0, m, hst, ?_⟩
  obtain ⟨enc, L⟩ := lawful (kinds o)
  intro u scr out n hj h1 h2 h3
  have := ctxFinalize_ok L hl u scr (scrOk_of_junk hj) c out n h2 (by rw [algOf_hashSize]; exact h1) h3 hr
  rw [algOf_hashSize] at this
  exact this

theorem idle_obj {pc : JobPc} : pc.obj = none ↔ pc = .idle := by cases pc <;> simp [JobPc.obj]

/-- C70. Any number of threads that call `update` and `finalize` on objects of any kinds, shared or not, with a lock for each object that is held during each call on it, in any interleaving: no undefined behaviour, and the results are
those of whole calls made one after the other, in the order in which the calls began. So are the objects: an object whose lock is free stands for the message that it would have then. -/
theorem C70_locked (kinds : Nat → Kind) (u : Bool) (scr : Nat → (k : Kind) → Scr k.width) (hscr : ∀ t k, Kind.Junk k (scr t k)) (out : Nat → Kind → List Byte) (hout : ∀ t k, (out t k).length = k.hashSize)
    (W : PyJobs kinds) (prog : Nat → List PyCall) (m : Nat → List Byte) (hB : Begin W prog m) (sched : List Nat) :
    ∃ W', jobsRun true u scr out sched W = .ok W' ∧ (∀ t, (W'.threads t).todo = (oneAfterTheOther kinds prog m W'.log).todo t) ∧
      (∀ t, (W'.threads t).pc = .idle → (W'.threads t).results = (oneAfterTheOther kinds prog m W'.log).results t) ∧
      (∀ t, (W'.threads t).pc ≠ .idle → ∃ r, (W'.threads t).results ++ [r] = (oneAfterTheOther kinds prog m W'.log).results t) ∧
      ∀ o, W'.locks o = none → ∃ h0 m', (oneAfterTheOther kinds prog m W'.log).objects o = some (some (h0, m')) ∧ Digests (kinds o) (W'.ctxs o) ((kinds o).len64.digestFrom h0 m') := by
  obtain ⟨W', l, e, hl, h⟩ := jobsRun_ok u scr hscr out hout sched W _ (begin_ok u scr out hB)
  rw [hB.log, List.nil_append] at hl
  subst hl
  refine ⟨W', e, h.todo, fun t ht => h.idle t (idle_obj.mpr ht), fun t ht => ?_, fun o ho => holds_digests (h.free o ho)⟩
  cases ho : (W'.threads t).pc.obj with
  | none => exact absurd (idle_obj.mp ho) ht
  | some o =>
    obtain ⟨-, r, c', hr, -⟩ := h.busy t o ho
    exact ⟨r, hr⟩

/-! ## No thread waits for ever -/

/-- A thread that is in a call returns from it. -/
theorem finish {kinds : Nat → Kind} (u : Bool) (scr : Nat → (k : Kind) → Scr k.width) (hscr : ∀ t k, Kind.Junk k (scr t k)) (out : Nat → Kind → List Byte) (hout : ∀ t k, (out t k).length = k.hashSize) (t : Nat) :
    ∀ (n : Nat) (W : PyJobs kinds) (S : PySerial kinds), JobsOk u scr out W S → ∀ o, (W.threads t).pc.obj = some o → (W.threads t).pc.left ≤ n →
      ∃ i W', i ≤ n ∧ jobsRun true u scr out (List.replicate i t) W = .ok W' ∧ (W'.threads t).pc = .idle ∧ (W'.threads t).results.length = (W.threads t).results.length + 1
  | 0, W, S, h, o, ho, hn => by
    cases hp : (W.threads t).pc <;> rw [hp] at ho hn
    · cases ho
    · simp [JobPc.left] at hn
    · simp [JobPc.left] at hn
  | n + 1, W, S, h, o, ho, hn => by
    obtain ⟨W₁, l, e₁, -, h₁⟩ := jobStep_ok true u scr hscr out hout t W S h (.inl rfl)
    have e := e₁
    unfold jobStep at e
    dsimp only at e
    rw [ho] at e
    dsimp only at e
    obtain ⟨⟨x, c⟩, hx, e⟩ := Res.bind_eq_ok e
    have hW := Res.ok.inj e
    cases x with
    | inl r =>
      refine ⟨1, W₁, by omega, ?_, ?_, ?_⟩
      · show jobStep true u scr out t W >>= _ = _
        rw [e₁]
        rfl
      · rw [← hW]
        simp [jobGo]
      · rw [← hW]
        simp [jobGo]
    | inr pc =>
      subst hW
      obtain ⟨hob, hlt⟩ := libStep_left _ _ _ _ _ _ _ _ o ho hx pc rfl
      obtain ⟨i, W', hi, e', hid, hr⟩ := finish u scr hscr out hout t n _ _ h₁ o (by simpa [jobGo] using hob) (by simp [jobGo]; omega)
      refine ⟨i + 1, W', by omega, ?_, hid, ?_⟩
      · rw [List.replicate_succ]
        show jobStep true u scr out t W >>= _ = _
        rw [e₁]
        exact e'
      · rw [hr]
        simp [jobGo]

/-- C70. With locks there is no deadlock: at any moment, if some thread has still something to do, then it, or the thread that holds the lock it waits for, returns from a call if it gets at most 16 steps. -/
theorem C70_no_deadlock (kinds : Nat → Kind) (u : Bool) (scr : Nat → (k : Kind) → Scr k.width) (hscr : ∀ t k, Kind.Junk k (scr t k)) (out : Nat → Kind → List Byte) (hout : ∀ t k, (out t k).length = k.hashSize)
    (W : PyJobs kinds) (prog : Nat → List PyCall) (m : Nat → List Byte) (hB : Begin W prog m) (sched : List Nat) (W' : PyJobs kinds) (e : jobsRun true u scr out sched W = .ok W') (t : Nat)
    (ht : (W'.threads t).pc ≠ .idle ∨ (W'.threads t).todo ≠ []) :
    ∃ t' i W'', i ≤ 16 ∧ jobsRun true u scr out (List.replicate i t') W' = .ok W'' ∧ (W''.threads t').results.length = (W'.threads t').results.length + 1 ∧
      (t' = t ∨ ∃ call rest, (W'.threads t).todo = call :: rest ∧ W'.locks call.obj = some t') := by
  obtain ⟨W₁, l, e₁, hl, h⟩ := jobsRun_ok u scr hscr out hout sched W _ (begin_ok u scr out hB)
  rw [e] at e₁
  cases e₁
  have left15 : ∀ pc : JobPc, pc.left ≤ 15 := by
    intro pc
    cases pc with
    | idle => simp [JobPc.left]
    | upd o b pc => cases pc <;> simp [JobPc.left, UpdPc.left]
    | fin o ok pc => cases pc <;> simp [JobPc.left, FinPc.left]
  have go : ∀ t o, (W'.threads t).pc.obj = some o → ∃ i W'', i ≤ 16 ∧ jobsRun true u scr out (List.replicate i t) W' = .ok W'' ∧ (W''.threads t).results.length = (W'.threads t).results.length + 1 := by
    intro t o ho
    obtain ⟨i, W'', hi, e', -, hr⟩ := finish u scr hscr out hout t 15 W' _ h o ho (left15 _)
    exact ⟨i, W'', by omega, e', hr⟩
  cases ho : (W'.threads t).pc.obj with
  | some o =>
    obtain ⟨i, W'', hi, e', hr⟩ := go t o ho
    exact ⟨t, i, W'', hi, e', hr, .inl rfl⟩
  | none =>
    cases htodo : (W'.threads t).todo with
    | nil =>
      rcases ht with ht | ht
      · exact absurd (idle_obj.mp ho) ht
      · exact absurd htodo ht
    | cons call rest =>
      cases hlk : W'.locks call.obj with
      | some t' =>
        obtain ⟨i, W'', hi, e', hr⟩ := go t' _ (h.owner _ _ hlk)
        exact ⟨t', i, W'', hi, e', hr, .inr ⟨call, rest, rfl, hlk⟩⟩
      | none =>
        obtain ⟨W₁, l₁, e₁, -, h₁⟩ := jobStep_ok true u scr hscr out hout t W' _ h (.inl rfl)
        have e₂ := e₁
        unfold jobStep at e₂
        dsimp only at e₂
        rw [ho, htodo] at e₂
        dsimp only at e₂
        rw [hlk] at e₂
        cases hj : jobCall call with
        | inl r =>
          rw [hj] at e₂
          have hW := Res.ok.inj e₂
          refine ⟨t, 1, W₁, by omega, ?_, ?_, .inl rfl⟩
          · show jobStep true u scr out t W' >>= _ = _
            rw [e₁]
            rfl
          · rw [← hW]
            simp [jobGo]
        | inr pc =>
          rw [hj] at e₂
          cases e₂
          obtain ⟨hob, hleft⟩ := jobCall_left call pc hj
          obtain ⟨i, W'', hi, e', -, hr⟩ := finish u scr hscr out hout t 15 _ _ h₁ call.obj (by simpa [jobGo] using hob) (by simpa [jobGo] using hleft)
          refine ⟨t, i + 1, W'', by omega, ?_, ?_, .inl rfl⟩
          · rw [List.replicate_succ]
            show jobStep true u scr out t W' >>= _ = _
            rw [e₁]
            exact e'
          · rw [hr]
            simp [jobGo]

/-! ## Every call returns, whatever the threads do -/

/-- A thread has at most so many steps to make. -/
def jobLeft (j : PyJob) : Nat := 16 * j.todo.length + j.pc.left

theorem left_zero (pc : JobPc) : pc.left = 0 ↔ pc = .idle := by cases pc <;> simp [JobPc.left]

theorem jobStep_threads {kinds : Nat → Kind} {u : Bool} {scr : Nat → (k : Kind) → Scr k.width} {out : Nat → Kind → List Byte} {t : Nat} {W W' : PyJobs kinds} (e : jobStep false u scr out t W = .ok W') :
    (∀ t', t' ≠ t → W'.threads t' = W.threads t') ∧ jobLeft (W'.threads t) ≤ jobLeft (W.threads t) - 1 ∧
    (W'.threads t).results.length + (W'.threads t).todo.length + (if (W'.threads t).pc = .idle then 0 else 1) = (W.threads t).results.length + (W.threads t).todo.length + (if (W.threads t).pc = .idle then 0 else 1) := by
  unfold jobStep at e
  dsimp only at e
  cases ho : (W.threads t).pc.obj with
  | none =>
    have hi := idle_obj.mp ho
    rw [ho] at e
    dsimp only at e
    cases htodo : (W.threads t).todo with
    | nil =>
      rw [htodo] at e
      cases e
      refine ⟨fun _ _ => rfl, ?_, ?_⟩
      · simp [jobLeft, htodo, hi, JobPc.left]
      · rw [htodo]
    | cons call rest =>
      rw [htodo] at e
      dsimp only at e
      rw [if_neg (by simp)] at e
      cases e
      refine ⟨fun t' ht => Function.update_of_ne ht _ _, ?_, ?_⟩
      · simp only [Function.update_self, jobLeft, htodo, List.length_cons]
        cases hj : jobCall call with
        | inl r => simp only [jobGo, JobPc.left]; omega
        | inr pc =>
          have := (jobCall_left call pc hj).2
          simp only [jobGo]
          omega
      · simp only [Function.update_self, List.length_cons, hi, if_true]
        cases hj : jobCall call with
        | inl r => simp only [jobGo, List.length_append, List.length_singleton, if_true]; omega
        | inr pc =>
          have : pc ≠ .idle := fun h => by
            have := (jobCall_left call pc hj).1
            rw [h] at this
            cases this
          simp only [jobGo, this, if_false]
          omega
  | some o =>
    have hi : (W.threads t).pc ≠ .idle := fun h => by rw [h] at ho; cases ho
    rw [ho] at e
    dsimp only at e
    obtain ⟨⟨x, c⟩, hx, e⟩ := Res.bind_eq_ok e
    cases e
    refine ⟨fun t' ht => Function.update_of_ne ht _ _, ?_, ?_⟩
    · simp only [Function.update_self, jobLeft]
      have hp : (W.threads t).pc.left ≠ 0 := fun h => hi ((left_zero _).mp h)
      cases x with
      | inl r =>
        show 16 * (W.threads t).todo.length + 0 ≤ _
        omega
      | inr pc =>
        have := (libStep_left _ _ _ _ _ _ _ _ o ho hx pc rfl).2
        simp only [jobGo]
        omega
    · simp only [Function.update_self, hi, if_false]
      cases x with
      | inl r => simp only [jobGo, List.length_append, List.length_singleton, if_true]; omega
      | inr pc =>
        have : pc ≠ .idle := fun h => by
          have := (libStep_left _ _ _ _ _ _ _ _ o ho hx pc rfl).1
          rw [h] at this
          cases this
        simp only [jobGo, this, if_false]

theorem jobsRun_threads {kinds : Nat → Kind} {u : Bool} {scr : Nat → (k : Kind) → Scr k.width} {out : Nat → Kind → List Byte} : ∀ (sched : List Nat) (W W' : PyJobs kinds), jobsRun false u scr out sched W = .ok W' →
    ∀ t, jobLeft (W'.threads t) ≤ jobLeft (W.threads t) - sched.count t ∧
      (W'.threads t).results.length + (W'.threads t).todo.length + (if (W'.threads t).pc = .idle then 0 else 1) = (W.threads t).results.length + (W.threads t).todo.length + (if (W.threads t).pc = .idle then 0 else 1)
  | [], W, W', e, t => by cases e; simp
  | t₀ :: ts, W, W', e, t => by
    obtain ⟨W₁, e₁, e⟩ := Res.bind_eq_ok (show jobStep false u scr out t₀ W >>= jobsRun false u scr out ts = .ok W' from e)
    obtain ⟨h1, h2, h3⟩ := jobStep_threads e₁
    obtain ⟨i1, i2⟩ := jobsRun_threads ts W₁ W' e t
    by_cases ht : t = t₀
    · subst ht
      rw [List.count_cons_self]
      exact ⟨by omega, i2.trans h3⟩
    · rw [List.count_cons_of_ne (fun x => ht x.symm)]
      rw [h1 t ht] at i1 i2
      exact ⟨i1, i2⟩

/-- C70. Without locks no thread waits for another one, whatever the threads do to shared objects: if there is no undefined behaviour, a thread that gets 16 steps for each of its calls has returned from all of them, with one result each. -/
theorem C70_returns (kinds : Nat → Kind) (u : Bool) (scr : Nat → (k : Kind) → Scr k.width) (out : Nat → Kind → List Byte) (W W' : PyJobs kinds) (prog : Nat → List PyCall) (hB : ∀ t, W.threads t = ⟨prog t, [], .idle⟩)
    (sched : List Nat) (e : jobsRun false u scr out sched W = .ok W') (t : Nat) (ht : 16 * (prog t).length ≤ sched.count t) :
    (W'.threads t).pc = .idle ∧ (W'.threads t).todo = [] ∧ (W'.threads t).results.length = (prog t).length := by
  obtain ⟨h1, h2⟩ := jobsRun_threads sched W W' e t
  rw [hB t] at h1 h2
  change 16 * (W'.threads t).todo.length + (W'.threads t).pc.left ≤ 16 * (prog t).length + 0 - _ at h1
  have hi : (W'.threads t).pc = .idle := (left_zero _).mp (by omega)
  have htodo : (W'.threads t).todo = [] := List.length_eq_zero_iff.mp (by omega)
  refine ⟨hi, htodo, ?_⟩
  rw [hi, htodo] at h2
  simpa using h2

/-! ## Threads with objects of their own -/

/-- Thread `t` only works on objects that belong to it. -/
def Own {kinds : Nat → Kind} (owner : Nat → Nat) (W : PyJobs kinds) : Prop := ∀ t, (∀ call ∈ (W.threads t).todo, owner call.obj = t) ∧ ∀ o, (W.threads t).pc.obj = some o → owner o = t

theorem own_step {kinds : Nat → Kind} {u : Bool} {scr : Nat → (k : Kind) → Scr k.width} {out : Nat → Kind → List Byte} {t : Nat} {W W' : PyJobs kinds} {owner : Nat → Nat} (h : Own owner W)
    (e : jobStep false u scr out t W = .ok W') : Own owner W' := by
  intro t'
  by_cases ht : t' = t
  · subst ht
    unfold jobStep at e
    dsimp only at e
    cases ho : (W.threads t').pc.obj with
    | none =>
      rw [ho] at e
      dsimp only at e
      cases htodo : (W.threads t').todo with
      | nil => rw [htodo] at e; cases e; exact h t'
      | cons call rest =>
        rw [htodo] at e
        dsimp only at e
        rw [if_neg (by simp)] at e
        cases e
        have hh := (h t').1
        rw [htodo] at hh
        simp only [Function.update_self]
        cases hj : jobCall call with
        | inl r => exact ⟨fun c hc => hh c (List.mem_cons_of_mem _ hc), fun o ho => (by cases ho)⟩
        | inr pc =>
          refine ⟨fun c hc => hh c (List.mem_cons_of_mem _ hc), fun o ho => ?_⟩
          change pc.obj = some o at ho
          rw [(jobCall_left call pc hj).1] at ho
          cases ho
          exact hh call (List.mem_cons_self ..)
    | some o =>
      rw [ho] at e
      dsimp only at e
      obtain ⟨⟨x, c⟩, hx, e⟩ := Res.bind_eq_ok e
      cases e
      simp only [Function.update_self]
      cases x with
      | inl r => exact ⟨(h t').1, fun o ho => (by cases ho)⟩
      | inr pc =>
        refine ⟨(h t').1, fun o' ho' => ?_⟩
        change pc.obj = some o' at ho'
        rw [(libStep_left _ _ _ _ _ _ _ _ o ho hx pc rfl).1] at ho'
        cases ho'
        exact (h t').2 o ho
  · rw [(jobStep_threads e).1 t' ht]
    exact h t'

/-- A run without locks keeps the correspondence, if the threads have objects of their own. -/
theorem jobsRun_own {kinds : Nat → Kind} (u : Bool) (scr : Nat → (k : Kind) → Scr k.width) (hscr : ∀ t k, Kind.Junk k (scr t k)) (out : Nat → Kind → List Byte) (hout : ∀ t k, (out t k).length = k.hashSize) (owner : Nat → Nat) :
    ∀ (sched : List Nat) (W : PyJobs kinds) (S : PySerial kinds), JobsOk u scr out W S → Own owner W →
      ∃ W' l, jobsRun false u scr out sched W = .ok W' ∧ W'.log = W.log ++ l ∧ JobsOk u scr out W' (S.run l)
  | [], W, S, h, _ => ⟨W, [], rfl, by simp, h⟩
  | t :: ts, W, S, h, ho => by
    obtain ⟨W₁, l₁, e₁, hl₁, h₁⟩ := jobStep_ok false u scr hscr out hout t W S h (.inr fun call rest hi htodo => by
      cases hlk : W.locks call.obj with
      | none => rfl
      | some t' =>
        have hb := h.owner _ _ hlk
        have h1 := (ho t').2 _ hb
        have h2 := (ho t).1 call (by rw [htodo]; exact List.mem_cons_self ..)
        rw [h1] at h2
        subst h2
        rw [hi] at hb
        cases hb)
    obtain ⟨W', l, e, hl, h'⟩ := jobsRun_own u scr hscr out hout owner ts W₁ _ h₁ (own_step ho e₁)
    refine ⟨W', l₁ ++ l, ?_, ?_, ?_⟩
    · show jobStep false u scr out t W >>= _ = _
      rw [e₁]
      exact e
    · rw [hl, hl₁, List.append_assoc]
    · rw [serial_append]
      exact h'

/-- A call on an object depends on that object only, and changes that object only. -/
theorem pyStep_local {kinds : Nat → Kind} (call : PyCall) (st st' : PyObjects kinds) (h : st call.obj = st' call.obj) :
    (pyStep kinds false call.op st).1 = (pyStep kinds false call.op st').1 ∧ (pyStep kinds false call.op st).2 call.obj = (pyStep kinds false call.op st').2 call.obj ∧
    ∀ o, o ≠ call.obj → (pyStep kinds false call.op st).2 o = st o := by
  cases call with
  | update o arg =>
    dsimp only [PyCall.obj] at *
    unfold PyCall.op pyStep
    dsimp only
    rw [← h]
    cases ho : st o with
    | none => exact ⟨rfl, by dsimp only; rw [← h], fun _ _ => rfl⟩
    | some x =>
      dsimp only
      cases pyBytes arg with
      | inl e => exact ⟨rfl, by dsimp only; rw [← h], fun _ _ => rfl⟩
      | inr b =>
        dsimp only
        cases x with
        | none => exact ⟨rfl, by dsimp only; rw [← h], fun _ _ => rfl⟩
        | some y => exact ⟨rfl, by simp, fun o' ho' => Function.update_of_ne ho' _ _⟩
  | finalize o ok =>
    dsimp only [PyCall.obj] at *
    unfold PyCall.op pyStep
    dsimp only
    rw [← h]
    cases ho : st o with
    | none => exact ⟨rfl, by dsimp only; rw [← h], fun _ _ => rfl⟩
    | some x =>
      cases x with
      | none => exact ⟨rfl, by dsimp only; rw [← h], fun _ _ => rfl⟩
      | some y => exact ⟨rfl, by simp, fun o' ho' => Function.update_of_ne ho' _ _⟩

theorem alone_append {kinds : Nat → Kind} : ∀ (a b : List PyCall) (st : PyObjects kinds),
    pyAlone kinds (a ++ b) st = ((pyAlone kinds a st).1 ++ (pyAlone kinds b (pyAlone kinds a st).2).1, (pyAlone kinds b (pyAlone kinds a st).2).2)
  | [], _, _ => rfl
  | call :: a, b, st => by
    rw [List.cons_append]
    show ((pyStep kinds false call.op st).1 :: (pyAlone kinds (a ++ b) (pyStep kinds false call.op st).2).1, (pyAlone kinds (a ++ b) (pyStep kinds false call.op st).2).2) = _
    rw [alone_append a b]
    rfl

/-- With objects of their own, each thread sees what it would see alone. -/
theorem serial_alone {kinds : Nat → Kind} (owner : Nat → Nat) (prog : Nat → List PyCall) (hown : ∀ t, ∀ call ∈ prog t, owner call.obj = t) (st : PyObjects kinds) (order : List Nat) :
    ∀ t, ∃ pre, prog t = pre ++ (PySerial.run ⟨prog, fun _ => [], st⟩ order).todo t ∧ (PySerial.run ⟨prog, fun _ => [], st⟩ order).results t = (pyAlone kinds pre st).1 ∧
      ∀ o, owner o = t → (PySerial.run ⟨prog, fun _ => [], st⟩ order).objects o = (pyAlone kinds pre st).2 o := by
  suffices H : ∀ (order : List Nat) (S : PySerial kinds), (∀ t, ∃ pre, prog t = pre ++ S.todo t ∧ S.results t = (pyAlone kinds pre st).1 ∧ ∀ o, owner o = t → S.objects o = (pyAlone kinds pre st).2 o) →
      ∀ t, ∃ pre, prog t = pre ++ (S.run order).todo t ∧ (S.run order).results t = (pyAlone kinds pre st).1 ∧ ∀ o, owner o = t → (S.run order).objects o = (pyAlone kinds pre st).2 o from
    H order _ fun t => ⟨[], rfl, rfl, fun _ _ => rfl⟩
  intro order
  induction order with
  | nil => exact fun S h => h
  | cons t₀ ts ih =>
    intro S h
    refine ih (S.next t₀) fun t => ?_
    unfold PySerial.next
    cases htodo : S.todo t₀ with
    | nil => exact h t
    | cons call rest =>
      dsimp only
      obtain ⟨pre₀, hp₀, hr₀, ho₀⟩ := h t₀
      have howner : owner call.obj = t₀ := hown t₀ call (by rw [hp₀, htodo]; simp)
      obtain ⟨l1, l2, l3⟩ := pyStep_local call S.objects (pyAlone kinds pre₀ st).2 (ho₀ _ howner)
      by_cases ht : t = t₀
      · subst ht
        refine ⟨pre₀ ++ [call], ?_, ?_, ?_⟩
        · rw [hp₀, htodo]; simp
        · rw [alone_append]
          simp [pyAlone, hr₀, l1]
        · intro o ho
          rw [alone_append]
          by_cases hc : o = call.obj
          · subst hc
            simpa [pyAlone] using l2
          · rw [l3 o hc, ho₀ o ho]
            simp only [pyAlone]
            exact ((pyStep_local call (pyAlone kinds pre₀ st).2 (pyAlone kinds pre₀ st).2 rfl).2.2 o hc).symm
      · obtain ⟨pre, hp, hr, hob⟩ := h t
        refine ⟨pre, ?_, ?_, ?_⟩
        · simpa [ht] using hp
        · simpa [ht] using hr
        · intro o ho
          have hc : o ≠ call.obj := fun e => ht (by rw [← ho, e, howner])
          rw [l3 o hc, hob o ho]

/-- C70. Any number of threads that call `update` and `finalize`, each on objects of its own (of any kinds), without locks, in any interleaving: no undefined behaviour, and the results that a thread has got are those that it would get
alone. A thread that gets 16 steps for each of its calls has all its results, and its objects stand for the messages that they would stand for then. -/
theorem C70_own_objects (kinds : Nat → Kind) (u : Bool) (scr : Nat → (k : Kind) → Scr k.width) (hscr : ∀ t k, Kind.Junk k (scr t k)) (out : Nat → Kind → List Byte) (hout : ∀ t k, (out t k).length = k.hashSize)
    (W : PyJobs kinds) (prog : Nat → List PyCall) (m : Nat → List Byte) (hB : Begin W prog m) (owner : Nat → Nat) (hown : ∀ t, ∀ call ∈ prog t, owner call.obj = t) (sched : List Nat) :
    ∃ W', jobsRun false u scr out sched W = .ok W' ∧ (∀ t, (W'.threads t).results <+: (pyAlone kinds (prog t) (newObjects kinds m)).1) ∧
      ∀ t, 16 * (prog t).length ≤ sched.count t → (W'.threads t).results = (pyAlone kinds (prog t) (newObjects kinds m)).1 ∧
        ∀ o, owner o = t → ∃ h0 m', (pyAlone kinds (prog t) (newObjects kinds m)).2 o = some (some (h0, m')) ∧ Digests (kinds o) (W'.ctxs o) ((kinds o).len64.digestFrom h0 m') := by
  have hO : Own owner W := fun t => by
    rw [hB.threads t]
    exact ⟨hown t, fun o h => (by cases h)⟩
  obtain ⟨W', l, e, hl, h⟩ := jobsRun_own u scr hscr out hout owner sched W _ (begin_ok u scr out hB) hO
  have hA := serial_alone owner prog hown (newObjects kinds m) l
  have hO' : ∀ (sched : List Nat) (W : PyJobs kinds), Own owner W → jobsRun false u scr out sched W = .ok W' → Own owner W' := by
    intro sched
    induction sched with
    | nil => intro W h e; cases e; exact h
    | cons t ts ih =>
      intro W h e
      obtain ⟨W₁, e₁, e⟩ := Res.bind_eq_ok (show jobStep false u scr out t W >>= jobsRun false u scr out ts = .ok W' from e)
      exact ih W₁ (own_step h e₁) e
  have hO' := hO' sched W hO e
  refine ⟨W', e, fun t => ?_, fun t ht => ?_⟩
  · obtain ⟨pre, hp, hr, -⟩ := hA t
    rw [hp, alone_append]
    refine List.IsPrefix.trans ?_ (List.prefix_append _ _)
    rw [← hr]
    cases ho : (W'.threads t).pc.obj with
    | none => rw [h.idle t ho]
    | some o =>
      obtain ⟨-, r, c', hr', -⟩ := h.busy t o ho
      exact ⟨[r], hr'⟩
  · obtain ⟨hi, htodo, -⟩ := C70_returns kinds u scr out W W' prog hB.threads sched e t ht
    obtain ⟨pre, hp, hr, hob⟩ := hA t
    rw [← h.todo t, htodo, List.append_nil] at hp
    subst hp
    refine ⟨(h.idle t (idle_obj.mpr hi)).trans hr, fun o ho => ?_⟩
    rw [← hob o ho]
    refine holds_digests (h.free o ?_)
    cases hlk : W'.locks o with
    | none => rfl
    | some t' =>
      have hb := h.owner o t' hlk
      have := (hO' t').2 o hb
      rw [ho] at this
      subst this
      rw [hi] at hb
      cases hb

end Props
