import Verif.Model.PyModule
/-! C58: importing the Python module. -/

namespace Props

open Model Spec

/-- The interpreter before the import. -/
def import0 : PyImport := ⟨0, none, 0, fun _ => 0, fun _ => 0, false⟩

/-- Members of a complete module: the version, both functions and the type of each algorithm, each under its own name. -/
def Complete (members : List (String × PyMember)) : Prop := ∀ m : PyMember, (members.filter fun x => x.2 = m).map (·.1) = [m.name]

/-- Invariant of the loop over the types: nothing is set only if all have been added. -/
theorem addTypes_complete (I : PyInterp) : ∀ (ts : List (String × Kind)) (s : PyImport) (m : List (String × PyMember)), s.members = some m → (pyAddTypes I ts s).1 = true → (pyAddTypes I ts s).2.exception = false →
    (pyAddTypes I ts s).2.members = some (m ++ ts.map fun t => (t.1, .context t.2)) ∧ s.exception = false := by
  intro ts
  induction ts with
  | nil => intro s m h _ h2; exact ⟨by simpa [pyAddTypes] using h, h2⟩
  | cons t ts ih =>
    intro s m h h1 h2
    unfold pyAddTypes at h1 h2 ⊢
    unfold pyAddType at h1 h2 ⊢
    by_cases hr : I.ready t.2 = true
    · by_cases ha : I.add t.2 = true
      · simp only [hr, ha, if_true] at h1 h2 ⊢
        obtain ⟨e1, e2⟩ := ih _ (m ++ [(t.1, .context t.2)]) (by simp [h]) h1 h2
        exact ⟨by rw [e1]; simp, e2⟩
      · simp only [hr, ha, if_true] at h1 h2
        have := (ih _ m (by simp [h]) h1 h2).2
        simp at this
    · simp [hr] at h1

theorem addTypes_gil (I : PyInterp) : ∀ (ts : List (String × Kind)) (s : PyImport), (pyAddTypes I ts s).2.gil = s.gil ∧ (pyAddTypes I ts s).2.moduleRefs = s.moduleRefs ∧
    ((pyAddTypes I ts s).1 = false → (pyAddTypes I ts s).2.exception = true) ∧ (s.exception = true → (pyAddTypes I ts s).2.exception = true) := by
  intro ts
  induction ts with
  | nil => intro s; simp [pyAddTypes]
  | cons t ts ih =>
    intro s
    unfold pyAddTypes pyAddType
    by_cases hr : I.ready t.2 = true
    · by_cases ha : I.add t.2 = true
      · simp only [hr, ha, if_true]
        exact ih _
      · simp only [hr, ha, if_true]
        obtain ⟨a, b, c, d⟩ := ih { s with typeRefs := fun k => if k = t.2 then s.typeRefs k + 1 else s.typeRefs k, exception := true }
        exact ⟨a, b, c, fun _ => d rfl⟩
    · simp [hr]

/-- C58. A module returned without an exception is complete: every function and type is there once, under the name of its algorithm, and nothing else. Whatever fails. -/
theorem C58_complete (I : PyInterp) (h1 : (pyModuleInit I import0).1 = true) (h2 : (pyModuleInit I import0).2.exception = false) :
    ∃ members, (pyModuleInit I import0).2.members = some members ∧ Complete members := by
  by_cases hc : I.create = true
  · unfold pyModuleInit at h1 h2 ⊢
    simp only [hc, if_true] at h1 h2 ⊢
    by_cases ho : (pyAddTypes I pyTypes { import0 with members := some pyMethods, moduleRefs := import0.moduleRefs + 1, gil := import0.gil + 1 }).1 = true
    · simp only [ho, if_true] at h2 ⊢
      refine ⟨_, (addTypes_complete I pyTypes _ pyMethods rfl ho h2).1, fun m => ?_⟩
      rcases m with _ | k | k | k
      · decide
      all_goals cases k <;> decide
    · simp only [ho] at h1
      cases h1
  · simp [pyModuleInit, hc] at h1

/-- C58. If everything succeeds the module is returned, without an exception, and holds one reference to each type. -/
theorem C58_success (I : PyInterp) (h1 : I.create = true) (h2 : ∀ k, I.ready k = true) (h3 : ∀ k, I.add k = true) :
    (pyModuleInit I import0).1 = true ∧ (pyModuleInit I import0).2.exception = false ∧ ∀ k, (pyModuleInit I import0).2.addedRefs k = 1 ∧ (pyModuleInit I import0).2.typeRefs k = 0 := by
  simp only [pyModuleInit, pyAddTypes, pyTypes, pyAddType, h1, h2, h3, if_true]
  exact ⟨trivial, rfl, fun k => by cases k <;> decide⟩

example : ∃ I : PyInterp, (pyModuleInit I import0).1 = true ∧ (pyModuleInit I import0).2.exception = false := ⟨⟨true, fun _ => true, fun _ => true⟩, by decide⟩

/-- C58. The interpreter lock is held as often after the import as before, and NULL is returned only with an exception set. Whatever fails. -/
theorem C58_lock (I : PyInterp) (s : PyImport) : (pyModuleInit I s).2.gil = s.gil ∧ ((pyModuleInit I s).1 = false → (pyModuleInit I s).2.exception = true) := by
  unfold pyModuleInit
  by_cases hc : I.create = true
  · simp only [hc, if_true]
    obtain ⟨a, b, c, d⟩ := addTypes_gil I pyTypes { s with members := some pyMethods, moduleRefs := s.moduleRefs + 1, gil := s.gil + 1 }
    by_cases ho : (pyAddTypes I pyTypes { s with members := some pyMethods, moduleRefs := s.moduleRefs + 1, gil := s.gil + 1 }).1 = true
    · simp only [ho, if_true]
      exact ⟨by rw [a]; simp, fun h => by cases h⟩
    · simp only [ho]
      exact ⟨by simp only [Bool.false_eq_true, if_false]; rw [a]; simp, fun _ => c (by simpa using ho)⟩
  · simp [hc]

/-- C58 (partial: holds when the results that the code does not test are successes and no type fails, see `C58_module_lost` and `C58_returned_with_exception`). Nothing is lost: no reference to the module or to a type is left to nobody. -/
theorem C58_released_partial (I : PyInterp) (h2 : ∀ k, I.ready k = true) (h3 : ∀ k, I.add k = true) : (pyModuleInit I import0).2.moduleRefs = 0 ∧ ∀ k, (pyModuleInit I import0).2.typeRefs k = 0 := by
  by_cases hc : I.create = true
  · simp only [pyModuleInit, pyAddTypes, pyTypes, pyAddType, hc, h2, h3, if_true]
    exact ⟨rfl, fun k => by cases k <;> decide⟩
  · simp [pyModuleInit, hc, import0]

example := C58_released_partial ⟨true, fun _ => true, fun _ => true⟩ (fun _ => rfl) (fun _ => rfl)

/-- C58 is false otherwise: if a type cannot be set up, NULL is returned and the module is never released. -/
theorem C58_module_lost (I : PyInterp) (hc : I.create = true) (k : Kind) (hk : I.ready k = false) : (pyModuleInit I import0).1 = false ∧ (pyModuleInit I import0).2.moduleRefs = 1 := by
  obtain ⟨-, b, -, -⟩ := addTypes_gil I pyTypes { import0 with members := some pyMethods, moduleRefs := import0.moduleRefs + 1, gil := import0.gil + 1 }
  have ho : (pyAddTypes I pyTypes { import0 with members := some pyMethods, moduleRefs := import0.moduleRefs + 1, gil := import0.gil + 1 }).1 = false := by
    have : ∀ (ts : List (String × Kind)) (s : PyImport), (∃ t ∈ ts, t.2 = k) → (pyAddTypes I ts s).1 = false := by
      intro ts
      induction ts with
      | nil => rintro s ⟨t, ht, -⟩; cases ht
      | cons t ts ih =>
        rintro s ⟨t', ht', rfl⟩
        unfold pyAddTypes pyAddType
        by_cases hr : I.ready t.2 = true
        · have hin : ∃ u ∈ ts, u.2 = t'.2 := by
            rcases List.mem_cons.mp ht' with rfl | h
            · rw [hk] at hr; cases hr
            · exact ⟨t', h, rfl⟩
          by_cases ha : I.add t.2 = true <;> simp only [hr, ha, if_true] <;> exact ih _ hin
        · simp [hr]
    exact this _ _ (by cases k <;> exact ⟨(_, _), by simp [pyTypes]; rfl, rfl⟩)
  unfold pyModuleInit
  simp only [hc, if_true, ho]
  exact ⟨rfl, by simp only [Bool.false_eq_true, if_false]; rw [b]; rfl⟩

/-- A type fails: the module is lost. -/
example := C58_module_lost ⟨true, fun k => k != .sha224, fun _ => true⟩ rfl .sha224 rfl

/-- C58 is false otherwise: if only PyModule_AddObject fails, the module is returned with an exception set, without the type, and the reference to the type is lost. -/
theorem C58_returned_with_exception : ∃ I : PyInterp, (pyModuleInit I import0).1 = true ∧ (pyModuleInit I import0).2.exception = true ∧ (pyModuleInit I import0).2.typeRefs .sha1 = 1 ∧
    ∀ members, (pyModuleInit I import0).2.members = some members → ¬ Complete members :=
  ⟨⟨true, fun _ => true, fun k => k != .sha1⟩, by decide, by decide, by decide, fun members h hc => by
    have := hc (.context .sha1)
    have hm : some members = some ((pyModuleInit ⟨true, fun _ => true, fun k => k != .sha1⟩ import0).2.members.getD []) := by rw [h]; rfl
    cases hm
    revert this
    decide⟩

end Props
