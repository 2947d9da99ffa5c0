import Verif.Model.Python
import Verif.Proofs.Multi
import Verif.Proofs.OneShot
/-! The Python module. -/

namespace Model

open Spec (Kind ApiCall Reply PyArg PyExc PyResult PyOp PyObjects)

/-- The library's function under its deprecated name does the same. -/
theorem depInitialize_of_step {w} {A : Alg w} {u : Bool} {env : Env w} {scr : Scr w} {slot slot' : Option Nat} {s s' : St w} {r : Reply}
    (e : step A u env .init scr slot s = .ok (r, slot', s')) : depInitialize A env (some slot) s = .ok (if r.code ≠ 1 then -1 else 1, some slot', s') := by
  simp only [step, depInitialize, apiInitialize] at e ⊢
  cases h : hInitialize A env slot s with
  | ub => rw [h] at e; cases e
  | diverge => rw [h] at e; cases e
  | ok x =>
    obtain ⟨r0, slot0, s0⟩ := x
    rw [h] at e
    simp only [Res.ok_bind, Res.pure_eq, Res.ok.injEq, Prod.mk.injEq] at e ⊢
    obtain ⟨rfl, rfl, rfl⟩ := e
    dsimp only
    split <;> rfl

theorem depFree_of_step {w} {A : Alg w} {u : Bool} {env : Env w} {scr : Scr w} {slot slot' : Option Nat} {s s' : St w} {r : Reply}
    (e : step A u env .free scr slot s = .ok (r, slot', s')) : depFree (some slot) s = .ok (if r.code ≠ 1 then -1 else 1, some slot', s') := by
  simp only [step, depFree, apiFree] at e ⊢
  cases h : hFree slot s with
  | ub => rw [h] at e; cases e
  | diverge => rw [h] at e; cases e
  | ok x =>
    obtain ⟨r0, slot0, s0⟩ := x
    rw [h] at e
    simp only [Res.ok_bind, Res.pure_eq, Res.ok.injEq, Prod.mk.injEq] at e ⊢
    obtain ⟨rfl, rfl, rfl⟩ := e
    dsimp only
    split <;> rfl

theorem depUpdate_of_step {w} {A : Alg w} {u : Bool} {env : Env w} {al : Nat → Bool} {slot slot' : Option Nat} {s s' : St w} {r : Reply} {b : Option (List Byte)} {n : Nat}
    (e : step A u { env with allocOk := al } (.update b n) env.scr slot s = .ok (r, slot', s')) :
    depUpdate A u env slot b n s = .ok (if r.code ≠ 1 then -1 else 1, s') ∧ slot' = slot := by
  have hs : hUpdate A u { { env with allocOk := al } with scr := env.scr } slot b n s = hUpdate A u env slot b n s := rfl
  simp only [step, depUpdate] at e ⊢
  rw [hs] at e
  cases h : hUpdate A u env slot b n s with
  | ub => rw [h] at e; cases e
  | diverge => rw [h] at e; cases e
  | ok x =>
    obtain ⟨r0, s0⟩ := x
    rw [h] at e
    simp only [Res.ok_bind, Res.pure_eq, Res.ok.injEq, Prod.mk.injEq] at e ⊢
    obtain ⟨rfl, rfl, rfl⟩ := e
    dsimp only
    split <;> exact ⟨rfl, rfl⟩

theorem depFinalize_of_step {w} {A : Alg w} {u : Bool} {env : Env w} {al : Nat → Bool} {slot slot' : Option Nat} {s s' : St w} {r : Reply} {o : Option (List Byte)} {n : Nat}
    (e : step A u { env with allocOk := al } (.finalize o n) env.scr slot s = .ok (r, slot', s')) :
    depFinalize A u env slot o n s = .ok (if r.code ≠ 1 then -1 else 1, r.out, s') ∧ slot' = slot := by
  have hs : hFinalize A u { { env with allocOk := al } with scr := env.scr } slot o n s = hFinalize A u env slot o n s := rfl
  simp only [step, depFinalize] at e ⊢
  rw [hs] at e
  cases h : hFinalize A u env slot o n s with
  | ub => rw [h] at e; cases e
  | diverge => rw [h] at e; cases e
  | ok x =>
    obtain ⟨r0, o0, s0⟩ := x
    rw [h] at e
    simp only [Res.ok_bind, Res.pure_eq, Res.ok.injEq, Prod.mk.injEq] at e ⊢
    obtain ⟨rfl, rfl, rfl⟩ := e
    dsimp only
    split <;> exact ⟨rfl, rfl⟩

/-- The live objects are those of `base` and those of the variables. -/
def MemOk (kinds : Nat → Kind) (slots : Nat → Option Nat) (m : Mem) (base : Nat → List Nat) : Prop :=
  ∀ w, ((m.live w).map (·.1)).Nodup ∧ (∀ p ∈ (m.live w).map (·.1), p < m.count) ∧
    (∀ p, p ∈ (m.live w).map (·.1) ↔ p ∈ base w ∨ ∃ i, (kinds i).width = w ∧ slots i = some p) ∧ ∀ p ∈ base w, ∀ i, (kinds i).width = w → slots i ≠ some p

/-- One library call on a variable. -/
theorem mem_step {kinds : Nat → Kind} {slots : Nat → Option Nat} {m : Mem} {base : Nat → List Nat} {b : (i : Nat) → Option (List (BitVec (kinds i).width) × List Byte)}
    (h : MemOk kinds slots m base) (hrel : MultiRel kinds slots m b) (u : Bool) (al : Nat → Bool) (e : PyEnv) (i : Nat) (c : ApiCall) (hv : c.Valid) (scr : Scr (kinds i).width) (hj : Kind.Junk (kinds i) scr) :
    ∃ slot' s', step (algOf (kinds i)) u { e.env (kinds i) with allocOk := al } c scr (slots i) (m.view (kinds i).width) = .ok ((kindStep (kinds i) al c (b i) m.count).1, slot', s') ∧
      MultiRel kinds (Function.update slots i slot') (m.put (kinds i).width s') (Function.update b i (kindStep (kinds i) al c (b i) m.count).2.slot) ∧
      MemOk kinds (Function.update slots i slot') (m.put (kinds i).width s') base := by
  obtain ⟨slot', s', e1, hrel', -, hge, hown⟩ := multi_step kinds u al (fun j => e.env (kinds j)) i c scr slots m b hv hj hrel
  have hslot : slot' = slots i ∨ slot' = none ∨ slot' = some m.count := by
    obtain ⟨enc, L⟩ := lawful (kinds i)
    obtain ⟨slot2, s2, e2, -, -, hs, -⟩ := step_frame L u { e.env (kinds i) with allocOk := al } c scr (slots i) (m.view (kinds i).width) (b i) hv (scrOk_of_junk hj) (hrel.1 i)
    rw [e1] at e2
    simp only [Res.ok.injEq, Prod.mk.injEq] at e2
    rw [e2.2.1]
    exact hs
  refine ⟨slot', s', e1, hrel', fun w => ?_⟩
  by_cases hw : w = (kinds i).width
  · subst hw
    obtain ⟨h1, h2, h3, h4⟩ := h (kinds i).width
    have hlive : (m.put (kinds i).width s').live (kinds i).width = s'.live := by simp only [Mem.put, Function.update_self]
    rw [hlive]
    obtain ⟨rest, hr, hmem, hnd⟩ : ∃ rest, Owns (slots i) (m.view (kinds i).width) rest ∧ (∀ p, p ∈ rest ↔ p ∈ (m.live (kinds i).width).map (·.1) ∧ slots i ≠ some p) ∧ rest.Nodup := by
      cases hs : slots i with
      | none =>
        refine ⟨(m.live (kinds i).width).map (fun x => x.1), ?_, fun p => ⟨fun hp => ⟨hp, nofun⟩, fun hp => hp.1⟩, h1⟩
        exact List.Perm.refl _
      | some q =>
        have hq : q ∈ (m.live (kinds i).width).map (·.1) := (h3 q).2 (.inr ⟨i, rfl, hs⟩)
        refine ⟨((m.live (kinds i).width).map (fun x => x.1)).erase q, ?_, fun p => ?_, h1.erase q⟩
        · exact List.perm_cons_erase hq
        rw [h1.mem_erase_iff]
        constructor
        · rintro ⟨a, b⟩
          exact ⟨b, fun e => a (by injection e with e; exact e.symm)⟩
        · rintro ⟨a, b⟩
          exact ⟨fun e => b (by rw [e]), a⟩
    have hperm : (s'.live.map (·.1)).Perm (slot'.toList ++ rest) := hown rest hr
    have hnew : ∀ p, slot' = some p → p ∉ rest := by
      intro p hp hin
      obtain ⟨ha, hb⟩ := (hmem p).1 hin
      rcases hslot with e' | e' | e'
      · exact hb (by rw [← e', hp])
      · rw [e'] at hp; cases hp
      · rw [e'] at hp
        injection hp with hp
        have := h2 p ha
        omega
    refine ⟨?_, ?_, ?_, ?_⟩
    · rw [hperm.nodup_iff]
      cases hs : slot' with
      | none => exact hnd
      | some p => exact List.nodup_cons.2 ⟨hnew p hs, hnd⟩
    · intro p hp
      show p < s'.count
      rw [hperm.mem_iff, List.mem_append] at hp
      rcases hp with hp | hp
      · have hlt := (hrel'.1 i).lt (p := p) (by rw [Function.update_self]; simpa using hp)
        simpa [Mem.view, Mem.put] using hlt
      · exact Nat.lt_of_lt_of_le (h2 p ((hmem p).1 hp).1) hge
    · intro p
      rw [hperm.mem_iff, List.mem_append, hmem, h3]
      constructor
      · rintro (hp | ⟨hb | ⟨j, hj1, hj2⟩, hne⟩)
        · exact .inr ⟨i, rfl, by rw [Function.update_self]; simpa using hp⟩
        · exact .inl hb
        · refine .inr ⟨j, hj1, ?_⟩
          rw [Function.update_of_ne (fun e => hne (by rw [← e]; exact hj2))]
          exact hj2
      · rintro (hb | ⟨j, hj1, hj2⟩)
        · exact .inr ⟨.inl hb, h4 p hb i rfl⟩
        · by_cases hji : j = i
          · subst hji
            rw [Function.update_self] at hj2
            exact .inl (by simpa using hj2)
          · rw [Function.update_of_ne hji] at hj2
            exact .inr ⟨.inr ⟨j, hj1, hj2⟩, fun e => hji (hrel.2 j i p hj2 e)⟩
    · intro p hp j hj
      by_cases hji : j = i
      · subst hji
        rw [Function.update_self]
        rcases hslot with e' | e' | e'
        · rw [e']; exact h4 p hp j rfl
        · rw [e']; simp
        · rw [e']
          intro e2
          injection e2 with e2
          have := h2 p ((h3 p).2 (.inl hp))
          omega
      · rw [Function.update_of_ne hji]
        exact h4 p hp j hj
  · obtain ⟨h1, h2, h3, h4⟩ := h w
    have hlive : (m.put (kinds i).width s').live w = m.live w := by simp only [Mem.put, Function.update_of_ne hw]
    have hne : ∀ j, (kinds j).width = w → j ≠ i := fun j hj e => hw (by rw [← hj, e])
    rw [hlive]
    refine ⟨h1, fun p hp => Nat.lt_of_lt_of_le (h2 p hp) hge, fun p => ?_, fun p hp j hj => ?_⟩
    · rw [h3]
      constructor
      · rintro (hb | ⟨j, hj1, hj2⟩)
        · exact .inl hb
        · exact .inr ⟨j, hj1, by rw [Function.update_of_ne (hne j hj1)]; exact hj2⟩
      · rintro (hb | ⟨j, hj1, hj2⟩)
        · exact .inl hb
        · rw [Function.update_of_ne (hne j hj1)] at hj2
          exact .inr ⟨j, hj1, hj2⟩
    · rw [Function.update_of_ne (hne j hj)]
      exact h4 p hp j hj

/-- The context of variable `i` is forgotten: it becomes one of the other objects. -/
theorem forget {kinds : Nat → Kind} {slots : Nat → Option Nat} {m : Mem} {base : Nat → List Nat} {b : (i : Nat) → Option (List (BitVec (kinds i).width) × List Byte)}
    (h : MemOk kinds slots m base) (hrel : MultiRel kinds slots m b) (i : Nat) :
    MultiRel kinds (Function.update slots i none) m (Function.update b i none) ∧
      MemOk kinds (Function.update slots i none) m (Function.update base (kinds i).width ((slots i).toList ++ base (kinds i).width)) := by
  refine ⟨⟨fun j => ?_, fun j k p hj hk => ?_⟩, fun w => ?_⟩
  · by_cases hji : j = i
    · subst hji
      rw [Function.update_self, Function.update_self]
      trivial
    · rw [Function.update_of_ne hji, Function.update_of_ne hji]
      exact hrel.1 j
  · by_cases hji : j = i
    · subst hji
      rw [Function.update_self] at hj
      cases hj
    · by_cases hki : k = i
      · subst hki
        rw [Function.update_self] at hk
        cases hk
      · rw [Function.update_of_ne hji] at hj
        rw [Function.update_of_ne hki] at hk
        exact hrel.2 j k p hj hk
  · obtain ⟨h1, h2, h3, h4⟩ := h w
    refine ⟨h1, h2, fun p => ?_, fun p hp j hj => ?_⟩
    · rw [h3]
      by_cases hw : w = (kinds i).width
      · subst hw
        rw [Function.update_self, List.mem_append]
        constructor
        · rintro (hb | ⟨j, hj1, hj2⟩)
          · exact .inl (.inr hb)
          · by_cases hji : j = i
            · subst hji
              exact .inl (.inl (by simp [hj2]))
            · exact .inr ⟨j, hj1, by rw [Function.update_of_ne hji]; exact hj2⟩
        · rintro ((hb | hb) | ⟨j, hj1, hj2⟩)
          · exact .inr ⟨i, rfl, by simpa using hb⟩
          · exact .inl hb
          · by_cases hji : j = i
            · subst hji
              rw [Function.update_self] at hj2
              cases hj2
            · rw [Function.update_of_ne hji] at hj2
              exact .inr ⟨j, hj1, hj2⟩
      · rw [Function.update_of_ne hw]
        have hne : ∀ j, (kinds j).width = w → j ≠ i := fun j hj e => hw (by rw [← hj, e])
        constructor
        · rintro (hb | ⟨j, hj1, hj2⟩)
          · exact .inl hb
          · exact .inr ⟨j, hj1, by rw [Function.update_of_ne (hne j hj1)]; exact hj2⟩
        · rintro (hb | ⟨j, hj1, hj2⟩)
          · exact .inl hb
          · rw [Function.update_of_ne (hne j hj1)] at hj2
            exact .inr ⟨j, hj1, hj2⟩
    · by_cases hji : j = i
      · subst hji
        rw [Function.update_self]
        simp
      · rw [Function.update_of_ne hji]
        by_cases hw : w = (kinds i).width
        · subst hw
          rw [Function.update_self, List.mem_append] at hp
          rcases hp with hp | hp
          · intro e
            exact hji (hrel.2 j i p e (by simpa using hp))
          · exact h4 p hp j hj
        · rw [Function.update_of_ne hw] at hp
          exact h4 p hp j hj

/-- A one-shot call leaves the live objects as they are. -/
theorem mem_oneShot {kinds : Nat → Kind} {slots : Nat → Option Nat} {m : Mem} {base : Nat → List Nat} {b : (i : Nat) → Option (List (BitVec (kinds i).width) × List Byte)}
    (h : MemOk kinds slots m base) (hrel : MultiRel kinds slots m b) (w : Nat) (s : St w) (hl : s.live = m.live w) (hc : m.count ≤ s.count) :
    MultiRel kinds slots (m.put w s) b ∧ MemOk kinds slots (m.put w s) base := by
  have hlive : ∀ v, (m.put w s).live v = m.live v := by
    intro v
    by_cases hv : v = w
    · subst hv
      simp only [Mem.put, Function.update_self, hl]
    · simp only [Mem.put, Function.update_of_ne hv]
  refine ⟨⟨fun j => ?_, hrel.2⟩, fun v => ?_⟩
  · have hj := hrel.1 j
    revert hj
    unfold VarRel
    cases slots j with
    | none => cases b j <;> exact id
    | some p =>
      cases b j with
      | none => exact id
      | some x =>
        obtain ⟨h0, msg⟩ := x
        rintro ⟨hp, hlen, c, hget, hrep⟩
        refine ⟨Nat.lt_of_lt_of_le hp hc, hlen, c, ?_, hrep⟩
        simp only [Mem.view, hlive] at hget ⊢
        exact hget
  · obtain ⟨h1, h2, h3, h4⟩ := h v
    rw [hlive]
    exact ⟨h1, fun p hp => Nat.lt_of_lt_of_le (h2 p hp) hc, h3, h4⟩

/-- The state of a program represents the objects `o`; `base`: contexts in memory that no variable refers to. -/
structure PyRel (kinds : Nat → Kind) (st : PySt) (o : PyObjects kinds) (base : Nat → List Nat) : Prop where
  bound : ∀ i, (st.vars i).isSome = (o i).isSome
  rel : MultiRel kinds (fun i => (st.vars i).join) st.mem (fun i => (o i).join)
  mem : MemOk kinds (fun i => (st.vars i).join) st.mem base

/-- The memory that the code does not control has its declared sizes. -/
def PyEnv.Ok (e : PyEnv) : Prop := ∀ k, Kind.Junk k (e.env k).scr ∧ (e.hash k).length = k.hashSize ∧ (e.keyHash k).length = k.hashSize

/-- The contexts that no variable refers to, after a statement. -/
def leakBy (kinds : Nat → Kind) (op : PyOp) (st : PySt) (base : Nat → List Nat) : Nat → List Nat :=
  match op with
  | .reinit i => Function.update base (kinds i).width ((st.vars i).join.toList ++ base (kinds i).width)
  | _ => base

/-- A statement that the module carries out. -/
structure PyDone (kinds : Nat → Kind) (u : Kind → Bool) (al : Nat → Bool) (e : PyEnv) (op : PyOp) (st : PySt) (o : PyObjects kinds) (base : Nat → List Nat) (fail : Bool) (st' : PySt) : Prop where
  eq : pyExec kinds u al e op st = .ok ((Spec.pyStep kinds fail op o).1, st')
  rel : PyRel kinds st' (Spec.pyStep kinds fail op o).2 (leakBy kinds op st base)
  fails : (∀ n, al n = true) → fail = false
  objects : st'.objects = st.objects + Spec.pyObjectChange op (Spec.pyStep kinds fail op o).1

theorem join_update {ι : Type} [DecidableEq ι] {β : ι → Type} (o : (i : ι) → Option (Option (β i))) (i : ι) (y : Option (Option (β i))) :
    (fun j => (Function.update o i y j).join) = Function.update (fun j => (o j).join) i y.join := by
  funext j
  by_cases h : j = i
  · subst h; simp
  · simp [h]

theorem PyRel.set {kinds : Nat → Kind} {st : PySt} {o : PyObjects kinds} {base base' : Nat → List Nat} (h : PyRel kinds st o base) {i : Nat} {x : Option (Option Nat)}
    {y : Option (Option (List (BitVec (kinds i).width) × List Byte))} (hxy : x.isSome = y.isSome) {m : Mem} {n : Int} {r : Nat}
    (h1 : MultiRel kinds (Function.update (fun i => (st.vars i).join) i x.join) m (Function.update (fun i => (o i).join) i y.join))
    (h2 : MemOk kinds (Function.update (fun i => (st.vars i).join) i x.join) m base') :
    PyRel kinds ⟨Function.update st.vars i x, m, n, r⟩ (Function.update o i y) base' where
  bound := fun j => by
    by_cases hj : j = i
    · subst hj; simpa using hxy
    · simpa [hj] using h.bound j
  rel := by
    rw [join_update (β := fun _ => Nat) st.vars, join_update (β := fun i => List (BitVec (kinds i).width) × List Byte) o]
    exact h1
  mem := by
    show MemOk kinds (fun j => (Function.update st.vars i x j).join) m base'
    rw [join_update (β := fun _ => Nat) st.vars]
    exact h2

theorem PyRel.set' {kinds : Nat → Kind} {st : PySt} {o : PyObjects kinds} {base : Nat → List Nat} (h : PyRel kinds st o base) {i : Nat} {x : Option Nat} (hx : st.vars i = some x)
    {y : Option (List (BitVec (kinds i).width) × List Byte)} {m : Mem} {n : Int} {r : Nat}
    (h1 : MultiRel kinds (Function.update (fun i => (st.vars i).join) i x) m (Function.update (fun i => (o i).join) i y))
    (h2 : MemOk kinds (Function.update (fun i => (st.vars i).join) i x) m base) :
    PyRel kinds ⟨st.vars, m, n, r⟩ (Function.update o i (some y)) base := by
  have := h.set (x := some x) (y := some y) rfl (m := m) (n := n) (r := r) h1 h2
  rwa [← hx, Function.update_eq_self] at this

theorem PyRel.put {kinds : Nat → Kind} {st : PySt} {o : PyObjects kinds} {base : Nat → List Nat} (h : PyRel kinds st o base) {m : Mem} {n : Int} {r : Nat}
    (h1 : MultiRel kinds (fun i => (st.vars i).join) m (fun i => (o i).join)) (h2 : MemOk kinds (fun i => (st.vars i).join) m base) :
    PyRel kinds ⟨st.vars, m, n, r⟩ o base := ⟨h.bound, h1, h2⟩

theorem pyData_eq (arg : Option PyArg) : pyData arg = Spec.pyBytes arg := by
  unfold pyData Spec.pyBytes
  rcases arg with _ | (b | _ | _ | _)
  · rfl
  · show (if ssizeMax < b.length then _ else _) = if b.length ≤ ssizeMax then _ else _
    by_cases h : ssizeMax < b.length
    · rw [if_pos h, if_neg (by omega)]
    · rw [if_neg h, if_pos (by omega)]
  all_goals rfl

theorem pyKeyData_eq (arg : PyArg) : pyKeyData arg = Spec.pyKey arg := by
  unfold pyKeyData Spec.pyKey
  rcases arg with b | _ | _ | _
  · show (if ssizeMax < b.length then _ else _) = if b.length ≤ ssizeMax then _ else _
    by_cases h : ssizeMax < b.length
    · rw [if_pos h, if_neg (by omega)]
    · rw [if_neg h, if_pos (by omega)]
  all_goals rfl

theorem pyBytes_le {arg : Option PyArg} {b : List Byte} (h : Spec.pyBytes arg = .inr b) : b.length ≤ Spec.maxSize := by
  rcases arg with _ | (c | _ | _ | _)
  · cases h
  · simp only [Spec.pyBytes] at h
    by_cases hc : c.length ≤ Spec.maxSize
    · rw [if_pos hc] at h
      injection h with h
      rwa [← h]
    · rw [if_neg hc] at h
      cases h
  all_goals cases h

theorem pyKey_le {arg : PyArg} {b : List Byte} (h : Spec.pyKey arg = .inr b) : b.length ≤ Spec.maxSize := by
  rcases arg with c | _ | _ | _
  · simp only [Spec.pyKey] at h
    by_cases hc : c.length ≤ Spec.maxSize
    · rw [if_pos hc] at h
      injection h with h
      rwa [← h]
    · rw [if_neg hc] at h
      cases h
  all_goals cases h

/-- `tp_init` on the object of variable `i`, or on a new one. -/
theorem pyInit_ok {kinds : Nat → Kind} {slots : Nat → Option Nat} {m : Mem} {base : Nat → List Nat} {b : (i : Nat) → Option (List (BitVec (kinds i).width) × List Byte)}
    (h : MemOk kinds slots m base) (hrel : MultiRel kinds slots m b) (al : Nat → Bool) {e : PyEnv} (he : e.Ok) (i : Nat) (hs : slots i = none) (hb : b i = none) :
    (al m.count = true ∧ ∃ p m', pyInit (kinds i) al e m = .ok (0, some p, m') ∧ MultiRel kinds (Function.update slots i (some p)) m' (Function.update b i (some ((kinds i).len64.iv, []))) ∧
      MemOk kinds (Function.update slots i (some p)) m' base) ∨
    (al m.count = false ∧ ∃ m', pyInit (kinds i) al e m = .ok (-1, none, m') ∧ MultiRel kinds slots m' b ∧ MemOk kinds slots m' base) := by
  obtain ⟨slot', s', e1, h1, h2⟩ := mem_step h hrel true al e i .init trivial (e.env (kinds i)).scr (he _).1
  rw [hs] at e1
  have e2 := depInitialize_of_step e1
  rw [hb] at e2 h1
  cases hal : al m.count with
  | true =>
    left
    refine ⟨rfl, ?_⟩
    simp only [kindStep, Spec.apiStep, hal, if_true] at e2 h1
    cases slot' with
    | none => simpa [VarRel] using h1.1 i
    | some p =>
      refine ⟨p, _, ?_, h1, h2⟩
      simp only [pyInit, e2, Res.ok_bind]
      rfl
  | false =>
    right
    refine ⟨rfl, ?_⟩
    simp only [kindStep, Spec.apiStep, hal, if_false, Bool.false_eq_true] at e2 h1
    cases slot' with
    | some p => simpa [VarRel] using h1.1 i
    | none =>
      rw [← hs, Function.update_eq_self] at h1 h2
      rw [← hb, Function.update_eq_self] at h1
      refine ⟨_, ?_, h1, h2⟩
      simp only [pyInit, e2, Res.ok_bind]
      rfl

theorem create_done {kinds : Nat → Kind} {u : Kind → Bool} {al : Nat → Bool} {e : PyEnv} {st : PySt} {o : PyObjects kinds} {base : Nat → List Nat} (he : e.Ok) (hr : PyRel kinds st o base)
    (i : Nat) (ok : Bool) : ∃ fail st', PyDone kinds u al e (.create i ok) st o base fail st' := by
  have hb := hr.bound i
  cases hv : st.vars i with
  | some x =>
    rw [hv] at hb
    obtain ⟨y, hy⟩ := Option.isSome_iff_exists.1 hb.symm
    have hs : Spec.pyStep kinds false (.create i ok) o = (.raised .name, o) := by simp only [Spec.pyStep, hy]
    exact ⟨false, st, by simp only [pyExec, pyNew, hv, hs], by rw [hs]; exact hr, fun _ => rfl, by rw [hs]; simp [Spec.pyObjectChange]⟩
  | none =>
    rw [hv] at hb
    have hy : o i = none := by simpa using hb.symm
    cases ok with
    | false =>
      have hs : Spec.pyStep kinds false (.create i false) o = (.raised .memory, o) := by simp [Spec.pyStep, hy]
      exact ⟨false, st, by simp [pyExec, pyNew, hv, hs, pyCreate], by rw [hs]; exact hr, fun _ => rfl, by rw [hs]; simp [Spec.pyObjectChange]⟩
    | true =>
      rcases pyInit_ok hr.mem hr.rel al he i (by rw [hv]; rfl) (by rw [hy]; rfl) with ⟨hal, p, m', e1, h1, h2⟩ | ⟨hal, m', e1, h1, h2⟩
      · have hs : Spec.pyStep kinds false (.create i true) o = (.none, Function.update o i (some (some ((kinds i).len64.iv, [])))) := by simp [Spec.pyStep, hy]
        refine ⟨false, { st with vars := Function.update st.vars i (some (some p)), mem := m', objects := st.objects + 1 }, ?_, ?_, fun _ => rfl, ?_⟩
        · simp [pyExec, pyNew, hv, hs, pyCreate, e1]
        · rw [hs]
          exact hr.set rfl h1 h2
        · rw [hs]; rfl
      · have hs : Spec.pyStep kinds true (.create i true) o = (.raised .value, o) := by simp [Spec.pyStep, hy]
        refine ⟨true, { st with mem := m', objects := st.objects + 1 }, ?_, ?_, fun h => ?_, ?_⟩
        · simp [pyExec, pyNew, hv, hs, pyCreate, e1, pyFree]
        · rw [hs]
          exact hr.put h1 h2
        · rw [h] at hal; cases hal
        · rw [hs]; rfl

theorem createRaw_done {kinds : Nat → Kind} {u : Kind → Bool} {al : Nat → Bool} {e : PyEnv} {st : PySt} {o : PyObjects kinds} {base : Nat → List Nat} (hr : PyRel kinds st o base)
    (i : Nat) (ok : Bool) : ∃ fail st', PyDone kinds u al e (.createRaw i ok) st o base fail st' := by
  have hb := hr.bound i
  cases hv : st.vars i with
  | some x =>
    rw [hv] at hb
    obtain ⟨y, hy⟩ := Option.isSome_iff_exists.1 hb.symm
    have hs : Spec.pyStep kinds false (.createRaw i ok) o = (.raised .name, o) := by simp only [Spec.pyStep, hy]
    exact ⟨false, st, by simp only [pyExec, pyNew, hv, hs], by rw [hs]; exact hr, fun _ => rfl, by rw [hs]; simp [Spec.pyObjectChange]⟩
  | none =>
    rw [hv] at hb
    have hy : o i = none := by simpa using hb.symm
    cases ok with
    | false =>
      have hs : Spec.pyStep kinds false (.createRaw i false) o = (.raised .memory, o) := by simp [Spec.pyStep, hy]
      exact ⟨false, st, by simp [pyExec, pyNew, hv, hs], by rw [hs]; exact hr, fun _ => rfl, by rw [hs]; simp [Spec.pyObjectChange]⟩
    | true =>
      have hs : Spec.pyStep kinds false (.createRaw i true) o = (.none, Function.update o i (some none)) := by simp [Spec.pyStep, hy]
      refine ⟨false, { st with vars := Function.update st.vars i (some none), objects := st.objects + 1 }, by simp [pyExec, pyNew, hv, hs], ?_, fun _ => rfl, by rw [hs]; rfl⟩
      rw [hs]
      have e1 : Function.update (fun i => (st.vars i).join) i none = fun i => (st.vars i).join := by
        conv => lhs; arg 3; rw [show none = (st.vars i).join by rw [hv]; rfl]
        exact Function.update_eq_self _ _
      have e2 : Function.update (fun i => (o i).join) i none = fun i => (o i).join := by
        conv => lhs; arg 3; rw [show none = (o i).join by rw [hy]; rfl]
        exact Function.update_eq_self _ _
      refine hr.set rfl ?_ ?_
      · show MultiRel kinds (Function.update _ i none) st.mem (Function.update _ i none)
        rw [e1, e2]; exact hr.rel
      · show MemOk kinds (Function.update _ i none) st.mem base
        rw [e1]; exact hr.mem

/-- The statements on a bound variable. -/
theorem method_done {kinds : Nat → Kind} {st : PySt} {o : PyObjects kinds} {base : Nat → List Nat} (hr : PyRel kinds st o base) (i : Nat) :
    (st.vars i = none ∧ o i = none) ∨ ∃ x y, st.vars i = some x ∧ o i = some y ∧ x.isSome = y.isSome := by
  have hb := hr.bound i
  have h1 : VarRel (algOf (kinds i)) (kinds i).len64 (st.vars i).join (st.mem.view (kinds i).width) (o i).join := hr.rel.1 i
  cases hv : st.vars i with
  | none =>
    rw [hv] at hb
    exact .inl ⟨rfl, by simpa using hb.symm⟩
  | some x =>
    rw [hv] at hb
    obtain ⟨y, hy⟩ := Option.isSome_iff_exists.1 hb.symm
    rw [hv, hy] at h1
    refine .inr ⟨x, y, rfl, hy, ?_⟩
    cases x <;> cases y <;> first | rfl | exact h1.elim

theorem reinit_done {kinds : Nat → Kind} {u : Kind → Bool} {al : Nat → Bool} {e : PyEnv} {st : PySt} {o : PyObjects kinds} {base : Nat → List Nat} (he : e.Ok) (hr : PyRel kinds st o base)
    (i : Nat) : ∃ fail st', PyDone kinds u al e (.reinit i) st o base fail st' := by
  obtain ⟨f1, f2⟩ := forget hr.mem hr.rel i
  rcases method_done hr i with ⟨hv, hy⟩ | ⟨x, y, hv, hy, -⟩
  · have hs : Spec.pyStep kinds false (.reinit i) o = (.raised .name, o) := by simp only [Spec.pyStep, hy]
    refine ⟨false, st, by simp only [pyExec, pyOn, hv, hs], ?_, fun _ => rfl, by rw [hs]; simp [Spec.pyObjectChange]⟩
    rw [hs]
    have : leakBy kinds (.reinit i) st base = base := by
      show Function.update base (kinds i).width ((st.vars i).join.toList ++ base (kinds i).width) = base
      rw [hv]
      exact Function.update_eq_self _ _
    rw [this]
    exact hr
  · rcases pyInit_ok f2 f1 al he i (Function.update_self _ _ _) (Function.update_self _ _ _) with ⟨hal, p, m', e1, h1, h2⟩ | ⟨hal, m', e1, h1, h2⟩
    · have hs : Spec.pyStep kinds false (.reinit i) o = (.none, Function.update o i (some (some ((kinds i).len64.iv, [])))) := by simp [Spec.pyStep, hy]
      refine ⟨false, { st with vars := Function.update st.vars i (some (some p)), mem := m' }, ?_, ?_, fun _ => rfl, by rw [hs]; simp [Spec.pyObjectChange]⟩
      · simp [pyExec, pyOn, pyMethod, hv, hs, e1]
      · rw [hs]
        rw [Function.update_idem, Function.update_idem] at h1
        rw [Function.update_idem] at h2
        exact hr.set rfl h1 h2
    · have hs : Spec.pyStep kinds true (.reinit i) o = (.raised .memory, Function.update o i (some none)) := by simp [Spec.pyStep, hy]
      refine ⟨true, { st with vars := Function.update st.vars i (some none), mem := m' }, ?_, ?_, fun h => ?_, by rw [hs]; simp [Spec.pyObjectChange]⟩
      · simp [pyExec, pyOn, pyMethod, hv, hs, e1]
      · rw [hs]
        exact hr.set rfl h1 h2
      · rw [h] at hal; cases hal

theorem update_done {kinds : Nat → Kind} {u : Kind → Bool} {al : Nat → Bool} {e : PyEnv} {st : PySt} {o : PyObjects kinds} {base : Nat → List Nat} (he : e.Ok) (hr : PyRel kinds st o base)
    (i : Nat) (arg : Option PyArg) : ∃ fail st', PyDone kinds u al e (.update i arg) st o base fail st' := by
  refine ⟨false, ?_⟩
  rcases method_done hr i with ⟨hv, hy⟩ | ⟨x, y, hv, hy, -⟩
  · have hs : Spec.pyStep kinds false (.update i arg) o = (.raised .name, o) := by simp only [Spec.pyStep, hy]
    exact ⟨st, by simp only [pyExec, pyOn, hv, hs], by rw [hs]; exact hr, fun _ => rfl, by rw [hs]; simp [Spec.pyObjectChange]⟩
  · cases ha : Spec.pyBytes arg with
    | inl x =>
      have hs : Spec.pyStep kinds false (.update i arg) o = (.raised x, o) := by simp only [Spec.pyStep, hy, ha]
      refine ⟨st, ?_, by rw [hs]; exact hr, fun _ => rfl, by rw [hs]; simp [Spec.pyObjectChange]⟩
      simp [pyExec, pyOn, pyMethod, hv, hs, pyUpdate, pyData_eq, ha]
    | inr d =>
      have hd := pyBytes_le ha
      obtain ⟨slot', s', e1, h1, h2⟩ := mem_step hr.mem hr.rel (u (kinds i)) al e i (.update (some d) d.length) (fun _ => Nat.le_refl _) (e.env (kinds i)).scr (he _).1
      rw [show (st.vars i).join = x by rw [hv]; rfl] at e1
      obtain ⟨e2, rfl⟩ := depUpdate_of_step e1
      rw [show (o i).join = y by rw [hy]; rfl] at e2 h1
      have hex : pyExec kinds u al e (.update i arg) st = (pyUpdate (kinds i) (u (kinds i)) e slot' arg st.mem >>= fun x => pure (x.1, { st with mem := x.2 })) := by
        simp only [pyExec, pyOn, hv]; rfl
      refine ⟨{ st with mem := st.mem.put (kinds i).width s' }, ?_, ?_, fun _ => rfl, ?_⟩
      · rw [hex]
        simp only [pyUpdate, pyData_eq, ha]
        rw [e2]
        cases y with
        | none => simp [Spec.pyStep, hy, ha, kindStep, Spec.apiStep]
        | some y => simp [Spec.pyStep, hy, ha, kindStep, Spec.apiStep, hd]
      · cases y with
        | none =>
          simp only [kindStep, Spec.apiStep] at h1
          simp only [Spec.pyStep, hy, ha]
          have := hr.set' hv (n := st.objects) (r := st.noneRefs) h1 h2
          rwa [← hy, Function.update_eq_self] at this
        | some y =>
          simp only [kindStep, Spec.apiStep, hd, if_true, List.take_length] at h1
          simp only [Spec.pyStep, hy, ha]
          exact hr.set' hv h1 h2
      · simp [Spec.pyObjectChange]

theorem finalize_done {kinds : Nat → Kind} {u : Kind → Bool} {al : Nat → Bool} {e : PyEnv} {st : PySt} {o : PyObjects kinds} {base : Nat → List Nat} (he : e.Ok) (hr : PyRel kinds st o base)
    (i : Nat) (ok : Bool) : ∃ fail st', PyDone kinds u al e (.finalize i ok) st o base fail st' := by
  refine ⟨false, ?_⟩
  rcases method_done hr i with ⟨hv, hy⟩ | ⟨x, y, hv, hy, -⟩
  · have hs : Spec.pyStep kinds false (.finalize i ok) o = (.raised .name, o) := by simp only [Spec.pyStep, hy]
    exact ⟨st, by simp only [pyExec, pyOn, hv, hs], by rw [hs]; exact hr, fun _ => rfl, by rw [hs]; simp [Spec.pyObjectChange]⟩
  · have hl : (e.hash (kinds i)).length = (kinds i).hashSize := (he _).2.1
    have hm : (kinds i).hashSize ≤ Spec.maxSize := by cases kinds i <;> decide
    obtain ⟨slot', s', e1, h1, h2⟩ := mem_step hr.mem hr.rel (u (kinds i)) al e i (.finalize (some (e.hash (kinds i))) (kinds i).hashSize) (fun _ => Nat.le_of_eq hl.symm) (e.env (kinds i)).scr (he _).1
    rw [show (st.vars i).join = x by rw [hv]; rfl] at e1
    obtain ⟨e2, rfl⟩ := depFinalize_of_step e1
    rw [show (o i).join = y by rw [hy]; rfl] at e2 h1
    have hex : pyExec kinds u al e (.finalize i ok) st = (pyFinalize (kinds i) (u (kinds i)) e slot' ok st.mem >>= fun x => pure (x.1, { st with mem := x.2 })) := by
      simp only [pyExec, pyOn, hv]; rfl
    refine ⟨{ st with mem := st.mem.put (kinds i).width s' }, ?_, ?_, fun _ => rfl, ?_⟩
    · rw [hex]
      unfold pyFinalize
      rw [algOf_hashSize, e2]
      cases y with
      | none => simp [Spec.pyStep, hy, kindStep, Spec.apiStep]
      | some y =>
        have hdrop : (e.hash (kinds i)).drop (kinds i).hashSize = [] := List.drop_eq_nil_of_le (Nat.le_of_eq hl)
        simp [Spec.pyStep, hy, kindStep, Spec.apiStep, hm, hdrop]
    · cases y with
      | none =>
        simp only [kindStep, Spec.apiStep] at h1
        simp only [Spec.pyStep, hy]
        have := hr.set' hv (n := st.objects) (r := st.noneRefs) h1 h2
        rwa [← hy, Function.update_eq_self] at this
      | some y =>
        simp only [kindStep, Spec.apiStep, hm, le_refl, and_self, if_true] at h1
        simp only [Spec.pyStep, hy]
        exact hr.set' hv h1 h2
    · simp [Spec.pyObjectChange]

theorem release_done {kinds : Nat → Kind} {u : Kind → Bool} {al : Nat → Bool} {e : PyEnv} {st : PySt} {o : PyObjects kinds} {base : Nat → List Nat} (he : e.Ok) (hr : PyRel kinds st o base)
    (i : Nat) : ∃ fail st', PyDone kinds u al e (.release i) st o base fail st' := by
  refine ⟨false, ?_⟩
  rcases method_done hr i with ⟨hv, hy⟩ | ⟨x, y, hv, hy, hxy⟩
  · have hs : Spec.pyStep kinds false (.release i) o = (.raised .name, o) := by simp only [Spec.pyStep, hy]
    exact ⟨st, by simp only [pyExec, pyOn, hv, hs], by rw [hs]; exact hr, fun _ => rfl, by rw [hs]; simp [Spec.pyObjectChange]⟩
  · cases x with
    | none =>
      have hy' : y = none := by simpa using hxy.symm
      subst hy'
      have hs : Spec.pyStep kinds false (.release i) o = (.raised .value, Function.update o i none) := by simp only [Spec.pyStep, hy]
      refine ⟨{ st with vars := Function.update st.vars i none }, by simp [pyExec, pyOn, pyMethod, hv, hs, pyFree], ?_, fun _ => rfl, by rw [hs]; simp [Spec.pyObjectChange]⟩
      rw [hs]
      obtain ⟨f1, f2⟩ := forget hr.mem hr.rel i
      refine hr.set rfl f1 ?_
      rw [hv] at f2
      have hb : Function.update base (kinds i).width ((some none : Option (Option Nat)).join.toList ++ base (kinds i).width) = base := Function.update_eq_self _ _
      rw [hb] at f2
      exact f2
    | some p =>
      obtain ⟨y, rfl⟩ := Option.isSome_iff_exists.1 hxy.symm
      have hs : Spec.pyStep kinds false (.release i) o = (.none, Function.update o i none) := by simp only [Spec.pyStep, hy]
      obtain ⟨slot', s', e1, h1, h2⟩ := mem_step hr.mem hr.rel true al e i .free trivial (e.env (kinds i)).scr (he _).1
      rw [show (st.vars i).join = some p by rw [hv]; rfl] at e1
      have e2 := depFree_of_step e1
      simp only [kindStep, Spec.apiStep] at e2 h1
      refine ⟨⟨Function.update st.vars i none, st.mem.put (kinds i).width s', st.objects - 1, st.noneRefs⟩, ?_, ?_, fun _ => rfl, by rw [hs]; rfl⟩
      · rw [hs]
        simp [pyExec, pyOn, pyMethod, hv, pyFree, e2]
      · rw [hs]
        cases slot' with
        | some q => simpa [VarRel] using h1.1 i
        | none => exact hr.set rfl h1 h2

theorem slice_append_left (a b : List Byte) : Spec.slice (a ++ b) 0 a.length = a := by simp [Spec.slice]
theorem slice_append_mid (a b c : List Byte) : Spec.slice (a ++ (b ++ c)) a.length b.length = b := by simp [Spec.slice]
theorem drop_overwrite_end (a b d : List Byte) (h : d.length = b.length) : (Spec.overwrite (a ++ b) a.length d).drop a.length = d := by
  simp [Spec.overwrite, h, List.drop_append]

theorem put_view {m : Mem} {w : Nat} (s : St w) (c : List Byte) : m.put w { s with caller := c } = { m.put w s with caller := c } := rfl

theorem calculate_done {kinds : Nat → Kind} {u : Kind → Bool} {al : Nat → Bool} {e : PyEnv} {st : PySt} {o : PyObjects kinds} {base : Nat → List Nat} (he : e.Ok) (hr : PyRel kinds st o base)
    (k : Kind) (arg : Option PyArg) (ok : Bool) : ∃ fail st', PyDone kinds u al e (.calculate k arg ok) st o base fail st' := by
  cases ha : Spec.pyBytes arg with
  | inl x =>
    have hs : Spec.pyStep kinds false (.calculate k arg ok) o = (.raised x, o) := by simp only [Spec.pyStep, ha]
    refine ⟨false, st, ?_, by rw [hs]; exact hr, fun _ => rfl, by rw [hs]; simp [Spec.pyObjectChange]⟩
    simp [pyExec, pyCalculate, hs, pyData_eq, ha]
  | inr d =>
    have hd := pyBytes_le ha
    have hl : (e.hash k).length = k.hashSize := (he k).2.1
    have hm : k.hashSize ≤ Spec.maxSize := by cases k <;> decide
    obtain ⟨enc, L⟩ := lawful k
    rcases calculate_ok L (u k) { e.env k with allocOk := al } (scrOk_of_junk (he k).1) (some 0) d.length (some d.length) (algOf k).hashSize { st.mem.view k.width with caller := d ++ e.hash k }
      (by rintro _ ⟨⟩ -; simp) (by rintro _ ⟨⟩ -; rw [algOf_hashSize]; simp [hl]) with ⟨h, e1⟩ | ⟨-, h2, -⟩ | ⟨h, i', o', hi, -, ho, -, -, e1⟩
    · obtain ⟨g1, g2⟩ := mem_oneShot hr.mem hr.rel k.width ⟨st.mem.caller, st.mem.count + 1, st.mem.live k.width, st.mem.freed k.width⟩ rfl (Nat.le_succ _)
      refine ⟨true, ⟨st.vars, st.mem.put k.width ⟨st.mem.caller, st.mem.count + 1, st.mem.live k.width, st.mem.freed k.width⟩, st.objects, st.noneRefs⟩, ?_, ?_, fun h' => ?_, ?_⟩
      rotate_left
      · simp only [Spec.pyStep, ha]
        exact hr.put g1 g2
      · have := h' st.mem.count; rw [show al st.mem.count = false from h] at this; cases this
      · simp [Spec.pyObjectChange]
      · simp only [pyExec, pyCalculate, pyData_eq, ha]
        rw [e1]
        simp only [Spec.pyStep, ha]
        rfl
    · exact (h2 ⟨by simp, hd, by simp, le_refl _, by rw [algOf_hashSize]; exact hm⟩).elim
    · cases hi; cases ho
      obtain ⟨g1, g2⟩ := mem_oneShot hr.mem hr.rel k.width ⟨st.mem.caller, st.mem.count + 1, st.mem.live k.width, (st.mem.count, .ctx (zeroCtx (algOf k))) :: st.mem.freed k.width⟩ rfl (Nat.le_succ _)
      refine ⟨false, ⟨st.vars, st.mem.put k.width ⟨st.mem.caller, st.mem.count + 1, st.mem.live k.width, (st.mem.count, .ctx (zeroCtx (algOf k))) :: st.mem.freed k.width⟩, st.objects, st.noneRefs + 1⟩, ?_, ?_, fun _ => rfl, ?_⟩
      rotate_left
      · simp only [Spec.pyStep, ha]
        exact hr.put g1 g2
      · simp [Spec.pyObjectChange]
      · simp only [pyExec, pyCalculate, pyData_eq, ha]
        rw [e1]
        simp only [Spec.pyStep, ha, Res.ok_bind]
        rw [slice_append_left, drop_overwrite_end _ _ _ (by rw [digest_length, hl])]
        cases ok <;> rfl

theorem calculateHmac_done {kinds : Nat → Kind} {u : Kind → Bool} {al : Nat → Bool} {e : PyEnv} {st : PySt} {o : PyObjects kinds} {base : Nat → List Nat} (he : e.Ok) (hr : PyRel kinds st o base)
    (k : Kind) (args : Option (PyArg × PyArg)) (ok : Bool) : ∃ fail st', PyDone kinds u al e (.calculateHmac k args ok) st o base fail st' := by
  cases args with
  | none =>
    have hs : Spec.pyStep kinds false (.calculateHmac k none ok) o = (.raised .type, o) := by simp only [Spec.pyStep]
    exact ⟨false, st, by simp [pyExec, pyCalculateHmac, hs], by rw [hs]; exact hr, fun _ => rfl, by rw [hs]; simp [Spec.pyObjectChange]⟩
  | some args =>
    obtain ⟨key, data⟩ := args
    cases hk : Spec.pyKey key with
    | inl x =>
      have hs : Spec.pyStep kinds false (.calculateHmac k (some (key, data)) ok) o = (.raised x, o) := by simp only [Spec.pyStep, hk]
      exact ⟨false, st, by simp [pyExec, pyCalculateHmac, hs, pyKeyData_eq, hk], by rw [hs]; exact hr, fun _ => rfl, by rw [hs]; simp [Spec.pyObjectChange]⟩
    | inr kb =>
      cases ha : Spec.pyBytes (some data) with
      | inl x =>
        have hs : Spec.pyStep kinds false (.calculateHmac k (some (key, data)) ok) o = (.raised x, o) := by simp only [Spec.pyStep, hk, ha]
        exact ⟨false, st, by simp [pyExec, pyCalculateHmac, hs, pyKeyData_eq, hk, pyData_eq, ha], by rw [hs]; exact hr, fun _ => rfl, by rw [hs]; simp [Spec.pyObjectChange]⟩
      | inr d =>
        have hkb := pyKey_le hk
        have hd := pyBytes_le ha
        have hl : (e.hash k).length = k.hashSize := (he k).2.1
        have hm : k.hashSize ≤ Spec.maxSize := by cases k <;> decide
        obtain ⟨enc, L⟩ := lawful k
        obtain ⟨r, l', s', fl, e1, h⟩ := calculateHmac_ok L (u k) { e.env k with allocOk := al } (scrOk_of_junk (he k).1) (e.keyHash k) (by rw [(he k).2.2, algOf_hashSize])
          (some 0) kb.length (some kb.length) d.length (some (kb.length + d.length)) (algOf k).hashSize { st.mem.view k.width with caller := kb ++ (d ++ e.hash k) }
          (by rintro _ ⟨⟩ -; simp) (by rintro _ ⟨⟩ -; simp) (by rintro _ ⟨⟩ -; rw [algOf_hashSize]; simp [hl]; omega)
        have hargs : (some 0 : Option Nat) ≠ none ∧ kb.length ≤ ssizeMax ∧ PassArgs (algOf k) (some kb.length) d.length (some (kb.length + d.length)) (algOf k).hashSize :=
          ⟨by simp, hkb, by simp, hd, by simp, le_refl _, by rw [algOf_hashSize]; exact hm⟩
        obtain ⟨g1, g2⟩ := mem_oneShot hr.mem hr.rel k.width { s' with caller := st.mem.caller } h.live h.count.1
        have hbad : r = -1 → (∃ j, al (st.mem.count + j) = false) → ∃ fail st', PyDone kinds u al e (.calculateHmac k (some (key, data)) ok) st o base fail st' := by
          rintro rfl ⟨j, hj⟩
          refine ⟨true, { st with mem := st.mem.put k.width { s' with caller := st.mem.caller } }, ?_, ?_, fun h' => ?_, ?_⟩
          · simp only [pyExec, pyCalculateHmac, pyData_eq, ha, pyKeyData_eq, hk]
            rw [e1]
            simp only [Spec.pyStep, ha, hk]
            rfl
          · simp only [Spec.pyStep, ha, hk]
            exact hr.put g1 g2
          · rw [h'] at hj; cases hj
          · simp [Spec.pyObjectChange]
        rcases h.result with ⟨rfl, -, k', i', o', h1, h2, h3, -, h5⟩ | ⟨h0, -, h1 | ⟨j, hj, h1⟩⟩ | ⟨h0, -, h2, -⟩
        · cases h1; cases h2; cases h3
          refine ⟨false, { st with mem := st.mem.put k.width { s' with caller := st.mem.caller }, noneRefs := st.noneRefs + 1 }, ?_, ?_, fun _ => rfl, ?_⟩
          · simp only [pyExec, pyCalculateHmac, pyData_eq, ha, pyKeyData_eq, hk]
            rw [e1]
            simp only [Spec.pyStep, ha, hk, Res.ok_bind]
            rw [h5]
            simp only
            rw [slice_append_left, slice_append_mid, algOf_hmacBs, hmacOf_paddedKey k.blockSize k.len64.digest kb d, ← List.append_assoc, ← List.length_append, drop_overwrite_end _ _ _ (by rw [hmac_length, hl])]
            cases ok <;> rfl
          · simp only [Spec.pyStep, ha, hk]
            exact hr.put g1 g2
          · simp [Spec.pyObjectChange]
        · exact (h1 hargs).elim
        · exact hbad h0 ⟨_, h1⟩
        · exact hbad h0 ⟨_, h2⟩

/-- Every statement is carried out, and its outcome is that of the specification. -/
theorem pyExec_ok {kinds : Nat → Kind} {u : Kind → Bool} {al : Nat → Bool} {e : PyEnv} {st : PySt} {o : PyObjects kinds} {base : Nat → List Nat} (he : e.Ok) (hr : PyRel kinds st o base)
    (op : PyOp) : ∃ fail st', PyDone kinds u al e op st o base fail st' := by
  cases op with
  | create i ok => exact create_done he hr i ok
  | createRaw i ok => exact createRaw_done hr i ok
  | reinit i => exact reinit_done he hr i
  | update i arg => exact update_done he hr i arg
  | finalize i ok => exact finalize_done he hr i ok
  | release i => exact release_done he hr i
  | calculate k arg ok => exact calculate_done he hr k arg ok
  | calculateHmac k args ok => exact calculateHmac_done he hr k args ok

/-- A whole program. -/
theorem pyProgram_ok {kinds : Nat → Kind} {u : Kind → Bool} {al : Nat → Bool} : ∀ (prog : List (PyOp × PyEnv)) (st : PySt) (o : PyObjects kinds) (base : Nat → List Nat), (∀ x ∈ prog, x.2.Ok) → PyRel kinds st o base →
    ∃ fails st' base', fails.length = prog.length ∧ pyProgram kinds u al prog st = .ok ((Spec.pyRun kinds ((prog.map (·.1)).zip fails) o).1, st') ∧
      PyRel kinds st' (Spec.pyRun kinds ((prog.map (·.1)).zip fails) o).2 base' ∧ ((∀ n, al n = true) → ∀ f ∈ fails, f = false) ∧
      st'.objects = st.objects + (((prog.map (·.1)).zip (Spec.pyRun kinds ((prog.map (·.1)).zip fails) o).1).map (fun x => Spec.pyObjectChange x.1 x.2)).sum ∧
      ((∀ x ∈ prog, ∀ i, x.1 ≠ .reinit i) → base' = base)
  | [], st, o, base, _, hr => ⟨[], st, base, rfl, rfl, hr, (by intro _ _ h; cases h), (by simp [Spec.pyRun]), fun _ => rfl⟩
  | (op, e) :: t, st, o, base, he, hr => by
    obtain ⟨f, st1, h1⟩ := pyExec_ok (u := u) (al := al) (he (op, e) List.mem_cons_self) hr op
    obtain ⟨fs, st2, base', g1, g2, g3, g4, g5, g6⟩ := pyProgram_ok (u := u) (al := al) t st1 _ _ (fun x hx => he x (List.mem_cons_of_mem _ hx)) h1.rel
    refine ⟨f :: fs, st2, base', by simp [g1], ?_, g3, fun h => ?_, ?_, fun h => ?_⟩
    · simp only [pyProgram, h1.eq, Res.ok_bind, g2]
      rfl
    · intro x hx
      rcases List.mem_cons.1 hx with rfl | hx
      · exact h1.fails h
      · exact g4 h x hx
    · rw [g5, h1.objects]
      simp only [List.map_cons, List.zip_cons_cons, Spec.pyRun, List.sum_cons]
      omega
    · rw [g6 (fun x hx => h x (List.mem_cons_of_mem _ hx))]
      have := h (op, e) List.mem_cons_self
      cases op <;> first | rfl | exact (this _ rfl).elim

/-- The results of a program are one per statement. -/
theorem pyRun_length (kinds : Nat → Kind) : ∀ (l : List (PyOp × Bool)) (o : PyObjects kinds), (Spec.pyRun kinds l o).1.length = l.length
  | [], _ => rfl
  | (op, f) :: t, o => by simp [Spec.pyRun, pyRun_length kinds t]

theorem pyRun_append (kinds : Nat → Kind) : ∀ (a b : List (PyOp × Bool)) (o : PyObjects kinds),
    Spec.pyRun kinds (a ++ b) o = ((Spec.pyRun kinds a o).1 ++ (Spec.pyRun kinds b (Spec.pyRun kinds a o).2).1, (Spec.pyRun kinds b (Spec.pyRun kinds a o).2).2)
  | [], _, _ => rfl
  | (op, f) :: t, b, o => by simp [Spec.pyRun, pyRun_append kinds t b]

/-- What `pyFed` says about the objects. -/
theorem pyFed_ok {kinds : Nat → Kind} (i : Nat) : ∀ (l : List (PyOp × Bool)) (o : PyObjects kinds) (m0 : Option (List Byte)), (∀ d, m0 = some d → o i = some (some ((kinds i).len64.iv, d))) →
    ∀ d, Spec.pyFed i ((l.map (·.1)).zip (Spec.pyRun kinds l o).1) m0 = some d → (Spec.pyRun kinds l o).2 i = some (some ((kinds i).len64.iv, d))
  | [], o, m0, h0, d, h => h0 d h
  | (op, f) :: t, o, m0, h0, d, h => by
    simp only [Spec.pyRun, List.map_cons, List.zip_cons_cons] at h ⊢
    have ih := pyFed_ok i t (Spec.pyStep kinds f op o).2
    have key : ∀ m1, Spec.pyFed i ((op, (Spec.pyStep kinds f op o).1) :: (t.map (·.1)).zip (Spec.pyRun kinds t (Spec.pyStep kinds f op o).2).1) m0 =
        Spec.pyFed i ((t.map (·.1)).zip (Spec.pyRun kinds t (Spec.pyStep kinds f op o).2).1) m1 → (∀ d, m1 = some d → (Spec.pyStep kinds f op o).2 i = some (some ((kinds i).len64.iv, d))) →
        (Spec.pyRun kinds t (Spec.pyStep kinds f op o).2).2 i = some (some ((kinds i).len64.iv, d)) := by
      intro m1 e h1
      exact ih m1 h1 d (by rw [← e]; exact h)
    cases op with
    | create j ok =>
      cases hj : o j with
      | some x =>
        simp only [Spec.pyStep, hj] at key ⊢
        exact key m0 rfl h0
      | none =>
        cases ok with
        | false =>
          simp only [Spec.pyStep, hj, Bool.false_eq_true, if_false] at key ⊢
          exact key m0 rfl h0
        | true =>
          cases f with
          | true =>
            simp only [Spec.pyStep, hj, if_true] at key ⊢
            exact key m0 rfl h0
          | false =>
            simp only [Spec.pyStep, hj, Bool.false_eq_true, if_true, if_false] at key ⊢
            refine key (if j = i then some [] else m0) rfl ?_
            by_cases hji : j = i
            · subst hji
              rintro d' h
              rw [if_pos rfl] at h
              injection h with h
              rw [Function.update_self, h]
            · intro d' h
              rw [if_neg hji] at h
              rw [Function.update_of_ne (Ne.symm hji)]
              exact h0 d' h
    | createRaw j ok =>
      cases hj : o j with
      | some x =>
        simp only [Spec.pyStep, hj] at key ⊢
        exact key m0 rfl h0
      | none =>
        cases ok with
        | false =>
          simp only [Spec.pyStep, hj, Bool.false_eq_true, if_false] at key ⊢
          exact key m0 rfl h0
        | true =>
          simp only [Spec.pyStep, hj, if_true] at key ⊢
          refine key m0 rfl ?_
          intro d' h
          have := h0 d' h
          rw [Function.update_of_ne (fun e => by rw [e, hj] at this; cases this)]
          exact this
    | reinit j =>
      cases hj : o j with
      | none =>
        simp only [Spec.pyStep, hj] at key ⊢
        refine key (if j = i then none else m0) rfl ?_
        intro d' h
        split at h
        · cases h
        · exact h0 d' h
      | some x =>
        cases f with
        | true =>
          simp only [Spec.pyStep, hj, if_true] at key ⊢
          refine key (if j = i then none else m0) rfl ?_
          intro d' h
          split at h
          · cases h
          · rename_i hji
            rw [Function.update_of_ne (Ne.symm hji)]
            exact h0 d' h
        | false =>
          simp only [Spec.pyStep, hj, Bool.false_eq_true, if_false] at key ⊢
          refine key (if j = i then some [] else m0) rfl ?_
          by_cases hji : j = i
          · subst hji
            rintro d' h
            rw [if_pos rfl] at h
            injection h with h
            rw [Function.update_self, h]
          · intro d' h
            rw [if_neg hji] at h
            rw [Function.update_of_ne (Ne.symm hji)]
            exact h0 d' h
    | update j arg =>
      cases hj : o j with
      | none =>
        simp only [Spec.pyStep, hj] at key ⊢
        refine key m0 ?_ h0
        rcases arg with _ | (b | _ | _ | _) <;> rfl
      | some x =>
        cases ha : Spec.pyBytes arg with
        | inl y =>
          simp only [Spec.pyStep, hj, ha] at key ⊢
          refine key m0 ?_ h0
          rcases arg with _ | (b | _ | _ | _) <;> rfl
        | inr b =>
          have harg : arg = some (.bytes b) := by
            rcases arg with _ | (c | _ | _ | _)
            · cases ha
            · simp only [Spec.pyBytes] at ha
              split at ha
              · injection ha with ha; rw [ha]
              · cases ha
            all_goals cases ha
          subst harg
          cases x with
          | none =>
            simp only [Spec.pyStep, hj, ha] at key ⊢
            exact key m0 rfl h0
          | some x =>
            obtain ⟨hx, mx⟩ := x
            simp only [Spec.pyStep, hj, ha] at key ⊢
            refine key (if j = i then m0.map (· ++ b) else m0) rfl ?_
            by_cases hji : j = i
            · subst hji
              intro d' h
              rw [if_pos rfl] at h
              cases hm : m0 with
              | none => rw [hm] at h; cases h
              | some d0 =>
                rw [hm] at h
                injection h with h
                have := h0 d0 hm
                rw [hj] at this
                simp only [Option.some.injEq, Prod.mk.injEq] at this
                rw [Function.update_self, this.1, this.2, ← h]
            · intro d' h
              rw [if_neg hji] at h
              rw [Function.update_of_ne (Ne.symm hji)]
              exact h0 d' h
    | finalize j ok =>
      refine key (if j = i then none else m0) rfl ?_
      intro d' h
      split at h
      · cases h
      · rename_i hji
        rcases hj : o j with _ | _ | x
        · simp only [Spec.pyStep, hj]; exact h0 d' h
        · simp only [Spec.pyStep, hj]; exact h0 d' h
        · simp only [Spec.pyStep, hj]
          rw [Function.update_of_ne (Ne.symm hji)]
          exact h0 d' h
    | release j =>
      refine key (if j = i then none else m0) rfl ?_
      intro d' h
      split at h
      · cases h
      · rename_i hji
        rcases hj : o j with _ | _ | x
        · simp only [Spec.pyStep, hj]; exact h0 d' h
        · simp only [Spec.pyStep, hj]
          rw [Function.update_of_ne (Ne.symm hji)]
          exact h0 d' h
        · simp only [Spec.pyStep, hj]
          rw [Function.update_of_ne (Ne.symm hji)]
          exact h0 d' h
    | calculate k arg ok =>
      refine key m0 rfl ?_
      simp only [Spec.pyStep]
      split <;> exact h0
    | calculateHmac k args ok =>
      refine key m0 rfl ?_
      simp only [Spec.pyStep]
      split
      · exact h0
      · split
        · exact h0
        · split <;> exact h0

end Model
