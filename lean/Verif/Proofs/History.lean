import Verif.Proofs.Stream
import Verif.Spec.History
/-! Facts about every state that a client can reach. -/

namespace Props

open Model Spec

/-- The client's obligations for a list of calls. -/
def ValidCalls (k : Kind) (calls : List (ApiCall × Scr k.width)) : Prop := ∀ c ∈ calls, c.1.Valid ∧ Kind.Junk k c.2

theorem history_spec {w} (H : IterHash w) (n z al) : ∀ (calls : List ApiCall) (a : ApiState w) (m : List Byte) (h : List (BitVec w)),
    (∀ x, a.slot = some x → x = (h, m)) → ∀ x, (apiRun H n z al calls a).2.slot = some x →
      x = (started H.iv z (calls.zip (apiRun H n z al calls a).1) h, received (calls.zip (apiRun H n z al calls a).1) m)
  | [], a, m, h, ha => by
    intro x hx
    exact ha x hx
  | c :: cs, a, m, h, ha => by
    intro x hx
    simp only [apiRun, List.zip_cons_cons] at hx ⊢
    obtain ⟨slot, att⟩ := a
    cases slot with
    | none =>
      cases c with
      | init =>
        by_cases hal : al att
        · simp only [apiStep, hal, if_true, started, received] at hx ⊢
          exact history_spec H n z al cs _ _ _ (by rintro x ⟨⟩; rfl) x hx
        · simp only [apiStep, hal, started, received] at hx ⊢
          exact history_spec H n z al cs _ _ _ (by rintro x ⟨⟩) x hx
      | update buf size =>
        cases buf <;> exact history_spec H n z al cs _ _ _ (by rintro x ⟨⟩) x hx
      | _ => exact history_spec H n z al cs _ _ _ (by rintro x ⟨⟩) x hx
    | some y =>
      obtain ⟨h', m'⟩ := y
      obtain ⟨rfl, rfl⟩ : h' = h ∧ m' = m := by simpa using ha _ rfl
      cases c with
      | free =>
        exact history_spec H n z al cs _ _ _ (by rintro x ⟨⟩) x hx
      | update buf size =>
        cases buf with
        | none => exact history_spec H n z al cs _ _ _ (by rintro x ⟨⟩; rfl) x hx
        | some b =>
          by_cases hs : size ≤ maxSize
          · simp only [apiStep, hs, if_true, started, received] at hx ⊢
            exact history_spec H n z al cs _ _ _ (by rintro x ⟨⟩; rfl) x hx
          · simp only [apiStep, hs, if_false, started, received] at hx ⊢
            exact history_spec H n z al cs _ _ _ (by rintro x ⟨⟩; rfl) x hx
      | finalize out size =>
        cases out with
        | none => exact history_spec H n z al cs _ _ _ (by rintro x ⟨⟩; rfl) x hx
        | some b =>
          by_cases hs : n ≤ size ∧ size ≤ maxSize
          · simp only [apiStep, hs, and_self, if_true, started, received] at hx ⊢
            exact history_spec H n z al cs _ _ _ (by rintro x ⟨⟩; rfl) x hx
          · simp only [apiStep, hs, if_false, started, received] at hx ⊢
            exact history_spec H n z al cs _ _ _ (by rintro x ⟨⟩; rfl) x hx
      | _ => exact history_spec H n z al cs _ _ _ (by rintro x ⟨⟩; rfl) x hx

/-- Everything known about a reachable state. -/
theorem reach {k : Kind} {u : Bool} {env : Env k.width} {calls : List (ApiCall × Scr k.width)} {s s' : St k.width} {rs : List Reply} {slot : Option Nat}
    (hv : ValidCalls k calls) (hrun : run (algOf k) u env calls none s = .ok (rs, slot, s')) :
    rs = (specRun k env.allocOk (calls.map (·.1)) ⟨none, s.count⟩).1 ∧
    ApiRel (algOf k) k.len64 s.live slot s' (specRun k env.allocOk (calls.map (·.1)) ⟨none, s.count⟩).2 ∧ s'.caller = s.caller ∧
    s'.freed.length + slot.isSome.toNat = s.freed.length + created ((calls.map (·.1)).zip rs) := by
  obtain ⟨slot', s'', e, h1, h2, h3⟩ := run_kind k u env calls s hv
  rw [hrun] at e
  obtain ⟨rfl, rfl, rfl⟩ : rs = _ ∧ slot = slot' ∧ s' = s'' := by simpa using e
  exact ⟨rfl, h1, h2, h3⟩

/-- The context of a reachable state. -/
theorem reach_ctx {k : Kind} {u : Bool} {env : Env k.width} {calls : List (ApiCall × Scr k.width)} {s s' : St k.width} {rs : List Reply} {p : Nat}
    (hv : ValidCalls k calls) (hrun : run (algOf k) u env calls none s = .ok (rs, some p, s')) :
    ∃ c, s'.live = (p, .ctx c) :: s.live ∧
      (started k.len64.iv (List.replicate k.words 0) ((calls.map (·.1)).zip rs) []).length = k.words ∧
      Rep (algOf k) k.len64 (started k.len64.iv (List.replicate k.words 0) ((calls.map (·.1)).zip rs) [])
        (received ((calls.map (·.1)).zip rs) []) c := by
  obtain ⟨h1, ⟨-, h2⟩, -⟩ := reach hv hrun
  revert h2
  have := history_spec k.len64 k.hashSize (List.replicate k.words 0) env.allocOk (calls.map (·.1)) ⟨none, s.count⟩ [] [] (by simp)
  rw [← h1] at this
  cases hx : (specRun k env.allocOk (calls.map (·.1)) ⟨none, s.count⟩).2.slot with
  | none => intro h; exact h.elim
  | some x =>
    obtain ⟨h0, m⟩ := x
    have e := this _ hx
    simp only [Prod.mk.injEq] at e
    rintro ⟨-, h3, c, h4, h5⟩
    rw [e.1] at h3 h5
    rw [e.2] at h5
    rw [algOf_nHash] at h3
    exact ⟨c, h4, h3, h5⟩

theorem chain_lenField {w} (H : IterHash w) (f : Nat → List Byte) (h : List (BitVec w)) (b : List (List Byte)) :
    ({ H with lenField := f } : IterHash w).chain h b = H.chain h b := by
  simp only [IterHash.chain]

theorem specRun_length (k : Kind) (al : Nat → Bool) : ∀ (l : List ApiCall) a, (specRun k al l a).1.length = l.length
  | [], _ => rfl
  | c :: l, a => by
    simp only [specRun, apiRun, List.length_cons]
    exact congrArg (· + 1) (specRun_length k al l _)

theorem len64_chain (k : Kind) (h : List (BitVec k.width)) (b : List (List Byte)) : k.len64.chain h b = k.std.chain h b := by
  cases k with
  | sha512 => exact chain_lenField Spec.sha512 _ h b
  | _ => rfl

/-- A successful finalize in a reachable state. -/
theorem step_finalize {k : Kind} {u : Bool} {env : Env k.width} {calls : List (ApiCall × Scr k.width)} {s₀ s : St k.width} {rs : List Reply} {p : Nat}
    (hv : ValidCalls k calls) (hrun : run (algOf k) u env calls none s₀ = .ok (rs, some p, s)) (scr : Scr k.width) (hscr : Kind.Junk k scr)
    (out : List Byte) (n : Nat) (hn : k.hashSize ≤ n ∧ n ≤ maxSize) (ho : n ≤ out.length) :
    ∃ d, d.length = k.hashSize ∧ step (algOf k) u env (.finalize (some out) n) scr (some p) s =
        .ok (⟨1, some (d ++ out.drop k.hashSize)⟩, some p, { s with live := (p, .ctx (zeroCtx (algOf k))) :: s₀.live }) := by
  obtain ⟨c, hl, hh, hr⟩ := reach_ctx hv hrun
  obtain ⟨enc, L⟩ := lawful k
  have hget : getKey p s.live = some (.ctx c) := by simp [hl, getKey]
  have hset : setKey p (.ctx (zeroCtx (algOf k))) s.live = (p, .ctx (zeroCtx (algOf k))) :: s₀.live := by simp [hl, setKey]
  have e := ctxFinalize_ok L (by rw [algOf_nHash]; exact hh) u scr (scrOk_of_junk hscr) c out n hn.2 (by rw [algOf_hashSize]; exact hn.1) ho hr
  refine ⟨_, digestFrom_length k _ (received ((calls.map (·.1)).zip rs) []) hh, ?_⟩
  simp only [step, hFinalize, hget, e, Res.ok_bind, Res.pure_eq, algOf_hashSize, hset]

/-- A rejected finalize in a reachable state. -/
theorem step_finalize_bad {k : Kind} {u : Bool} {env : Env k.width} {calls : List (ApiCall × Scr k.width)} {s₀ s : St k.width} {rs : List Reply}
    {slot : Option Nat} (hv : ValidCalls k calls) (hrun : run (algOf k) u env calls none s₀ = .ok (rs, slot, s)) (scr : Scr k.width)
    (out : Option (List Byte)) (n : Nat) (hn : ¬ (slot.isSome ∧ out.isSome ∧ k.hashSize ≤ n ∧ n ≤ maxSize)) :
    step (algOf k) u env (.finalize out n) scr slot s = .ok (⟨-1, out⟩, slot, s) := by
  cases slot with
  | none => simp [step, hFinalize, ctxFinalize]
  | some p =>
    obtain ⟨c, hl, -⟩ := reach_ctx hv hrun
    have hget : getKey p s.live = some (.ctx c) := by simp [hl, getKey]
    have hsame : setKey p (.ctx c) s.live = s.live := by simp [hl, setKey]
    cases out with
    | none => simp [step, hFinalize, hget, ctxFinalize, hsame]
    | some o =>
      by_cases h1 : n < k.hashSize
      · simp [step, hFinalize, hget, ctxFinalize, algOf_hashSize, h1, hsame]
      · have h2 : ssizeMax < n := by
          rw [← maxSize_eq]
          by_contra h
          exact hn ⟨rfl, rfl, by omega, by omega⟩
        simp [step, hFinalize, hget, ctxFinalize, algOf_hashSize, h1, h2, hsame]

end Props
