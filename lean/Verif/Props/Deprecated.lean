import Verif.Proofs.Deprecated
import Verif.Props.Histories
/-! C31: the deprecated function set. -/

namespace Props

open Model Spec

/-- C31. Each deprecated function does the same as its counterpart, in every state and for all arguments (even where the behaviour is undefined). -/
theorem C31_functions (k : Kind) (u : Bool) (env : Env k.width) (s : St k.width) :
    (∀ context, depInitialize (algOf k) env context s = apiInitialize (algOf k) env context s) ∧
    (∀ context, depFree context s = apiFree context s) ∧
    (∀ slot buf size, depUpdate (algOf k) u env slot buf size s = hUpdate (algOf k) u env slot buf size s) ∧
    (∀ slot hash size, depFinalize (algOf k) u env slot hash size s = hFinalize (algOf k) u env slot hash size s) :=
  ⟨fun _ => (apiInitialize_codes _ _ _ _).wrap, fun _ => (apiFree_codes _ _).wrap, fun _ _ _ => (hUpdate_codes _ _ _ _ _ _ _).wrap,
    fun _ _ _ => (hFinalize_codes _ _ _ _ _ _ _).wrap⟩

theorem depStep_eq (k : Kind) (u : Bool) (env : Env k.width) (c : ApiCall) (scr : Scr k.width) (slot : Option Nat) (s : St k.width) :
    depStep (algOf k) u env c scr slot s = step (algOf k) u env c scr slot s := by
  obtain ⟨h1, h2, -, -⟩ := C31_functions k u env s
  obtain ⟨-, -, h3, h4⟩ := C31_functions k u { env with scr := scr } s
  cases c <;> simp only [depStep, step, h1, h2, h3, h4]
  · rfl
  · rfl

/-- C31. A client may mix both function sets freely: for every history, every choice of function set per call, and every state, the replies, the context
variable and the memory are those of the same history through the context functions. -/
theorem C31_mixed_histories (k : Kind) (u : Bool) (env : Env k.width) (calls : List (Bool × ApiCall × Scr k.width)) (slot : Option Nat) (s : St k.width) :
    mixedRun (algOf k) u env calls slot s = run (algOf k) u env (calls.map (·.2)) slot s := by
  induction calls generalizing slot s with
  | nil => rfl
  | cons c cs ih =>
    obtain ⟨dep, c, scr⟩ := c
    simp only [mixedRun, List.map_cons, run, depStep_eq, ite_self, ih]

/-- C31. So a valid history through any mix of the two sets behaves as the abstract machine says (no undefined behaviour, replies determined). -/
theorem C31_mixed_histories_specified (k : Kind) (u : Bool) (env : Env k.width) (calls : List (Bool × ApiCall × Scr k.width)) (s : St k.width)
    (hv : ∀ c ∈ calls, c.2.1.Valid ∧ Kind.Junk k c.2.2) :
    ∃ slot' s', mixedRun (algOf k) u env calls none s =
      .ok ((apiRun k.len64 k.hashSize (List.replicate k.words 0) env.allocOk (calls.map (·.2.1)) ⟨none, s.count⟩).1, slot', s') := by
  obtain ⟨slot', s', e, -⟩ := run_kind k u env (calls.map (·.2)) s (by
    intro c hc
    obtain ⟨x, hx, rfl⟩ := List.mem_map.mp hc
    exact hv x hx)
  refine ⟨slot', s', ?_⟩
  rw [C31_mixed_histories, e, List.map_map]
  rfl

/-- A history that alternates between the sets, with failing calls. -/
example (k : Kind) := C31_mixed_histories_specified k true (env0 k)
  [(true, .init, junk0 k), (false, .update (some [1, 2, 3]) 3, junk0 k), (true, .update none 3, junk0 k), (true, .update (some [4]) 1, junk0 k),
    (true, .finalize (some (List.replicate 64 0)) 3, junk0 k), (false, .finalize (some (List.replicate 64 0)) 64, junk0 k), (true, .free, junk0 k)]
  (st0 k.width) (by
    intro c hc
    simp only [List.mem_cons, List.not_mem_nil, or_false] at hc
    rcases hc with rfl | rfl | rfl | rfl | rfl | rfl | rfl <;> exact ⟨by simp [ApiCall.Valid], junk0_ok k⟩)

end Props
