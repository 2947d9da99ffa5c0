import Verif.Proofs.Multi
import Verif.Props.Histories
/-! C30: contexts are independent. -/

namespace Props

open Model Spec

/-- C30. Any number of context variables of any mix of algorithms in one memory, all initially NULL, with their calls interleaved in any way: the
program has no undefined behaviour, and the replies to the calls on variable `i` are exactly those that the calls on `i` alone get from a client
that uses no other context, whatever its build and memory, if the outcomes of its allocations are the same. -/
theorem C30_interleaving (kinds : Nat → Kind) (u : Kind → Bool) (al : Nat → Bool) (envs : (w : Nat) → Env w) (calls : List (MultiCall kinds)) (m : Mem)
    (hv : ∀ c ∈ calls, c.2.1.Valid ∧ Kind.Junk (kinds c.1) c.2.2) :
    ∃ rs slots' m', multiRun kinds u al envs calls (fun _ => none) m = .ok (rs, slots', m') ∧ rs.map (·.1) = calls.map (·.1) ∧
      ∀ i, ∃ num : Nat → Nat, (∀ n, num n < num (n + 1)) ∧ m.count ≤ num 0 ∧
        ∀ (u' : Bool) (env : Env (kinds i).width) (s : St (kinds i).width) (alone : List (ApiCall × Scr (kinds i).width)),
          alone.map (·.1) = callsOf i calls → (∀ c ∈ alone, Kind.Junk (kinds i) c.2) → (∀ d, env.allocOk (s.count + d) = al (num d)) →
          ∃ slot s', run (algOf (kinds i)) u' env alone none s = .ok (repliesOf i rs, slot, s') := by
  obtain ⟨rs, slots', m', e, hlen, h⟩ := multiRun_ok kinds u al envs calls (fun _ => none) m (fun _ => none) hv ⟨fun _ => trivial, fun i j p hp => by cases hp⟩
  refine ⟨rs, slots', m', e, hlen, fun i => ?_⟩
  obtain ⟨num, h1, h2, h3⟩ := h i
  refine ⟨num, h1, h2, fun u' env s alone hal hj henv => ?_⟩
  have hvalid : ∀ c ∈ alone, c.1.Valid ∧ Kind.Junk (kinds i) c.2 := by
    intro c hc
    refine ⟨?_, hj c hc⟩
    have : c.1 ∈ callsOf i calls := by rw [← hal]; exact List.mem_map_of_mem hc
    obtain ⟨x, hx, hxc⟩ := List.mem_map.mp this
    rw [← hxc]
    exact (hv x (List.mem_filter.mp hx).1).1
  obtain ⟨slot, s', e', -⟩ := run_kind (kinds i) u' env alone s hvalid
  refine ⟨slot, s', ?_⟩
  rw [e', h3, hal, apiRun_shift _ _ _ env.allocOk (al ∘ num) _ none s.count 0 fun d => by rw [henv d, Nat.zero_add]; rfl]

/-- C30. In particular: where every allocation succeeds, a client that uses variable `i` to hash a message gets the standard digest, whatever
happens on all other variables in between. -/
theorem C30_digest (kinds : Nat → Kind) (u : Kind → Bool) (al : Nat → Bool) (envs : (w : Nat) → Env w) (calls : List (MultiCall kinds)) (m : Mem)
    (hv : ∀ c ∈ calls, c.2.1.Valid ∧ Kind.Junk (kinds c.1) c.2.2) (hal : ∀ n, al n = true) (i : Nat)
    (chunks : List (List Byte × Scr (kinds i).width)) (last : Scr (kinds i).width) (out : List Byte) (n : Nat)
    (hvs : ValidStream (kinds i) chunks last out n) (hlen : (kinds i).LengthOk (message chunks).length)
    (hc : callsOf i calls = (hashCalls chunks last out n).map (·.1)) :
    ∃ rs slots' m', multiRun kinds u al envs calls (fun _ => none) m = .ok (rs, slots', m') ∧
      repliesOf i rs = goodReplies chunks.length ((kinds i).std.digest (message chunks) ++ out.drop (kinds i).hashSize) := by
  obtain ⟨rs, slots', m', e, -, h⟩ := multiRun_ok kinds u al envs calls (fun _ => none) m (fun _ => none) hv ⟨fun _ => trivial, fun i j p hp => by cases hp⟩
  refine ⟨rs, slots', m', e, ?_⟩
  obtain ⟨num, -, -, h3⟩ := h i
  rw [h3, hc, specRun_hashCalls (kinds i) (al ∘ num) chunks last out n 0 hvs (hal _), ← len64_digest _ _ hlen]

/-- Three variables: two of the same algorithm, one of another word width. -/
def kinds0 : Nat → Kind
  | 0 => .sha256
  | 1 => .sha512
  | _ => .sha256

/-- Their interleaved use. -/
def calls1 : List (MultiCall kinds0) :=
  [⟨0, .init, junk0 .sha256⟩, ⟨1, .init, junk0 .sha512⟩, ⟨0, .update (some [1, 2, 3]) 3, junk0 .sha256⟩, ⟨2, .init, junk0 .sha256⟩,
    ⟨2, .update (some [9, 8]) 2, junk0 .sha256⟩, ⟨1, .update (some [1]) 1, junk0 .sha512⟩, ⟨0, .finalize (some (List.replicate 40 0)) 33, junk0 .sha256⟩,
    ⟨2, .free, junk0 .sha256⟩, ⟨0, .free, junk0 .sha256⟩, ⟨1, .finalize (some (List.replicate 64 0)) 64, junk0 .sha512⟩]

theorem calls1_ok : ∀ c ∈ calls1, c.2.1.Valid ∧ Kind.Junk (kinds0 c.1) c.2.2 := by
  intro c hc
  simp only [calls1, List.mem_cons, List.not_mem_nil, or_false] at hc
  rcases hc with rfl | rfl | rfl | rfl | rfl | rfl | rfl | rfl | rfl | rfl <;>
    exact ⟨by simp [ApiCall.Valid], junk0_ok _⟩

example (u : Kind → Bool) (envs : (w : Nat) → Env w) (m : Mem) :=
  C30_digest kinds0 u (fun _ => true) envs calls1 m calls1_ok (fun _ => rfl) 1 [([1], junk0 .sha512)] (junk0 .sha512) (List.replicate 64 0) 64
    ⟨by
      intro c hc
      simp only [List.mem_cons, List.not_mem_nil, or_false] at hc
      subst hc
      exact ⟨by decide, junk0_ok _⟩, junk0_ok _, by decide, by decide⟩ (by decide) rfl

end Props
