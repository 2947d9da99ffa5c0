import Verif.Props.Client
/-! The streaming client, for all hash functions. -/

namespace Props

open Model Spec

theorem hashCalls_valid {k : Kind} {chunks : List (List Byte × Scr k.width)} {last : Scr k.width} {out : List Byte} {n : Nat}
    (hv : ValidStream k chunks last out n) : ∀ c ∈ hashCalls chunks last out n, c.1.Valid ∧ Kind.Junk k c.2 := by
  intro c hc
  simp only [hashCalls, List.mem_cons, List.mem_append, List.mem_map, List.not_mem_nil, or_false] at hc
  rcases hc with rfl | ⟨x, hx, rfl⟩ | rfl
  · exact ⟨trivial, hv.last⟩
  · exact ⟨fun _ => Nat.le_refl _, (hv.chunks x hx).2⟩
  · exact ⟨fun _ => hv.out, hv.last⟩

theorem hashCalls_map {w} (chunks : List (List Byte × Scr w)) (last : Scr w) (out : List Byte) (n : Nat) :
    (hashCalls chunks last out n).map (·.1) =
      .init :: ((chunks.map (·.1)).map (fun c => .update (some c) c.length) ++ [.finalize (some out) n]) := by
  simp [hashCalls, Function.comp_def]

theorem specRun_hashCalls (k : Kind) (al : Nat → Bool) (chunks : List (List Byte × Scr k.width)) (last : Scr k.width) (out : List Byte) (n att : Nat)
    (hv : ValidStream k chunks last out n) (hal : al att = true) :
    specRun k al ((hashCalls chunks last out n).map (·.1)) ⟨none, att⟩ =
      (goodReplies chunks.length (k.len64.digest (message chunks) ++ out.drop k.hashSize), ⟨some (List.replicate k.words 0, []), att + 1⟩) := by
  rw [hashCalls_map]
  simp only [specRun, apiRun, apiStep, hal, if_true]
  rw [apiRun_append, apiRun_updates _ _ _ _ _ _ _ _ (by
    intro c hc
    obtain ⟨x, hx, rfl⟩ := List.mem_map.mp hc
    exact (hv.chunks x hx).1)]
  simp only [apiRun, apiStep, hv.size, and_self, if_true, List.nil_append, goodReplies, message, IterHash.digest, List.replicate_succ,
    List.cons_append, List.length_map]

theorem stream_ok (k : Kind) (u : Bool) (env : Env k.width) (s : St k.width) (chunks : List (List Byte × Scr k.width)) (last : Scr k.width)
    (out : List Byte) (n : Nat) (hal : env.allocOk s.count = true) (hv : ValidStream k chunks last out n) :
    ∃ slot s', run (algOf k) u env (hashCalls chunks last out n) none s =
      .ok (goodReplies chunks.length (k.len64.digest (message chunks) ++ out.drop k.hashSize), slot, s') := by
  obtain ⟨slot, s', e, -⟩ := run_kind k u env (hashCalls chunks last out n) s (hashCalls_valid hv)
  rw [specRun_hashCalls k env.allocOk chunks last out n s.count hv hal] at e
  exact ⟨slot, s', e⟩

theorem stream_std (k : Kind) (u : Bool) (env : Env k.width) (s : St k.width) (chunks : List (List Byte × Scr k.width)) (last : Scr k.width)
    (out : List Byte) (n : Nat) (hal : env.allocOk s.count = true) (hv : ValidStream k chunks last out n) (hlen : k.LengthOk (message chunks).length) :
    ∃ slot s', run (algOf k) u env (hashCalls chunks last out n) none s =
      .ok (goodReplies chunks.length (k.std.digest (message chunks) ++ out.drop k.hashSize), slot, s') := by
  rw [← len64_digest k _ hlen]
  exact stream_ok k u env s chunks last out n hal hv

end Props
