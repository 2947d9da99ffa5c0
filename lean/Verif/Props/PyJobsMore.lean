import Verif.Props.PyJobs
/-! C70: threads that hash something each, and what goes wrong if calls on one object overlap. -/

namespace Props

open Model Spec

/-- The calls that hash the bytes `bs`, one `update` for each piece. -/
def hashing (o : Nat) (bs : List (List Byte)) : List PyCall := bs.map (fun b => .update o (some (.bytes b))) ++ [.finalize o true]

theorem alone_hashing (kinds : Nat → Kind) (o : Nat) : ∀ (bs : List (List Byte)) (_ : ∀ b ∈ bs, b.length ≤ maxSize) (st : PyObjects kinds) (h0 : List (BitVec (kinds o).width)) (m : List Byte), st o = some (some (h0, m)) →
    (pyAlone kinds (hashing o bs) st).1 = bs.map (fun _ => PyResult.none) ++ [.bytes ((kinds o).len64.digestFrom h0 (m ++ bs.flatten))]
  | [], _, st, h0, m, h => by
    simp [hashing, pyAlone, PyCall.op, pyStep, h]
  | b :: bs, hb, st, h0, m, h => by
    have hs : pyStep kinds false (PyCall.update o (some (.bytes b))).op st = (.none, Function.update st o (some (some (h0, m ++ b)))) := by
      simp [PyCall.op, pyStep, h, pyBytes, hb b (List.mem_cons_self ..)]
    have ih := alone_hashing kinds o bs (fun x hx => hb x (List.mem_cons_of_mem _ hx)) (Function.update st o (some (some (h0, m ++ b)))) h0 (m ++ b) (Function.update_self ..)
    show (pyStep kinds false (PyCall.update o (some (.bytes b))).op st).1 :: (pyAlone kinds (hashing o bs) (pyStep kinds false (PyCall.update o (some (.bytes b))).op st).2).1 = _
    rw [hs]
    dsimp only
    rw [ih]
    simp [List.append_assoc]

/-- C70. Threads that hash a message each, in pieces and with an object of its own (of any kinds), in any interleaving: each one that has got enough steps has the standard digest of its message. -/
theorem C70_digests (kinds : Nat → Kind) (u : Bool) (scr : Nat → (k : Kind) → Scr k.width) (hscr : ∀ t k, Kind.Junk k (scr t k)) (out : Nat → Kind → List Byte) (hout : ∀ t k, (out t k).length = k.hashSize)
    (W : PyJobs kinds) (bs : Nat → List (List Byte)) (hbs : ∀ t, ∀ b ∈ bs t, b.length ≤ maxSize) (hlen : ∀ t, (kinds t).LengthOk (bs t).flatten.length) (hB : Begin W (fun t => hashing t (bs t)) fun _ => []) (sched : List Nat) :
    ∃ W', jobsRun false u scr out sched W = .ok W' ∧
      ∀ t, 16 * ((bs t).length + 1) ≤ sched.count t → (W'.threads t).results = (bs t).map (fun _ => PyResult.none) ++ [.bytes ((kinds t).std.digest (bs t).flatten)] := by
  obtain ⟨W', e, -, h⟩ := C70_own_objects kinds u scr hscr out hout W _ _ hB id (by
    intro t call hc
    simp only [hashing, List.mem_append, List.mem_map, List.mem_singleton] at hc
    rcases hc with ⟨b, -, rfl⟩ | rfl <;> rfl) sched
  refine ⟨W', e, fun t ht => ?_⟩
  rw [(h t (by simpa [hashing] using ht)).1, alone_hashing kinds t (bs t) (hbs t) _ _ [] rfl, List.nil_append, ← len64_digest _ _ (hlen t)]
  rfl

end Props
