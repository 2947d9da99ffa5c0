import Verif.Proofs.Kinds
/-! Client programs used in the property statements, and sample values for the examples. -/

namespace Props

open Model Spec

/-- The client that hashes a message cut into chunks: `initialize`, one `update` per chunk, `finalize` into `out` with size argument `n`.
Each call comes with the contents of the stack arrays it finds. -/
def hashCalls {w} (chunks : List (List Byte × Scr w)) (last : Scr w) (out : List Byte) (n : Nat) : List (ApiCall × Scr w) :=
  (.init, last) :: (chunks.map (fun c => (.update (some c.1) c.1.length, c.2)) ++ [(.finalize (some out) n, last)])

/-- The message the client hashes. -/
def message {w} (chunks : List (List Byte × Scr w)) : List Byte := (chunks.map (·.1)).flatten

/-- The client's obligations: chunk sizes and output size are representable, the output area is large enough. (`Junk`: the stack arrays
have their declared sizes.) -/
structure ValidStream (k : Kind) (chunks : List (List Byte × Scr k.width)) (last : Scr k.width) (out : List Byte) (n : Nat) : Prop where
  chunks : ∀ c ∈ chunks, c.1.length ≤ maxSize ∧ Kind.Junk k c.2
  last : Kind.Junk k last
  size : k.hashSize ≤ n ∧ n ≤ maxSize
  out : n ≤ out.length

/-- The replies of a completely successful client. -/
def goodReplies (nChunks : Nat) (out : List Byte) : List Reply := List.replicate (nChunks + 1) ⟨1, none⟩ ++ [⟨1, some out⟩]

/-- Stack contents for the examples. -/
def junk0 (k : Kind) : Scr k.width :=
  ⟨List.replicate k.words 0xaa, List.replicate (match k with | .md5 => 16 | .sha1 => 80 | .sha224 => 64 | .sha256 => 64 | .sha512 => 80) 0x55⟩

theorem junk0_ok (k : Kind) : Kind.Junk k (junk0 k) := by cases k <;> exact ⟨by simp [junk0], by simp [junk0]⟩

/-- An environment in which every allocation succeeds. -/
def env0 (k : Kind) : Env k.width := ⟨fun _ => true, fun _ => ⟨1, [], 2, []⟩, fun _ _ => 0xa5, junk0 k⟩

/-- A memory for the examples. -/
def st0 (w : Nat) : St w := ⟨List.replicate 100 7, 5, [(3, .bytes [1, 2])], []⟩

/-- Three chunks, one of them empty. -/
def chunks0 (k : Kind) : List (List Byte × Scr k.width) := [([1, 2, 3], junk0 k), ([], junk0 k), (List.replicate 200 9, junk0 k)]

theorem chunks0_ok (k : Kind) : ValidStream k (chunks0 k) (junk0 k) (List.replicate 70 1) 66 where
  chunks := by
    intro c hc
    simp only [chunks0, List.mem_cons, List.not_mem_nil, or_false] at hc
    rcases hc with rfl | rfl | rfl <;> exact ⟨by simp only [List.length_cons, List.length_nil, List.length_replicate, maxSize]; omega, junk0_ok k⟩
  last := junk0_ok k
  size := by cases k <;> decide
  out := by simp

theorem chunks0_len (k : Kind) : (message (chunks0 k)).length = 203 := by
  simp only [message, chunks0, List.map_cons, List.map_nil, List.flatten_cons, List.flatten_nil, List.length_append, List.length_cons,
    List.length_nil, List.length_replicate]

end Props
