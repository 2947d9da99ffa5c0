import Verif.Proofs.MultiBuilds
import Verif.Props.Builds
import Verif.Props.Independence
/-! C75: contexts are independent in every build. -/

namespace Props

open Model Spec

variable {ch : Kind → Choice} {L : Kind → Library}

theorem Correct.rep (h : Correct ch L) : ∃ Rep : (k : Kind) → (L k).State → List Byte → Prop, ∀ k, ch k ≠ .builtin → Contract (L k) k (Rep k) := by
  have : ∀ k, ∃ Rep : (L k).State → List Byte → Prop, ch k ≠ .builtin → Contract (L k) k Rep := fun k => by
    by_cases hk : ch k = .builtin
    · exact ⟨fun _ _ => True, fun h => absurd hk h⟩
    · obtain ⟨Rep, hr⟩ := (h k hk).1
      exact ⟨Rep, fun _ => hr⟩
  choose Rep hRep using this
  exact ⟨Rep, hRep⟩

/-- C75. Any number of context variables of any mix of algorithms, each algorithm built in or with a crypto library, all initially NULL, with their calls interleaved in any way: the program has no undefined behaviour, and
a finalize that succeeds returns the standard digest of the message of its own variable, if every use of that variable since its creation was an accepted update, whatever happened on other variables and whatever calls of the
library failed. -/
theorem C75_no_wrong_digest (hL : Correct ch L) (T : Tool) (hT : ∀ k n, Kind.Junk k (T.scr k n)) (kinds : Nat → Kind) (calls : List (Nat × ApiCall)) (hv : ∀ c ∈ calls, c.2.Valid) (m : MixedMem L) (hm : m.Wf) :
    ∃ rs slots' m', Builds.multi (.mixed ch L T) kinds 0 calls (fun _ => none) m = .ok (rs, slots', m') ∧ rs.length = calls.length ∧
      ∀ j i o size r msg, calls[j]? = some (i, .finalize (some o) size) → rs[j]? = some r → r.code = 1 → accepted (historyOf i ((calls.zip rs).take j)) none = some msg → msg.length < 2 ^ 61 →
        r.out = some ((kinds i).std.digest msg ++ o.drop (kinds i).hashSize) := by
  obtain ⟨Rep, hRep⟩ := hL.rep
  obtain ⟨rs, slots', m', acc', e, hl, -, hd⟩ := multi_ok (kinds := kinds) hRep (fun k hk => (hL k hk).2) hT calls 0 _ m (fun _ => none) hv (mixMulti_start hm _)
  exact ⟨rs, slots', m', e, hl, hd⟩

/-- C75. Variable `i` gets exactly the replies that the built-in functions give to its calls alone, whatever its build and memory, if the outcomes of its allocations are the same: provided that the calls of the library for
its algorithm (if it is not built in) do not fail, that it uses every context for one message, that its messages have less than 2^61 bytes in total, and that no call is refused on account of its size. Calls of the library
for other algorithms may fail. -/
theorem C75_interleaving (hL : Correct ch L) (T : Tool) (hT : ∀ k n, Kind.Junk k (T.scr k n)) (kinds : Nat → Kind) (calls : List (Nat × ApiCall)) (hv : ∀ c ∈ calls, c.2.Valid) (m : MixedMem L) (hm : m.Wf) (i : Nat)
    (hg : ch (kinds i) ≠ .builtin → Reliable (L (kinds i))) (hfit : ∀ c ∈ calls, c.1 = i → Fits (ch (kinds i)) (kinds i) c.2) (hlen : ((calls.filter (·.1 = i)).map fun c => c.2.bytes).sum < 2 ^ 61) :
    ∃ rs slots' m', Builds.multi (.mixed ch L T) kinds 0 calls (fun _ => none) m = .ok (rs, slots', m') ∧ rs.length = calls.length ∧
      (UsedOnce false (historyOf i (calls.zip rs)) → ∃ num : Nat → Nat, (∀ n, num n < num (n + 1)) ∧ m.mem.count ≤ num 0 ∧
        ∀ (u : Bool) (env : Env (kinds i).width) (s : St (kinds i).width) (alone : List (ApiCall × Scr (kinds i).width)),
          alone.map (·.1) = (calls.filter (·.1 = i)).map (·.2) → (∀ c ∈ alone, Kind.Junk (kinds i) c.2) → (∀ d, env.allocOk (s.count + d) = T.alloc (num d)) →
          ∃ slot s', run (algOf (kinds i)) u env alone none s = .ok ((historyOf i (calls.zip rs)).map (·.2), slot, s')) := by
  obtain ⟨Rep, hRep⟩ := hL.rep
  obtain ⟨rs, slots', m', e, hl, h⟩ := multi_refines (kinds := kinds) hRep (fun k hk => (hL k hk).2) hT i hg calls 0 _ m (fun _ => none) false none 0 hv hfit (mixMulti_start hm _)
    ⟨by simp, fun _ => rfl, fun _ _ h => by cases h⟩ (by simpa [ApiState.held] using hlen)
  refine ⟨rs, slots', m', e, hl, fun hu => ?_⟩
  obtain ⟨num, h1, h2, h3⟩ := h hu
  refine ⟨num, h1, h2, fun u env s alone hal hj henv => ?_⟩
  have hvalid : ∀ c ∈ alone, c.1.Valid ∧ Kind.Junk (kinds i) c.2 := by
    intro c hc
    refine ⟨?_, hj c hc⟩
    have : c.1 ∈ (calls.filter (·.1 = i)).map (·.2) := by rw [← hal]; exact List.mem_map_of_mem hc
    obtain ⟨x, hx, hxc⟩ := List.mem_map.mp this
    rw [← hxc]
    exact hv x (List.mem_filter.mp hx).1
  obtain ⟨slot, s', e', -⟩ := run_kind (kinds i) u env alone s hvalid
  refine ⟨slot, s', ?_⟩
  rw [e', h3, hal]
  refine congrArg Res.ok (Prod.ext ?_ rfl)
  exact apiRun_shift _ _ _ _ _ _ none s.count 0 fun d => by rw [henv d, Nat.zero_add, Nat.sub_zero]

/-- C75. A variable that is used to hash one message, in any number of chunks, gets the replies "success" and the standard digest of its message, whatever calls are made on other variables in between and whatever calls of the
library for other algorithms fail, if its allocation and the calls of its own library do not fail. -/
theorem C75_digest (hL : Correct ch L) (T : Tool) (hT : ∀ k n, Kind.Junk k (T.scr k n)) (hal : ∀ n, T.alloc n = true) (kinds : Nat → Kind) (calls : List (Nat × ApiCall)) (hv : ∀ c ∈ calls, c.2.Valid) (m : MixedMem L) (hm : m.Wf) (i : Nat)
    (hg : ch (kinds i) ≠ .builtin → Reliable (L (kinds i))) (chunks : List (List Byte)) (out : List Byte) (n : Nat)
    (hi : (calls.filter (·.1 = i)).map (·.2) = .init :: (chunks.map (fun b => .update (some b) b.length) ++ [.finalize (some out) n])) (hn : (kinds i).hashSize ≤ n ∧ n < 2 ^ 32)
    (hc : ∀ b ∈ chunks, b.length ≤ (ch (kinds i)).limit) (hlen : chunks.flatten.length < 2 ^ 61) :
    ∃ rs slots' m', Builds.multi (.mixed ch L T) kinds 0 calls (fun _ => none) m = .ok (rs, slots', m') ∧
      (historyOf i (calls.zip rs)).map (·.2) = goodReplies chunks.length ((kinds i).std.digest chunks.flatten ++ out.drop (kinds i).hashSize) := by
  have hmem : ∀ c ∈ calls, c.1 = i → c.2 ∈ ApiCall.init :: (chunks.map (fun b => ApiCall.update (some b) b.length) ++ [ApiCall.finalize (some out) n]) := fun c hc hci => by
    rw [← hi]
    exact List.mem_map_of_mem (List.mem_filter.2 ⟨hc, by simpa using hci⟩)
  have hnm : n ≤ maxSize := Nat.le_trans (Nat.le_of_lt hn.2) (by decide)
  have hle : ∀ b ∈ chunks, b.length ≤ maxSize := fun b hb => Nat.le_trans (hc b hb) (Choice.limit_le _)
  have hfit : ∀ c ∈ calls, c.1 = i → Fits (ch (kinds i)) (kinds i) c.2 := fun c hcc hci => by
    have h := hmem c hcc hci
    simp only [List.mem_cons, List.mem_append, List.mem_map, List.not_mem_nil, or_false] at h
    rcases h with h | ⟨b, hb, h⟩ | h
    · rw [h]; trivial
    · rw [← h]; exact hc b hb
    · rw [h]; exact hn
  have hsum : ((calls.filter (·.1 = i)).map fun c => c.2.bytes).sum = chunks.flatten.length := by
    have e : ((calls.filter (·.1 = i)).map fun c => c.2.bytes) = ((calls.filter (·.1 = i)).map (·.2)).map ApiCall.bytes := by simp [Function.comp_def]
    rw [e, hi]
    have e2 : ∀ l : List (List Byte), (∀ b ∈ l, b.length ≤ maxSize) → ((l.map fun b => ApiCall.update (some b) b.length).map ApiCall.bytes).sum = l.flatten.length := fun l hl => by
      induction l with
      | nil => rfl
      | cons b l ih =>
        simp only [List.map_cons, List.sum_cons, ih fun b hb => hl b (by simp [hb]), List.flatten_cons, List.length_append, ApiCall.bytes, hl b (by simp), if_true]
    simp only [List.map_cons, List.map_append, List.sum_cons, List.sum_append, e2 chunks hle, List.map_nil, List.sum_nil, ApiCall.bytes, Nat.add_zero, Nat.zero_add]
  obtain ⟨Rep, hRep⟩ := hL.rep
  obtain ⟨rs, slots', m', e, hl, h⟩ := multi_refines (kinds := kinds) hRep (fun k hk => (hL k hk).2) hT i hg calls 0 _ m (fun _ => none) false none 0 hv hfit (mixMulti_start hm _)
    ⟨by simp, fun _ => rfl, fun _ _ h => by cases h⟩ (by rw [hsum]; simpa [ApiState.held] using hlen)
  refine ⟨rs, slots', m', e, ?_⟩
  have hh := historyOf_calls i calls rs hl
  obtain ⟨num, -, -, h3⟩ := h (by
    cases hx : historyOf i (calls.zip rs) with
    | nil => trivial
    | cons x t =>
      obtain ⟨c, r⟩ := x
      rw [hx, hi] at hh
      simp only [List.map_cons, List.cons.injEq] at hh
      obtain ⟨rfl, hh⟩ := hh
      exact usedOnce_stream chunks (some out) n t hh)
  have hs := specRun_hashCalls (kinds i) (fun d => T.alloc (num (d - 0))) (chunks.map fun b => (b, T.scr (kinds i) 0)) (T.scr (kinds i) 0) out n 0
    ⟨fun c hc => by obtain ⟨b, hb, rfl⟩ := List.mem_map.mp hc; exact ⟨hle b hb, hT _ _⟩, hT _ _, ⟨hn.1, hnm⟩, ?_⟩ (hal _)
  · rw [hashCalls_map] at hs
    have e1 : (chunks.map fun b => (b, T.scr (kinds i) 0)).map (·.1) = chunks := by simp [Function.comp_def]
    rw [e1] at hs
    rw [h3, hi, hs]
    have e2 : message (chunks.map fun b => (b, T.scr (kinds i) 0)) = chunks.flatten := by rw [message, e1]
    rw [e2, len64_digest _ _ (lengthOk_of_lt _ hlen)]
    simp
  · obtain ⟨x, hx, hx2⟩ := List.mem_map.mp (show ApiCall.finalize (some out) n ∈ (calls.filter (·.1 = i)).map (·.2) by rw [hi]; simp)
    have := hv x (List.mem_filter.mp hx).1
    rw [hx2] at this
    exact this hnm

/-- C75. After any program, and a free of every variable that it uses, all variables are NULL, and the objects in memory are those from before the program: nothing was lost, and nothing that belongs to someone else was
released or changed, whatever allocations and calls of the library failed. -/
theorem C75_released (hL : Correct ch L) (T : Tool) (hT : ∀ k n, Kind.Junk k (T.scr k n)) (kinds : Nat → Kind) (calls : List (Nat × ApiCall)) (hv : ∀ c ∈ calls, c.2.Valid) (m : MixedMem L) (hm : m.Wf)
    (vars : List Nat) (hvars : ∀ c ∈ calls, c.1 ∈ vars) :
    ∃ rs m', Builds.multi (.mixed ch L T) kinds 0 (calls ++ vars.map fun i => (i, .free)) (fun _ => none) m = .ok (rs, fun _ => none, m') ∧
      (∀ w, ((m'.mem.live w).map (·.1)).Perm ((m.mem.live w).map (·.1))) ∧ ∀ k, (m'.live k).Perm (m.live k) := by
  obtain ⟨Rep, hRep⟩ := hL.rep
  obtain ⟨rs1, slots1, m1, acc1, e1, -, hM1, -⟩ := multi_ok (kinds := kinds) hRep (fun k hk => (hL k hk).2) hT calls 0 _ m (fun _ => none) hv (mixMulti_start hm _)
  obtain ⟨rs2, slots2, m2, acc2, e2, hM2, hs⟩ := multi_frees hRep (fun k hk => (hL k hk).2) hT vars (0 + calls.length) _ m1 _ hM1
  have hnone : slots2 = fun _ => none := by
    funext i
    rw [hs i]
    by_cases hi : i ∈ vars
    · rw [if_pos hi]
    · rw [if_neg hi]
      exact multi_unused _ kinds i calls 0 _ m e1 fun c hc h => hi (h ▸ hvars c hc)
  subst hnone
  refine ⟨rs1 ++ rs2, m2, ?_, mixMulti_end hm.keys (fun k => (hm.crypto k).nodup) hM2⟩
  rw [multi_append, e1]
  simp only [Res.ok_bind, e2, Res.pure_eq]

/-! ### Examples -/

/-- Four variables: two of SHA-224 and one of MD5 (of the library in `choice0`), one of SHA-1 (built in). -/
def kinds1 : Nat → Kind
  | 0 => .sha224
  | 1 => .md5
  | 2 => .sha224
  | _ => .sha1

def calls2 : List (Nat × ApiCall) :=
  [(0, .init), (1, .init), (0, .update (some [1, 2, 3]) 3), (2, .init), (3, .init), (2, .update (some [9, 8]) 2), (1, .update (some [1]) 1), (3, .update (some [4]) 1), (0, .finalize (some (List.replicate 40 0)) 33),
   (2, .finalize (some (List.replicate 28 0)) 28), (2, .free), (0, .free), (1, .finalize (some (List.replicate 64 0)) 64), (3, .free)]

theorem calls2_valid : ∀ c ∈ calls2, c.2.Valid := by
  intro c hc
  simp only [calls2, List.mem_cons, List.not_mem_nil, or_false] at hc
  rcases hc with rfl | rfl | rfl | rfl | rfl | rfl | rfl | rfl | rfl | rfl | rfl | rfl | rfl | rfl <;> simp [ApiCall.Valid]

theorem mixed0_wf (L : Kind → Library) : (mixed0 L).mem.Wf := ⟨fun _ => List.nodup_nil, fun _ _ h => by simp [mixed0, world0] at h, fun _ => ⟨List.nodup_nil, fun _ h => by simp [mixed0] at h, fun _ h => by simp [mixed0] at h⟩⟩

example := C75_no_wrong_digest failing_correct env1.tool env1_ok.tool.scr kinds1 calls2 calls2_valid (mixed0 _).mem (mixed0_wf _)

example := C75_interleaving exact_correct env1.tool env1_ok.tool.scr kinds1 calls2 calls2_valid (mixed0 _).mem (mixed0_wf _) 2 (fun _ => exact_reliable _) (by
  intro c hc
  simp only [calls2, List.mem_cons, List.not_mem_nil, or_false] at hc
  rcases hc with rfl | rfl | rfl | rfl | rfl | rfl | rfl | rfl | rfl | rfl | rfl | rfl | rfl | rfl <;> intro h <;> first | (exact absurd h (by decide)) | (simp only [Fits]; try decide)) (by decide)

example := C75_digest exact_correct env1.tool env1_ok.tool.scr (fun _ => rfl) kinds1 calls2 calls2_valid (mixed0 _).mem (mixed0_wf _) 1 (fun _ => exact_reliable _) [[1]] (List.replicate 64 0) 64 rfl (by decide) (by decide) (by decide)

example := C75_released failing_correct env1.tool env1_ok.tool.scr kinds1 calls2 calls2_valid (mixed0 _).mem (mixed0_wf _) [0, 1, 2, 3] (by decide)

end Props
