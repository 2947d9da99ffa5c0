import Verif.Proofs.OnceApi
import Verif.Props.Work
/-! C87: each byte given is fetched once, and each byte of the digest is stored once. -/

namespace Props

open Model Spec

theorem eachOnce_of_perm {n : Nat} {l : List Nat} (h : l.Perm (List.range' 0 n)) : EachOnce n l := by
  refine ⟨h.nodup_iff.mpr List.nodup_range', fun i => ?_⟩
  rw [h.mem_iff, List.mem_range'_1]
  omega

theorem stores (k : Kind) : (talgOf k).alg.Stores := by
  cases k <;> exact ⟨by unfold StoresWord; decide, by decide, by decide⟩

theorem hashSize_alg (k : Kind) : (talgOf k).alg.hashSize = k.hashSize := by cases k <;> rfl

theorem hmacBlockSize_alg (k : Kind) : (talgOf k).alg.hmacBlockSize = k.blockSize := by cases k <;> rfl

/-- C87. What one call reads of its input and writes of its output, in any memory with contexts used through the API only. -/
theorem C87_call (k : Kind) (u : Bool) (env : Env k.width) (call : ApiCall) (scr : Scr k.width) (slot : Option Nat) (s : St k.width) (h : Tidy k s) (r : Reply) (slot' : Option Nat) (s' : St k.width)
    (e : step (algOf k) u env call scr slot s = .ok (r, slot', s')) :
    CallTouches k call r.code (inputReads 0 (tStep (talgOf k) u env call scr slot s).trace) (outputWrites (tStep (talgOf k) u env call scr slot s).trace) := by
  rw [← talgOf_alg, ← tStep_res (talgOf_faithful k)] at e
  obtain ⟨b', l, hl, hv⟩ := tStep_on (b := 0) (talgOf_once k) (stores k) (works k) (sane k) u env call scr slot s h.ok _ e
  have hl := hl []
  rw [List.append_nil] at hl
  rw [hl, inputReads, List.append_nil]
  cases call with
  | update b size =>
    obtain ⟨hm, hv⟩ := hv
    refine ⟨hm, ?_⟩
    rcases hv with ⟨h1, hp⟩ | ⟨h1, rfl⟩
    · exact ⟨fun _ => eachOnce_of_perm hp, fun h => absurd h1 h⟩
    · exact ⟨fun h => absurd (h1.symm.trans h) (by decide), fun _ => rfl⟩
  | finalize o n =>
    obtain ⟨rfl, hv⟩ := hv
    refine ⟨rfl, ?_⟩
    rw [hashSize_alg] at hv
    rcases hv with ⟨h1, hp⟩ | ⟨h1, hp⟩
    · exact ⟨fun _ => eachOnce_of_perm hp, fun h => absurd h1 h⟩
    · exact ⟨fun h => absurd (h1.symm.trans h) (by decide), fun _ => hp⟩
  | init => exact hv
  | initNull => exact hv
  | free => exact hv
  | freeNull => exact hv

/-- C87. Whatever calls were made before, valid or not, and however the message was split. -/
theorem C87_histories (k : Kind) (u : Bool) (env : Env k.width) (calls : List (ApiCall × Scr k.width)) (call : ApiCall) (scr : Scr k.width) (slot : Option Nat) (s : St k.width) (h : Tidy k s)
    (rs : List Reply) (slot1 : Option Nat) (s1 : St k.width) (e1 : run (algOf k) u env calls slot s = .ok (rs, slot1, s1)) (r : Reply) (slot2 : Option Nat) (s2 : St k.width)
    (e2 : step (algOf k) u env call scr slot1 s1 = .ok (r, slot2, s2)) :
    CallTouches k call r.code (inputReads 0 (tStep (talgOf k) u env call scr slot1 s1).trace) (outputWrites (tStep (talgOf k) u env call scr slot1 s1).trace) :=
  C87_call k u env call scr slot1 s1 (C62_tidy k u env calls slot s h rs slot1 s1 e1) r slot2 s2 e2

/-- C87. `calculate` reads each byte of the message at most once, and writes each byte of the digest at most once, also if it fails half way; if it succeeds, exactly once. -/
theorem C87_calculate (k : Kind) (u : Bool) (env : Env k.width) (buffer : Option Nat) (size : Nat) (hash : Option Nat) (n : Nat) (s : St k.width) (h : Tidy k s) (r : Int) (s' : St k.width)
    (e : calculate (algOf k) u env buffer size hash n s = .ok (r, s')) :
    (EachOnce size (inputReads 0 (tCalculate (talgOf k) u env buffer size hash n s).trace) ∨ inputReads 0 (tCalculate (talgOf k) u env buffer size hash n s).trace = []) ∧
      (EachOnce k.hashSize (outputWrites (tCalculate (talgOf k) u env buffer size hash n s).trace) ∨ outputWrites (tCalculate (talgOf k) u env buffer size hash n s).trace = []) ∧
      (r = 1 → EachOnce size (inputReads 0 (tCalculate (talgOf k) u env buffer size hash n s).trace) ∧
        EachOnce k.hashSize (outputWrites (tCalculate (talgOf k) u env buffer size hash n s).trace)) := by
  rw [← C56_calculate_values] at e
  obtain ⟨b', l, hl, hv⟩ := tCalculate_on (b := 0) (talgOf_once k) (stores k) (works k) (sane k) u env buffer size hash n s h.ok _ e
  have hl := hl []
  rw [List.append_nil] at hl
  rw [hl, inputReads, List.append_nil]
  rw [hashSize_alg] at hv
  exact ⟨hv.1.imp eachOnce_of_perm id, hv.2.1.imp eachOnce_of_perm id, fun h => ⟨eachOnce_of_perm (hv.2.2 h).1, eachOnce_of_perm (hv.2.2 h).2⟩⟩

/-- C87. A `calculate_hmac` that succeeds fetches, in this order: each byte of the key once; each byte of the inner padding once; each byte of the message once; each byte of the outer padding once; each
byte of the inner digest once. A key longer than a block is digested into a key hash, each byte of which is stored once; then each byte of the digest area is stored twice: the inner digest, the result. -/
theorem C87_hmac (k : Kind) (u : Bool) (env : Env k.width) (kh : List Byte) (key : Option Nat) (ks : Nat) (buffer : Option Nat) (size : Nat) (hmac : Option Nat) (n : Nat) (s : St k.width) (h : Tidy k s)
    (lc : Loc) (s' : St k.width) (e : calculateHmac (algOf k) u env kh key ks buffer size hmac n s = .ok (1, lc, s')) :
    ∃ rk ri rm ro rd wk wi wo, inputReads 0 (tCalculateHmac (talgOf k) u env kh key ks buffer size hmac n s).trace = rk ++ (ri ++ rm) ++ (ro ++ rd) ∧
      outputWrites (tCalculateHmac (talgOf k) u env kh key ks buffer size hmac n s).trace = wk ++ wi ++ wo ∧
      EachOnce ks rk ∧ EachOnce k.blockSize ri ∧ EachOnce size rm ∧ EachOnce k.blockSize ro ∧ EachOnce k.hashSize rd ∧
      (if k.blockSize < ks then EachOnce k.hashSize wk else wk = []) ∧ EachOnce k.hashSize wi ∧ EachOnce k.hashSize wo := by
  rw [← C56_hmac_values] at e
  obtain ⟨b', l, hl, hv⟩ := tCalculateHmac_on (b := 0) (talgOf_once k) (stores k) (works k) (sane k) (by cases k <;> decide) u env kh key ks buffer size hmac n s (h.mem fun _ _ => trivial) _ e
  have hl := hl []
  rw [List.append_nil] at hl
  rw [hl, inputReads, List.append_nil]
  obtain ⟨l0, l1, l2, l3, l4, m0, m1, m2, e1, e2, h0, h1, h2, h3, h4, h5, h6, h7, h8⟩ := hv rfl
  rw [hmacBlockSize_alg] at h1 h3 h5 h6
  rw [hashSize_alg] at h4 h6 h7 h8
  refine ⟨l0, l1, l2, l3, l4, m0, m1, m2, e1, e2, eachOnce_of_perm h0, eachOnce_of_perm h1, eachOnce_of_perm h2, eachOnce_of_perm h3, eachOnce_of_perm h4, ?_, eachOnce_of_perm h7, eachOnce_of_perm h8⟩
  split
  · exact eachOnce_of_perm (h6 ‹_›)
  · exact h5 (by omega)

/-- After a history that runs to the end, the last call of it ran in the memory left by those before. -/
theorem run_last {w} {A : Alg w} {u : Bool} {env : Env w} {calls : List (ApiCall × Scr w)} {call : ApiCall} {scr : Scr w} {slot : Option Nat} {s : St w} {rs : List Reply} {slot' : Option Nat} {s' : St w}
    (e : run A u env (calls ++ [(call, scr)]) slot s = .ok (rs, slot', s')) :
    ∃ rs1 slot1 s1 r, run A u env calls slot s = .ok (rs1, slot1, s1) ∧ step A u env call scr slot1 s1 = .ok (r, slot', s') ∧ rs = rs1 ++ [r] := by
  rw [run_append] at e
  generalize run A u env calls slot s = q at e
  cases q with
  | ub => cases e
  | diverge => cases e
  | ok x =>
    rw [Res.ok_bind] at e
    simp only [run] at e
    generalize h : step A u env call scr x.2.1 x.2.2 = q at e
    cases q with
    | ub => cases e
    | diverge => cases e
    | ok y =>
      cases e
      exact ⟨_, _, _, _, rfl, h, rfl⟩

/-- A context with 61 bytes pending or in process, given 130 more, then asked for its digest. -/
def onceCalls (k : Kind) : List (ApiCall × Scr k.width) := [(.init, junk0 k), (.update (some (List.replicate 61 1)) 61, junk0 k)]

example (k : Kind) (u : Bool) : ∃ (slot : Option Nat) (s : St k.width) (rs : List Reply) (slot' : Option Nat) (s' : St k.width), run (algOf k) u (env0 k) (onceCalls k) none (st1 k.width) = .ok (rs, slot, s) ∧
    step (algOf k) u (env0 k) (.update (some (List.replicate 130 2)) 130) (junk0 k) slot s = .ok (⟨1, none⟩, slot', s') ∧
    EachOnce 130 (inputReads 0 (tStep (talgOf k) u (env0 k) (.update (some (List.replicate 130 2)) 130) (junk0 k) slot s).trace) := by
  obtain ⟨slot', s', e, -⟩ := run_kind k u (env0 k) (onceCalls k ++ [(.update (some (List.replicate 130 2)) 130, junk0 k)]) (st1 k.width) (by
    intro c hc
    simp only [onceCalls, List.cons_append, List.nil_append, List.mem_cons, List.not_mem_nil, or_false] at hc
    rcases hc with rfl | rfl | rfl <;> exact ⟨by simp [ApiCall.Valid, -List.reduceReplicate], junk0_ok k⟩)
  obtain ⟨rs, slot, s, r, e1, e2, e3⟩ := run_last e
  have hr : r = ⟨1, none⟩ := by
    have := congrArg List.getLast? e3
    simp only [List.getLast?_append, List.getLast?_singleton] at this
    simpa [onceCalls, specRun, apiRun, apiStep, env0, maxSize, -List.reduceReplicate] using this.symm
  subst hr
  exact ⟨slot, s, rs, slot', s', e1, e2, (C87_histories k u (env0 k) (onceCalls k) _ (junk0 k) none (st1 k.width) (tidy_st1 k) rs slot s e1 _ slot' s' e2).2.1 rfl⟩

example (k : Kind) (u : Bool) : ∃ (slot : Option Nat) (s : St k.width) (rs : List Reply) (r : Reply) (slot' : Option Nat) (s' : St k.width), run (algOf k) u (env0 k) (onceCalls k) none (st1 k.width) = .ok (rs, slot, s) ∧
    step (algOf k) u (env0 k) (.finalize (some (List.replicate 70 2)) 70) (junk0 k) slot s = .ok (r, slot', s') ∧ r.code = 1 ∧
    EachOnce k.hashSize (outputWrites (tStep (talgOf k) u (env0 k) (.finalize (some (List.replicate 70 2)) 70) (junk0 k) slot s).trace) := by
  obtain ⟨slot', s', e, -⟩ := run_kind k u (env0 k) (onceCalls k ++ [(.finalize (some (List.replicate 70 2)) 70, junk0 k)]) (st1 k.width) (by
    intro c hc
    simp only [onceCalls, List.cons_append, List.nil_append, List.mem_cons, List.not_mem_nil, or_false] at hc
    rcases hc with rfl | rfl | rfl <;> exact ⟨by simp [ApiCall.Valid, -List.reduceReplicate], junk0_ok k⟩)
  obtain ⟨rs, slot, s, r, e1, e2, e3⟩ := run_last e
  have hr : r.code = 1 := by
    have hk : k.hashSize ≤ 70 := by cases k <;> decide
    have := congrArg List.getLast? e3
    simp only [List.getLast?_append, List.getLast?_singleton] at this
    simp [onceCalls, specRun, apiRun, apiStep, env0, maxSize, hk, -List.reduceReplicate] at this
    rw [← this]
  exact ⟨slot, s, rs, r, slot', s', e1, e2, hr, (C87_histories k u (env0 k) (onceCalls k) _ (junk0 k) none (st1 k.width) (tidy_st1 k) rs slot s e1 _ slot' s' e2).2.1 hr⟩

example (k : Kind) : EachOnce 203 (inputReads 0 (tCalculate (talgOf k) true (env0 k) (some 5) 203 (some 100) 70 (st1 k.width)).trace) := by
  obtain ⟨s', e, -⟩ := C08_calculate k true (env0 k) (st1 k.width) 5 203 100 70 (junk0_ok k) rfl (by rw [st1_len]; omega) (by rw [st1_len]; omega) (by decide) (by cases k <;> decide)
  exact ((C87_calculate k true (env0 k) (some 5) 203 (some 100) 70 (st1 k.width) (tidy_st1 k) 1 s' e).2.2 rfl).1

/-- An HMAC with a key of 20 bytes and a message of 100: how many bytes are fetched and stored in all. -/
example (k : Kind) : (inputReads 0 (tCalculateHmac (talgOf k) true (env0 k) (List.replicate k.hashSize 1) (some 10) 20 (some 120) 100 (some 60) 80 (st1 k.width)).trace).length = 120 + 2 * k.blockSize + k.hashSize ∧
    (outputWrites (tCalculateHmac (talgOf k) true (env0 k) (List.replicate k.hashSize 1) (some 10) 20 (some 120) 100 (some 60) 80 (st1 k.width)).trace).length = 2 * k.hashSize := by
  obtain ⟨l, s, e, -⟩ := C09_hmac k true (env0 k) (List.replicate k.hashSize 1) (st1 k.width) 10 20 120 100 60 80 (call1 k _ 20 (by omega)) (args1 k 20 (by omega)) (fun _ _ => rfl)
  obtain ⟨rk, ri, rm, ro, rd, wk, wi, wo, e1, e2, h⟩ := C87_hmac k true (env0 k) (List.replicate k.hashSize 1) (some 10) 20 (some 120) 100 (some 60) 80 (st1 k.width) (tidy_st1 k) l s e
  have len : ∀ (n : Nat) (l : List Nat), EachOnce n l → l.length = n := by
    intro n l h
    have : l.Perm (List.range n) := (List.perm_ext_iff_of_nodup h.1 List.nodup_range).mpr fun i => by rw [h.2, List.mem_range]
    rw [this.length_eq, List.length_range]
  rw [e1, e2, if_neg (by cases k <;> decide)] at *
  obtain ⟨h1, h2, h3, h4, h5, rfl, h6, h7⟩ := h
  simp only [List.length_append, List.length_nil, len _ _ h1, len _ _ h2, len _ _ h3, len _ _ h4, len _ _ h5, len _ _ h6, len _ _ h7]
  omega

/-- A second fetch, a byte left out and a byte beyond the end are all excluded. -/
example : ¬EachOnce 2 (inputReads 0 [.read .input 0, .read .input 1, .read .input 0]) ∧ ¬EachOnce 2 (inputReads 0 [.read .input 0]) ∧ ¬EachOnce 2 (inputReads 0 [.copy .block 0 .input 0 2, .ptr 2, .read .input 0]) := by
  refine ⟨fun h => absurd h.1 (by decide), fun h => absurd ((h.2 1).mpr (by decide)) (by decide), fun h => absurd ((h.2 2).mp (by decide)) (by decide)⟩

end Props
