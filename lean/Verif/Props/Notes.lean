import Verif.Proofs.NoteErrors
import Verif.Props.Errors
/-! C79: the messages given to a caller, for all five algorithms with the built-in code, both build variants and both sets of functions. -/

namespace Props

open Model Spec

/-- C79. For every history, even an invalid one, through any mix of the two sets of functions and from any state: if it has a result, then the messages change nothing (replies, context variable and memory are those
of the model without them), domain and code of each are those of the model of the errors, a call that returns 1 gives no message, and one that returns -1 gives messages of which the last names the function that was called. -/
theorem C79_histories (k : Kind) (u : Bool) (env : Env k.width) (calls : List (Bool × ApiCall × Scr k.width)) (slot slot' : Option Nat) (s s' : St k.width) (rs : List (Reply × List Note))
    (h : nRun (algOf k) u env calls slot s = .ok (rs, slot', s')) :
    eRun (algOf k) u env calls slot s = .ok (rs.map fun y => (y.1, y.2.map (·.err)), slot', s') ∧ rs.length = calls.length ∧
      ∀ y ∈ (calls.map fun c => (c.1, c.2.1)).zip rs, y.2.1.code = 1 ∧ y.2.2 = [] ∨
        y.2.1.code = -1 ∧ ∃ causes last t, y.2.2 = causes ++ [last] ∧ noteText k last = functionName k (calledFn y.1.1 y.1.2) ++ ": " ++ t := by
  have he := nRun_err (algOf k) u env calls slot s
  rw [h, Res.ok_bind] at he
  refine ⟨he, ?_⟩
  obtain ⟨f, g, e⟩ := nRun_eq (algOf k) u env calls slot s
  rw [e] at h
  cases hm : mixedRun (algOf k) u env calls slot s with
  | ub => rw [hm] at h; cases h
  | diverge => rw [hm] at h; cases h
  | ok x =>
    rw [hm] at h
    obtain ⟨g1, g2⟩ := g x hm
    have hl := mixedRun_length hm
    cases h
    refine ⟨by rw [List.length_zip, g1, hl, Nat.min_self], fun y hy => ?_⟩
    rcases g2 y hy with ⟨h1, h2⟩ | ⟨h1, h2⟩
    · exact .inl ⟨h1, h2⟩
    · obtain ⟨causes, last, h3⟩ : ∃ causes last, y.2.2 = causes ++ [last] := ⟨_, _, (List.dropLast_concat_getLast h2.ne).symm⟩
      refine .inr ⟨h1, causes, last, txtText k last.txt, h3, ?_⟩
      rw [Named, h3] at h2
      simp only [List.getLast?_append, List.getLast?_singleton, Option.some_or, Option.map_some, Option.some.injEq] at h2
      rw [noteText, h2]

/-- C79. For every valid history, from a NULL context variable, the messages of each call are those of `apiNotes`. -/
theorem C79_histories_exact (k : Kind) (u : Bool) (env : Env k.width) (calls : List (Bool × ApiCall × Scr k.width)) (s : St k.width) (hv : ∀ c ∈ calls, c.2.1.Valid ∧ Kind.Junk k c.2.2) :
    ∃ slot' s', nRun (algOf k) u env calls none s = .ok ((specRun k env.allocOk (calls.map (·.2.1)) ⟨none, s.count⟩).1.zip
      (apiNotes k.len64 k.hashSize (List.replicate k.words 0) env.allocOk (calls.map fun c => (c.1, c.2.1)) ⟨none, s.count⟩), slot', s') := by
  obtain ⟨enc, L⟩ := lawful k
  have := nRun_trace L u env s.live calls none s ⟨none, s.count⟩ (fun c hc => ⟨(hv c hc).1, scrOk_of_junk (hv c hc).2⟩) ⟨rfl, rfl⟩
  rw [algOf_hashSize, algOf_nHash] at this
  exact this

/-- The texts that tell of a state of the library that should not be. -/
def internalTexts : List Txt := [.invalidInternal, .offsetOut, .sizeOut, .transformBlock, .transformBuffer]

theorem firstNotes_mem : ∀ {l : List (List Note)} {n : Note}, n ∈ firstNotes l → ∃ x ∈ l, n ∈ x
  | [] :: l, n, h => by
    obtain ⟨x, hx, hn⟩ := firstNotes_mem (l := l) h
    exact ⟨x, by simp [hx], hn⟩
  | (a :: b) :: l, n, h => ⟨a :: b, by simp, h⟩

theorem withinNote_mem {e n : Note} {ns : List Note} (h : n ∈ withinNote e ns) : n ∈ ns ∨ n = e := by
  cases ns with
  | nil => cases h
  | cons a ns => simpa [withinNote, or_assoc] using h

theorem memoryNotes_mem {e n : Note} {ok : Bool} (h : n ∈ memoryNotes e ok) : n = e := by
  cases ok <;> simp_all [memoryNotes]

theorem inputNotes_mem {g : Bool} {size : Nat} {n : Note} (h : n ∈ inputNotes g size) : n.fn = .ctxUpdate ∧ n.txt ∉ internalTexts := by
  unfold inputNotes at h
  split at h
  · simp_all [internalTexts]
  · split at h <;> simp_all [internalTexts]

theorem outputNotes_mem {m : Nat} {g : Bool} {size : Nat} {n : Note} (h : n ∈ outputNotes m g size) : n.fn = .ctxFinalize ∧ n.txt ∉ internalTexts := by
  unfold outputNotes at h
  split at h
  · simp_all [internalTexts]
  · split at h
    · simp_all [internalTexts]
    · split at h <;> simp_all [internalTexts]

theorem callNotes_mem {m : Nat} {present ok : Bool} {c : ApiCall} {n : Note} (h : n ∈ callNotes m present ok c) : n.fn = calledFn false c ∧ n.txt ∉ internalTexts := by
  cases c with
  | init =>
    simp only [callNotes] at h
    split at h
    · simp_all [calledFn, internalTexts]
    · rw [memoryNotes_mem h]; simp [calledFn, internalTexts]
  | initNull => simp_all [callNotes, calledFn, internalTexts]
  | free => cases h
  | freeNull => simp_all [callNotes, calledFn, internalTexts]
  | update buf size =>
    obtain ⟨x, hx, hn⟩ := firstNotes_mem h
    simp only [List.mem_cons, List.not_mem_nil, or_false] at hx
    rcases hx with rfl | rfl
    · split at hn <;> simp_all [calledFn, internalTexts]
    · exact inputNotes_mem hn
  | finalize out size =>
    obtain ⟨x, hx, hn⟩ := firstNotes_mem h
    simp only [List.mem_cons, List.not_mem_nil, or_false] at hx
    rcases hx with rfl | rfl
    · split at hn <;> simp_all [calledFn, internalTexts]
    · exact outputNotes_mem hn

theorem mixedNotes_mem {m : Nat} {present ok dep : Bool} {c : ApiCall} {n : Note} (h : n ∈ mixedNotes m present ok dep c) :
    (n.fn = calledFn dep c ∨ n.fn = calledFn false c) ∧ n.txt ∉ internalTexts := by
  unfold mixedNotes at h
  cases dep with
  | false => exact ⟨.inl (callNotes_mem h).1, (callNotes_mem h).2⟩
  | true =>
    rcases withinNote_mem h with h | rfl
    · exact ⟨.inr (callNotes_mem h).1, (callNotes_mem h).2⟩
    · cases c <;> simp [functionNote, calledFn, internalTexts]

theorem apiNotes_mem {w : Nat} (H : IterHash w) (m : Nat) (z : List (BitVec w)) (al : Nat → Bool) : ∀ (calls : List (Bool × ApiCall)) (a : ApiState w),
    ∀ y ∈ calls.zip (apiNotes H m z al calls a), ∀ n ∈ y.2, (n.fn = calledFn y.1.1 y.1.2 ∨ n.fn = calledFn false y.1.2) ∧ n.txt ∉ internalTexts
  | [], _, y, hy, _, _ => by simp at hy
  | (dep, c) :: cs, a, y, hy, n, hn => by
    simp only [apiNotes, List.zip_cons_cons, List.mem_cons] at hy
    rcases hy with rfl | hy
    · exact mixedNotes_mem hn
    · exact apiNotes_mem H m z al cs _ y hy n hn

/-- C79. In a valid history every message is of the function that was called, or of its counterpart if that is of the deprecated set, and none tells of a broken state of the library. -/
theorem C79_no_internal (k : Kind) (u : Bool) (env : Env k.width) (calls : List (Bool × ApiCall × Scr k.width)) (s s' : St k.width) (slot' : Option Nat) (rs : List (Reply × List Note))
    (hv : ∀ c ∈ calls, c.2.1.Valid ∧ Kind.Junk k c.2.2) (h : nRun (algOf k) u env calls none s = .ok (rs, slot', s')) :
    ∀ y ∈ (calls.map fun c => (c.1, c.2.1)).zip (rs.map (·.2)), ∀ n ∈ y.2, (n.fn = calledFn y.1.1 y.1.2 ∨ n.fn = calledFn false y.1.2) ∧ n.txt ∉ internalTexts := by
  obtain ⟨slot1, s1, e⟩ := C79_histories_exact k u env calls s hv
  obtain ⟨-, hl, -⟩ := C79_histories k u env calls none slot' s s' rs h
  rw [e] at h
  simp only [Res.ok.injEq, Prod.mk.injEq] at h
  obtain ⟨rfl, -, -⟩ := h
  have hn : ∀ (cs : List (Bool × ApiCall)) (a : ApiState k.width), (apiNotes k.len64 k.hashSize (List.replicate k.words 0) env.allocOk cs a).length = cs.length := by
    intro cs
    induction cs with
    | nil => intro a; rfl
    | cons c cs ih =>
      intro a
      obtain ⟨d, c⟩ := c
      exact congrArg (· + 1) (ih _)
  rw [List.length_zip, hn, List.length_map] at hl
  rw [show (fun x : Reply × List Note => x.2) = Prod.snd from rfl, List.map_snd_zip (by rw [hn, List.length_map]; omega)]
  exact apiNotes_mem _ _ _ _ _ _

/-- C79. A message tells which function of which algorithm it comes from, and which text it has. -/
theorem C79_tells (k k' : Kind) (n n' : Note) (h : noteText k n = noteText k' n') : k = k' ∧ n.fn = n'.fn ∧ n.txt = n'.txt := by
  have h := congrArg String.toList h
  simp only [noteText, String.toList_append, List.append_assoc] at h
  obtain ⟨h1, h2⟩ := split_at (c := ':') (functionName_colon k n.fn) (functionName_colon k' n'.fn) h
  obtain ⟨rfl, hf⟩ := functionName_inj (String.toList_inj.mp h1)
  refine ⟨rfl, hf, txtText_inj (k := k) (String.toList_inj.mp ?_)⟩
  simpa using h2

/-- Two messages of the same text by two functions. -/
example : noteText .md5 ⟨.ctxUpdate, .argInvalid, .invalidContext⟩ = "libhmac_md5_context_update: invalid context." ∧
    noteText .md5 ⟨.ctxFinalize, .argInvalid, .invalidContext⟩ = "libhmac_md5_context_finalize: invalid context." := ⟨rfl, rfl⟩

/-- The history of C54 has a result with messages, and is valid. -/
example (k : Kind) : ∃ rs slot' s', nRun (algOf k) true (env0 k) (mixedCalls k) none (st0 k.width) = .ok (rs, slot', s') := by
  obtain ⟨slot', s', e⟩ := C79_histories_exact k true (env0 k) (mixedCalls k) (st0 k.width) (mixedCalls_ok k)
  exact ⟨_, _, _, e⟩

/-- Its messages. -/
example : (apiNotes Kind.sha256.len64 Kind.sha256.hashSize (List.replicate Kind.sha256.words 0) (fun _ => true) ((mixedCalls .sha256).map fun c => (c.1, c.2.1)) ⟨none, 0⟩).map (·.map (noteText .sha256)) =
    [["libhmac_sha256_context_free: invalid context.", "libhmac_sha256_free: unable to free context."], [],
      ["libhmac_sha256_context_initialize: invalid context value already set.", "libhmac_sha256_initialize: unable to initialize context."], [],
      ["libhmac_sha256_context_update: invalid buffer.", "libhmac_sha256_update: unable to update context."], ["libhmac_sha256_context_update: invalid size value exceeds maximum."],
      ["libhmac_sha256_context_finalize: invalid hash value too small.", "libhmac_sha256_finalize: unable to finalize context."], [],
      ["libhmac_sha256_context_finalize: invalid context.", "libhmac_sha256_finalize: unable to finalize context."]] := by
  simp [mixedCalls, apiNotes, mixedNotes, callNotes, apiStep, firstNotes, inputNotes, outputNotes, contextNotes, memoryNotes, withinNote, functionNote, Kind.hashSize, maxSize, noteText, functionName,
    algorithmName, fnName, txtText]

/-- C79. `calculate`: for all arguments in every state, and whatever messages there were before: the messages change nothing else, domain and code of each are those of the model of the errors, none is added if the
result is 1, and otherwise it is -1 and the last message names this function. -/
theorem C79_calculate (k : Kind) (u : Bool) (env : Env k.width) (s s' : St k.width) (buffer : Option Nat) (size : Nat) (hash : Option Nat) (n : Nat) (r : Int) (ns ns' : List Note)
    (h : nCalculate (algOf k) u env buffer size hash n s ns = .ok (r, s', ns')) :
    eCalculate (algOf k) u env buffer size hash n s (ns.map (·.err)) = .ok (r, s', ns'.map (·.err)) ∧
      (r = 1 ∧ ns' = ns ∨ r = -1 ∧ ∃ causes last t, ns' = ns ++ causes ++ [last] ∧ noteText k last = functionName k .calculate ++ ": " ++ t) := by
  have he := nCalculate_err (algOf k) u env buffer size hash n s ns
  rw [h, Res.ok_bind] at he
  refine ⟨he, ?_⟩
  obtain ⟨f, g, e⟩ := nCalculate_eq (algOf k) u env buffer size hash n s
  rw [e] at h
  cases hm : calculate (algOf k) u env buffer size hash n s with
  | ub => rw [hm] at h; cases h
  | diverge => rw [hm] at h; cases h
  | ok x =>
    rw [hm] at h
    have := g x hm
    cases h
    rcases this with ⟨h1, h2⟩ | ⟨h1, h2⟩
    · exact .inl ⟨h1, by simp [h2]⟩
    · obtain ⟨causes, last, h3⟩ : ∃ causes last, f x = causes ++ [last] := ⟨_, _, (List.dropLast_concat_getLast h2.ne).symm⟩
      refine .inr ⟨h1, causes, last, txtText k last.txt, by rw [h3, List.append_assoc], ?_⟩
      rw [Named, h3] at h2
      simp only [List.getLast?_append, List.getLast?_singleton, Option.some_or, Option.map_some, Option.some.injEq] at h2
      rw [noteText, h2]

/-- C79. `calculate`: the messages, exactly. -/
theorem C79_calculate_exact (k : Kind) (u : Bool) (env : Env k.width) (s : St k.width) (buffer : Option Nat) (size : Nat) (hash : Option Nat) (n : Nat) (ns : List Note)
    (hj : Kind.Junk k env.scr) (hb : AreaOk s.caller buffer size) (hh : AreaOk s.caller hash n) :
    ∃ r s', nCalculate (algOf k) u env buffer size hash n s ns =
      .ok (r, s', ns ++ calculateNotes k.hashSize (fun i => env.allocOk (s.count + i)) buffer.isSome size hash.isSome n) := by
  obtain ⟨enc, L⟩ := lawful k
  have := nCalculate_trace L u env (scrOk_of_junk hj) buffer size hash n s hb hh ns
  rw [algOf_hashSize] at this
  exact this

/-- C79. `calculate_hmac`: as `C79_calculate`. -/
theorem C79_hmac (k : Kind) (u : Bool) (env : Env k.width) (kh : List Byte) (s s' : St k.width) (l' : Loc) (key : Option Nat) (keySize : Nat) (buffer : Option Nat) (size : Nat) (hmac : Option Nat) (n : Nat)
    (r : Int) (ns ns' : List Note) (h : nCalculateHmac (algOf k) u env kh key keySize buffer size hmac n s ns = .ok (r, l', s', ns')) :
    eCalculateHmac (algOf k) u env kh key keySize buffer size hmac n s (ns.map (·.err)) = .ok (r, l', s', ns'.map (·.err)) ∧
      (r = 1 ∧ ns' = ns ∨ r = -1 ∧ ∃ causes last t, ns' = ns ++ causes ++ [last] ∧ noteText k last = functionName k .calculateHmac ++ ": " ++ t) := by
  have he := nCalculateHmac_err (algOf k) u env kh key keySize buffer size hmac n s ns
  rw [h, Res.ok_bind] at he
  refine ⟨he, ?_⟩
  obtain ⟨f, g, e⟩ := nCalculateHmac_eq (algOf k) u env kh key keySize buffer size hmac n s
  rw [e] at h
  cases hm : calculateHmac (algOf k) u env kh key keySize buffer size hmac n s with
  | ub => rw [hm] at h; cases h
  | diverge => rw [hm] at h; cases h
  | ok x =>
    rw [hm] at h
    have := g x hm
    cases h
    rcases this with ⟨h1, h2⟩ | ⟨h1, h2⟩
    · exact .inl ⟨h1, by simp [h2]⟩
    · obtain ⟨causes, last, h3⟩ : ∃ causes last, f x = causes ++ [last] := ⟨_, _, (List.dropLast_concat_getLast h2.ne).symm⟩
      refine .inr ⟨h1, causes, last, txtText k last.txt, by rw [h3, List.append_assoc], ?_⟩
      rw [Named, h3] at h2
      simp only [List.getLast?_append, List.getLast?_singleton, Option.some_or, Option.map_some, Option.some.injEq] at h2
      rw [noteText, h2]

/-- C79. `calculate_hmac`: the messages, exactly. -/
theorem C79_hmac_exact (k : Kind) (u : Bool) (env : Env k.width) (kh : List Byte) (s : St k.width) (key : Option Nat) (keySize : Nat) (buffer : Option Nat) (size : Nat) (hmac : Option Nat) (n : Nat) (ns : List Note)
    (hc : HmacCall k env kh s key keySize buffer size hmac n) :
    ∃ r l' s', nCalculateHmac (algOf k) u env kh key keySize buffer size hmac n s ns =
      .ok (r, l', s', ns ++ hmacNotes k.hashSize k.blockSize (fun i => env.allocOk (s.count + i)) key.isSome keySize buffer.isSome size hmac.isSome n) := by
  obtain ⟨enc, L⟩ := lawful k
  have := nCalculateHmac_trace L u env (scrOk_of_junk hc.junk) kh (by rw [hc.keyHash, algOf_hashSize]) key keySize buffer size hmac n s hc.key hc.buffer hc.hmac ns
  rw [algOf_hashSize, algOf_hmacBs] at this
  exact this

/-- C79. If there is memory, the first message of a failing `calculate_hmac` tells which argument is wrong: the first wrong one in the order key, key size, HMAC size (too small), data, data size, HMAC, HMAC size (too large). -/
theorem C79_hmac_cause (k : Kind) (u : Bool) (env : Env k.width) (kh : List Byte) (s s' : St k.width) (l' : Loc) (key : Option Nat) (keySize : Nat) (buffer : Option Nat) (size : Nat) (hmac : Option Nat) (n : Nat)
    (ns' : List Note) (hc : HmacCall k env kh s key keySize buffer size hmac n) (hm : ∀ i, env.allocOk i = true)
    (h : nCalculateHmac (algOf k) u env kh key keySize buffer size hmac n s [] = .ok (-1, l', s', ns')) :
    ∃ cause rest, ns' = cause :: rest ∧ (
      key = none ∧ noteText k cause = "libhmac_" ++ algorithmName k ++ "_calculate_hmac" ++ ": invalid key." ∨
      key ≠ none ∧ 2 ^ 63 ≤ keySize ∧ noteText k cause = "libhmac_" ++ algorithmName k ++ "_calculate_hmac" ++ ": invalid key size value exceeds maximum." ∨
      key ≠ none ∧ keySize < 2 ^ 63 ∧ n < k.hashSize ∧ noteText k cause = "libhmac_" ++ algorithmName k ++ "_calculate_hmac" ++ ": invalid HMAC size value too small." ∨
      key ≠ none ∧ keySize < 2 ^ 63 ∧ k.hashSize ≤ n ∧ buffer = none ∧ noteText k cause = "libhmac_" ++ algorithmName k ++ "_context_update" ++ ": invalid buffer." ∨
      key ≠ none ∧ keySize < 2 ^ 63 ∧ k.hashSize ≤ n ∧ buffer ≠ none ∧ 2 ^ 63 ≤ size ∧
        noteText k cause = "libhmac_" ++ algorithmName k ++ "_context_update" ++ ": invalid size value exceeds maximum." ∨
      key ≠ none ∧ keySize < 2 ^ 63 ∧ k.hashSize ≤ n ∧ buffer ≠ none ∧ size < 2 ^ 63 ∧ hmac = none ∧
        noteText k cause = "libhmac_" ++ algorithmName k ++ "_context_finalize" ++ ": invalid hash." ∨
      key ≠ none ∧ keySize < 2 ^ 63 ∧ k.hashSize ≤ n ∧ buffer ≠ none ∧ size < 2 ^ 63 ∧ hmac ≠ none ∧ 2 ^ 63 ≤ n ∧
        noteText k cause = "libhmac_" ++ algorithmName k ++ "_context_finalize" ++ ": invalid hash size value exceeds maximum.") := by
  obtain ⟨r, l1, s1, e⟩ := C79_hmac_exact k u env kh s key keySize buffer size hmac n [] hc
  obtain ⟨-, h2⟩ := C79_hmac k u env kh s s' l' key keySize buffer size hmac n _ [] ns' h
  rw [h] at e
  simp only [Res.ok.injEq, Prod.mk.injEq, List.nil_append] at e
  obtain ⟨-, -, -, rfl⟩ := e
  have hne : hmacNotes k.hashSize k.blockSize (fun i => env.allocOk (s.count + i)) key.isSome keySize buffer.isSome size hmac.isSome n ≠ [] := by
    rcases h2 with ⟨h2, -⟩ | ⟨-, causes, last, t, h2, -⟩
    · cases h2
    · rw [h2]; simp
  clear h2 h
  unfold hmacNotes at hne ⊢
  have m1 : ∀ e, memoryNotes e true = [] := fun _ => rfl
  have m2 : contextNotes true = [] := rfl
  simp only [hm, m1, m2, withinNote_none, ite_self] at hne ⊢
  cases key with
  | none => exact ⟨_, _, rfl, .inl ⟨rfl, by simp [noteText, functionName, fnName, txtText, String.append_assoc]⟩⟩
  | some key =>
    by_cases h1 : 2 ^ 63 ≤ keySize
    · rw [show keyNotes (some key).isSome keySize = [⟨.calculateHmac, .argExceeds, .keyExceeds⟩] from by unfold keyNotes; rw [if_neg (by simp), if_pos (by omega)]]
      exact ⟨_, _, rfl, .inr (.inl ⟨by simp, h1, by simp [noteText, functionName, fnName, txtText, String.append_assoc]⟩)⟩
    rw [show keyNotes (some key).isSome keySize = [] from keyNotes_nil.mpr ⟨rfl, by unfold ssizeMax; omega⟩, firstNotes_nil] at hne ⊢
    by_cases h2 : n < k.hashSize
    · rw [if_pos h2]
      exact ⟨_, _, rfl, .inr (.inr (.inl ⟨by simp, by omega, h2, by simp [noteText, functionName, fnName, txtText, String.append_assoc]⟩))⟩
    simp only [if_neg h2, firstNotes_nil] at hne ⊢
    cases buffer with
    | none => exact ⟨_, _, rfl, .inr (.inr (.inr (.inl ⟨by simp, by omega, by omega, rfl, by simp [noteText, functionName, fnName, txtText, String.append_assoc]⟩)))⟩
    | some buffer =>
      by_cases h3 : 2 ^ 63 ≤ size
      · rw [show inputNotes (some buffer).isSome size = [⟨.ctxUpdate, .argExceeds, .sizeExceeds⟩] from by unfold inputNotes; rw [if_neg (by simp), if_pos (by omega)]]
        exact ⟨_, _, rfl, .inr (.inr (.inr (.inr (.inl ⟨by simp, by omega, by omega, by simp, h3, by simp [noteText, functionName, fnName, txtText, String.append_assoc]⟩))))⟩
      rw [show inputNotes (some buffer).isSome size = [] from inputNotes_nil.mpr ⟨rfl, by unfold ssizeMax; omega⟩, withinNote_none, firstNotes_nil] at hne ⊢
      cases hmac with
      | none => exact ⟨_, _, rfl, .inr (.inr (.inr (.inr (.inr (.inl ⟨by simp, by omega, by omega, by simp, by omega, rfl, by simp [noteText, functionName, fnName, txtText, String.append_assoc]⟩)))))⟩
      | some hmac =>
        by_cases h4 : 2 ^ 63 ≤ n
        · rw [show outputNotes k.hashSize (some hmac).isSome n = [⟨.ctxFinalize, .argExceeds, .hashExceeds⟩] from by unfold outputNotes; rw [if_neg (by simp), if_neg h2, if_pos (by omega)]]
          exact ⟨_, _, rfl, .inr (.inr (.inr (.inr (.inr (.inr ⟨by simp, by omega, by omega, by simp, by omega, by simp, h4, by simp [noteText, functionName, fnName, txtText, String.append_assoc]⟩)))))⟩
        · rw [show outputNotes k.hashSize (some hmac).isSome n = [] from outputNotes_nil.mpr ⟨rfl, by omega, by unfold ssizeMax; omega⟩] at hne
          exact (hne rfl).elim

/-- A call without data, with memory: it fails, and the first message tells of the buffer. -/
example (k : Kind) : ∃ l' s' ns', nCalculateHmac (algOf k) true (env0 k) (List.replicate k.hashSize 1) (some 10) 20 none 100 (some 60) 80 (st1 k.width) [] = .ok (-1, l', s', ns') ∧
    HmacCall k (env0 k) (List.replicate k.hashSize 1) (st1 k.width) (some 10) 20 none 100 (some 60) 80 ∧ (∀ i, (env0 k).allocOk i = true) := by
  have hc : HmacCall k (env0 k) (List.replicate k.hashSize 1) (st1 k.width) (some 10) 20 none 100 (some 60) 80 :=
    ⟨by rintro _ ⟨⟩ -; rw [st1_len]; omega, by rintro _ ⟨⟩, by rintro _ ⟨⟩ -; rw [st1_len]; omega, junk0_ok k, by simp⟩
  obtain ⟨r, l', s', e⟩ := C79_hmac_exact k true (env0 k) _ _ _ _ _ _ _ _ [] hc
  obtain ⟨-, ⟨-, h⟩ | ⟨rfl, -⟩⟩ := C79_hmac k _ _ _ _ _ _ _ _ _ _ _ _ _ [] _ e
  · exfalso
    have : hmacNotes k.hashSize k.blockSize (fun _ => true) true 20 false 100 true 80 ≠ [] := by cases k <;> decide
    exact this h
  · exact ⟨_, _, _, e, hc, fun _ => rfl⟩

/-- The arguments of a `calculate` with areas that overlap. -/
example (k : Kind) : ∃ r s', nCalculate (algOf k) true (env0 k) (some 5) 203 (some 7) 3 (st1 k.width) [] =
    .ok (r, s', [⟨.ctxFinalize, .argTooSmall, .hashTooSmall⟩, ⟨.calculate, .rtFinalizeFailed, .finalize⟩]) := by
  obtain ⟨r, s', e⟩ := C79_calculate_exact k true (env0 k) (st1 k.width) (some 5) 203 (some 7) 3 [] (junk0_ok k) (by rintro _ ⟨⟩ -; rw [st1_len]; omega) (by rintro _ ⟨⟩ -; rw [st1_len]; omega)
  refine ⟨r, s', e.trans ?_⟩
  have he : calculateNotes k.hashSize (fun _ => true) true 203 true 3 = [⟨.ctxFinalize, .argTooSmall, .hashTooSmall⟩, ⟨.calculate, .rtFinalizeFailed, .finalize⟩] := by cases k <;> decide
  exact congrArg (fun x => Res.ok (r, s', [] ++ x)) he

/-- Every allocation may fail, or none. -/
example (k : Kind) (al : Nat → Bool) (ks : Nat) (h : ks ≤ 200) := C79_hmac_exact k true { env0 k with allocOk := al } _ _ _ _ _ _ _ _ [] (call1 k al ks h)

/-- A call with valid arguments that fails: the fourth allocation, for the context of the first pass. -/
example (k : Kind) : ∃ r l' s', nCalculateHmac (algOf k) true { env0 k with allocOk := fun n => n != 8 } (List.replicate k.hashSize 1) (some 10) 20 (some 120) 100 (some 60) 80 (st1 k.width) [] =
    .ok (r, l', s', [⟨.ctxInitialize, .memInsufficient, .createContext⟩, ⟨.calculateHmac, .rtInitializeFailed, .initialize⟩]) := by
  obtain ⟨r, l', s', e⟩ := C79_hmac_exact k true { env0 k with allocOk := fun n => n != 8 } _ _ _ _ _ _ _ _ [] (call1 k _ 20 (by omega))
  refine ⟨r, l', s', e.trans ?_⟩
  have he : hmacNotes k.hashSize k.blockSize (fun i => ((st1 k.width).count + i) != 8) (some 10).isSome 20 (some 120).isSome 100 (some 60).isSome 80 =
      [⟨.ctxInitialize, .memInsufficient, .createContext⟩, ⟨.calculateHmac, .rtInitializeFailed, .initialize⟩] := by
    show hmacNotes k.hashSize k.blockSize (fun i => (5 + i) != 8) true 20 true 100 true 80 = _
    cases k <;> decide
  rw [List.nil_append, he]

end Props
