import Verif.Proofs.ErrorTraces
import Verif.Props.Hmac
/-! C54: the errors given to a caller, for all five algorithms with the built-in code, both build variants and both sets of functions. -/

namespace Props

open Model Spec

/-- C54. For every history, even an invalid one, through any mix of the two sets of functions and from any state: if it has a result, then the error output changes nothing (replies, context
variable and memory are those of the model without it), and each call gives an error exactly if it returns -1; otherwise it returns 1. -/
theorem C54_histories (k : Kind) (u : Bool) (env : Env k.width) (calls : List (Bool × ApiCall × Scr k.width)) (slot slot' : Option Nat) (s s' : St k.width) (rs : List (Reply × List Err))
    (h : eRun (algOf k) u env calls slot s = .ok (rs, slot', s')) :
    mixedRun (algOf k) u env calls slot s = .ok (rs.map (·.1), slot', s') ∧ ∀ y ∈ rs, y.1.code = 1 ∧ y.2 = [] ∨ y.1.code = -1 ∧ y.2 ≠ [] := by
  obtain ⟨f, g, e⟩ := eRun_eq (algOf k) u env calls slot s
  rw [e] at h
  cases hm : mixedRun (algOf k) u env calls slot s with
  | ub => rw [hm] at h; cases h
  | diverge => rw [hm] at h; cases h
  | ok x =>
    rw [hm] at h
    obtain ⟨g1, g2⟩ := g x hm
    cases h
    refine ⟨?_, g2⟩
    rw [show (fun x : Reply × List Err => x.1) = Prod.fst from rfl, List.map_fst_zip (by omega)]

/-- C54. For every valid history, from a NULL context variable, the errors of each call are those of `apiErrors`: they depend only on the sizes, which pointers are NULL, whether the context variable holds a context,
and whether the allocation succeeds. -/
theorem C54_histories_exact (k : Kind) (u : Bool) (env : Env k.width) (calls : List (Bool × ApiCall × Scr k.width)) (s : St k.width) (hv : ∀ c ∈ calls, c.2.1.Valid ∧ Kind.Junk k c.2.2) :
    ∃ slot' s', eRun (algOf k) u env calls none s = .ok ((specRun k env.allocOk (calls.map (·.2.1)) ⟨none, s.count⟩).1.zip
      (apiErrors k.len64 k.hashSize (List.replicate k.words 0) env.allocOk (calls.map fun c => (c.1, c.2.1)) ⟨none, s.count⟩), slot', s') := by
  obtain ⟨enc, L⟩ := lawful k
  have := eRun_trace L u env s.live calls none s ⟨none, s.count⟩ (fun c hc => ⟨(hv c hc).1, scrOk_of_junk (hv c hc).2⟩) ⟨rfl, rfl⟩
  rw [algOf_hashSize, algOf_nHash] at this
  exact this

/-- A valid history with failing calls through both sets. -/
def mixedCalls (k : Kind) : List (Bool × ApiCall × Scr k.width) :=
  [(true, .freeNull, junk0 k), (false, .init, junk0 k), (true, .init, junk0 k), (false, .update (some [1, 2, 3]) 2, junk0 k), (true, .update none 4, junk0 k), (false, .update (some []) (2 ^ 63), junk0 k),
    (true, .finalize (some (List.replicate 64 0)) 3, junk0 k), (false, .free, junk0 k), (true, .finalize none 64, junk0 k)]

theorem mixedCalls_ok (k : Kind) : ∀ c ∈ mixedCalls k, c.2.1.Valid ∧ Kind.Junk k c.2.2 := by
  intro c hc
  simp only [mixedCalls, List.mem_cons, List.not_mem_nil, or_false] at hc
  rcases hc with rfl | rfl | rfl | rfl | rfl | rfl | rfl | rfl | rfl <;> refine ⟨?_, junk0_ok k⟩ <;> simp [ApiCall.Valid, maxSize]

/-- The history has a result, so `C54_histories` applies to it. -/
example (k : Kind) : ∃ rs slot' s', eRun (algOf k) true (env0 k) (mixedCalls k) none (st0 k.width) = .ok (rs, slot', s') := by
  obtain ⟨slot', s', e⟩ := C54_histories_exact k true (env0 k) (mixedCalls k) (st0 k.width) (mixedCalls_ok k)
  exact ⟨_, _, _, e⟩

/-- The errors of the history. -/
example : apiErrors Kind.sha256.len64 Kind.sha256.hashSize (List.replicate Kind.sha256.words 0) (fun _ => true) ((mixedCalls .sha256).map fun c => (c.1, c.2.1)) ⟨none, 0⟩ =
    [[.argInvalid, .rtFinalizeFailed], [], [.rtAlreadySet, .rtInitializeFailed], [], [.argInvalid, .rtSetFailed], [.argExceeds], [.argTooSmall, .rtFinalizeFailed], [],
      [.argInvalid, .rtFinalizeFailed]] := by
  simp [mixedCalls, apiErrors, mixedErrors, callErrors, apiStep, firstErrors, inputErrors, outputErrors, memoryErrors, within, functionError, Kind.hashSize, maxSize]

/-- C54. `calculate`: for all arguments in every state, and whatever errors there were before: the error output changes nothing else, errors are only added, and one is added exactly if the result is -1;
otherwise the result is 1. -/
theorem C54_calculate (k : Kind) (u : Bool) (env : Env k.width) (s s' : St k.width) (buffer : Option Nat) (size : Nat) (hash : Option Nat) (n : Nat) (r : Int) (es es' : List Err)
    (h : eCalculate (algOf k) u env buffer size hash n s es = .ok (r, s', es')) :
    calculate (algOf k) u env buffer size hash n s = .ok (r, s') ∧ ∃ new, es' = es ++ new ∧ (r = 1 ∧ new = [] ∨ r = -1 ∧ new ≠ []) := by
  obtain ⟨f, g, e⟩ := eCalculate_eq (algOf k) u env buffer size hash n s
  rw [e] at h
  cases hm : calculate (algOf k) u env buffer size hash n s with
  | ub => rw [hm] at h; cases h
  | diverge => rw [hm] at h; cases h
  | ok x =>
    rw [hm] at h
    have := g x hm
    cases h
    exact ⟨rfl, _, rfl, this⟩

/-- C54. `calculate`: the errors, exactly. -/
theorem C54_calculate_exact (k : Kind) (u : Bool) (env : Env k.width) (s : St k.width) (buffer : Option Nat) (size : Nat) (hash : Option Nat) (n : Nat) (es : List Err)
    (hj : Kind.Junk k env.scr) (hb : AreaOk s.caller buffer size) (hh : AreaOk s.caller hash n) :
    ∃ r s', eCalculate (algOf k) u env buffer size hash n s es =
      .ok (r, s', es ++ calculateErrors k.hashSize (fun i => env.allocOk (s.count + i)) buffer.isSome size hash.isSome n) := by
  obtain ⟨enc, L⟩ := lawful k
  have := eCalculate_trace L u env (scrOk_of_junk hj) buffer size hash n s hb hh es
  rw [algOf_hashSize] at this
  exact this

/-- C54. `calculate_hmac`: as `C54_calculate`. -/
theorem C54_hmac (k : Kind) (u : Bool) (env : Env k.width) (kh : List Byte) (s s' : St k.width) (l' : Loc) (key : Option Nat) (keySize : Nat) (buffer : Option Nat) (size : Nat) (hmac : Option Nat) (n : Nat)
    (r : Int) (es es' : List Err) (h : eCalculateHmac (algOf k) u env kh key keySize buffer size hmac n s es = .ok (r, l', s', es')) :
    calculateHmac (algOf k) u env kh key keySize buffer size hmac n s = .ok (r, l', s') ∧ ∃ new, es' = es ++ new ∧ (r = 1 ∧ new = [] ∨ r = -1 ∧ new ≠ []) := by
  obtain ⟨f, g, e⟩ := eCalculateHmac_eq (algOf k) u env kh key keySize buffer size hmac n s
  rw [e] at h
  cases hm : calculateHmac (algOf k) u env kh key keySize buffer size hmac n s with
  | ub => rw [hm] at h; cases h
  | diverge => rw [hm] at h; cases h
  | ok x =>
    rw [hm] at h
    have := g x hm
    cases h
    exact ⟨rfl, _, rfl, this⟩

/-- C54. `calculate_hmac`: the errors, exactly. -/
theorem C54_hmac_exact (k : Kind) (u : Bool) (env : Env k.width) (kh : List Byte) (s : St k.width) (key : Option Nat) (keySize : Nat) (buffer : Option Nat) (size : Nat) (hmac : Option Nat) (n : Nat) (es : List Err)
    (hc : HmacCall k env kh s key keySize buffer size hmac n) :
    ∃ r l' s', eCalculateHmac (algOf k) u env kh key keySize buffer size hmac n s es =
      .ok (r, l', s', es ++ hmacErrors k.hashSize k.blockSize (fun i => env.allocOk (s.count + i)) key.isSome keySize buffer.isSome size hmac.isSome n) := by
  obtain ⟨enc, L⟩ := lawful k
  have := eCalculateHmac_trace L u env (scrOk_of_junk hc.junk) kh (by rw [hc.keyHash, algOf_hashSize]) key keySize buffer size hmac n s hc.key hc.buffer hc.hmac es
  rw [algOf_hashSize, algOf_hmacBs] at this
  exact this

theorem firstErrors_mem : ∀ {l : List (List Err)} {e : Err}, (firstErrors l).head? = some e → ∃ x ∈ l, x.head? = some e
  | [] :: l, e, h => by
    obtain ⟨x, hx, hh⟩ := firstErrors_mem (l := l) h
    exact ⟨x, by simp [hx], hh⟩
  | (a :: b) :: l, e, h => ⟨a :: b, by simp, h⟩

theorem within_head {e c : Err} {es : List Err} (h : (within c es).head? = some e) : es.head? = some e := by
  cases es <;> simp_all [within]

theorem memoryErrors_head {ok : Bool} {e : Err} (h : (memoryErrors ok).head? = some e) : e = .memInsufficient ∧ ok = false := by
  cases ok <;> simp_all [memoryErrors]

/-- C54. The first error of a failing `calculate_hmac` tells the cause: with valid arguments it is lack of memory; and it is lack of memory only if one of the allocations fails. -/
theorem C54_hmac_cause (k : Kind) (u : Bool) (env : Env k.width) (kh : List Byte) (s s' : St k.width) (l' : Loc) (key : Option Nat) (keySize : Nat) (buffer : Option Nat) (size : Nat) (hmac : Option Nat) (n : Nat)
    (es' : List Err) (hc : HmacCall k env kh s key keySize buffer size hmac n) (h : eCalculateHmac (algOf k) u env kh key keySize buffer size hmac n s [] = .ok (-1, l', s', es')) :
    ∃ cause rest, es' = cause :: rest ∧ (HmacArgs k key keySize buffer size hmac n → cause = .memInsufficient) ∧
      (cause = .memInsufficient → ∃ j < allocations k keySize, env.allocOk (s.count + j) = false) := by
  obtain ⟨r, l1, s1, e⟩ := C54_hmac_exact k u env kh s key keySize buffer size hmac n [] hc
  obtain ⟨-, new, rfl, h2⟩ := C54_hmac k u env kh s s' l' key keySize buffer size hmac n _ [] es' h
  rw [h] at e
  simp only [Res.ok.injEq, Prod.mk.injEq, List.nil_append] at e
  obtain ⟨-, -, -, rfl⟩ := e
  rcases h2 with ⟨h2, -⟩ | ⟨-, h2⟩
  · cases h2
  obtain ⟨cause, rest, hcons⟩ := List.exists_cons_of_ne_nil h2
  refine ⟨cause, rest, by simpa using hcons, fun ha => ?_, fun hm => ?_⟩
  · have hh : (hmacErrors k.hashSize k.blockSize (fun i => env.allocOk (s.count + i)) key.isSome keySize buffer.isSome size hmac.isSome n).head? = some cause := by rw [hcons]; rfl
    obtain ⟨h1, h2, h3, h4, h5, h6, h7⟩ := ha
    have i1 : inputErrors key.isSome keySize = [] := inputErrors_nil.mpr ⟨by simp [Option.isSome_iff_ne_none, h1], h2⟩
    have i2 : inputErrors buffer.isSome size = [] := inputErrors_nil.mpr ⟨by simp [Option.isSome_iff_ne_none, h3], h4⟩
    have i3 : outputErrors k.hashSize hmac.isSome n = [] := outputErrors_nil.mpr ⟨by simp [Option.isSome_iff_ne_none, h5], h6, h7⟩
    unfold hmacErrors at hh
    rw [i1, i2, i3, if_neg (Nat.not_lt.mpr h6)] at hh
    simp only [within_none] at hh
    obtain ⟨x, hx, hxe⟩ := firstErrors_mem hh
    simp only [List.mem_cons, List.not_mem_nil, or_false] at hx
    rcases hx with rfl | rfl | rfl | rfl | rfl | rfl | rfl | rfl | rfl | rfl
    · cases hxe
    · cases hxe
    · exact (memoryErrors_head hxe).1
    · split at hxe
      · cases hxe
      · exact (memoryErrors_head (within_head hxe)).1
    · exact (memoryErrors_head hxe).1
    · exact (memoryErrors_head hxe).1
    · exact (memoryErrors_head (within_head hxe)).1
    · cases hxe
    · cases hxe
    · exact (memoryErrors_head (within_head hxe)).1
  · have hh : (hmacErrors k.hashSize k.blockSize (fun i => env.allocOk (s.count + i)) key.isSome keySize buffer.isSome size hmac.isSome n).head? = some .memInsufficient := by rw [hcons, hm]; rfl
    have hin : ∀ g m, (inputErrors g m).head? ≠ some .memInsufficient := by
      intro g m
      unfold inputErrors
      split
      · simp
      · split <;> simp
    have hout : ∀ g m, (outputErrors k.hashSize g m).head? ≠ some .memInsufficient := by
      intro g m
      unfold outputErrors
      split
      · simp
      · split
        · simp
        · split <;> simp
    unfold hmacErrors at hh
    unfold allocations
    obtain ⟨x, hx, hxe⟩ := firstErrors_mem hh
    simp only [List.mem_cons, List.not_mem_nil, or_false] at hx
    rcases hx with rfl | rfl | rfl | rfl | rfl | rfl | rfl | rfl | rfl | rfl
    · exact (hin _ _ hxe).elim
    · split at hxe <;> simp at hxe
    · exact ⟨0, by split <;> omega, (memoryErrors_head hxe).2⟩
    · split at hxe
      · cases hxe
      · rename_i hk
        exact ⟨1, by simp [hk], (memoryErrors_head (within_head hxe)).2⟩
    · refine ⟨_, ?_, (memoryErrors_head hxe).2⟩
      split <;> omega
    · refine ⟨_, ?_, (memoryErrors_head hxe).2⟩
      split <;> omega
    · refine ⟨_, ?_, (memoryErrors_head (within_head hxe)).2⟩
      split <;> omega
    · exact (hin _ _ (within_head hxe)).elim
    · exact (hout _ _ (within_head hxe)).elim
    · refine ⟨_, ?_, (memoryErrors_head (within_head hxe)).2⟩
      split <;> omega

/-- Every allocation may fail, or none. -/
example (k : Kind) (al : Nat → Bool) (ks : Nat) (h : ks ≤ 200) := C54_hmac_exact k true { env0 k with allocOk := al } _ _ _ _ _ _ _ _ [] (call1 k al ks h)

example (k : Kind) : Kind.Junk k (env0 k).scr ∧ AreaOk (st1 k.width).caller (some 5) 203 ∧ AreaOk (st1 k.width).caller (some 7) 70 :=
  ⟨junk0_ok k, by rintro _ ⟨⟩ -; rw [st1_len]; omega, by rintro _ ⟨⟩ -; rw [st1_len]; omega⟩

/-- A call with valid arguments that fails: the fourth allocation, for the context of the first pass. -/
example (k : Kind) : ∃ l' s', eCalculateHmac (algOf k) true { env0 k with allocOk := fun n => n != 8 } (List.replicate k.hashSize 1) (some 10) 20 (some 120) 100 (some 60) 80 (st1 k.width) [] =
    .ok (-1, l', s', [.memInsufficient, .rtInitializeFailed]) := by
  obtain ⟨r, l', s', e⟩ := C54_hmac_exact k true { env0 k with allocOk := fun n => n != 8 } _ _ _ _ _ _ _ _ [] (call1 k _ 20 (by omega))
  have he : hmacErrors k.hashSize k.blockSize (fun i => ((st1 k.width).count + i) != 8) (some 10).isSome 20 (some 120).isSome 100 (some 60).isSome 80 = [.memInsufficient, .rtInitializeFailed] := by
    show hmacErrors k.hashSize k.blockSize (fun i => (5 + i) != 8) true 20 true 100 true 80 = _
    cases k <;> decide
  rw [List.nil_append, he] at e
  obtain ⟨-, new, h1, h2⟩ := C54_hmac k _ _ _ _ _ _ _ _ _ _ _ _ _ [] _ e
  rcases h2 with ⟨-, h2⟩ | ⟨rfl, -⟩
  · subst h2; simp at h1
  · exact ⟨_, _, e⟩

/-- C54_histories and C54_calculate: results with errors. -/
example (k : Kind) : (∃ rs slot' s', eRun (algOf k) true (env0 k) (mixedCalls k) none (st0 k.width) = .ok (rs, slot', s') ∧ ∀ y ∈ rs, y.1.code = 1 ∧ y.2 = [] ∨ y.1.code = -1 ∧ y.2 ≠ []) ∧
    ∃ r s' es, eCalculate (algOf k) true (env0 k) (some 5) 203 (some 7) 15 (st1 k.width) [] = .ok (r, s', es) ∧ (r = 1 ∧ es = [] ∨ r = -1 ∧ es ≠ []) := by
  obtain ⟨slot', s', e⟩ := C54_histories_exact k true (env0 k) (mixedCalls k) (st0 k.width) (mixedCalls_ok k)
  obtain ⟨r, s2, e2⟩ := C54_calculate_exact k true (env0 k) (st1 k.width) (some 5) 203 (some 7) 15 [] (junk0_ok k) (by rintro _ ⟨⟩ -; rw [st1_len]; omega) (by rintro _ ⟨⟩ -; rw [st1_len]; omega)
  obtain ⟨-, new, h1, h2⟩ := C54_calculate k _ _ _ _ _ _ _ _ _ _ _ e2
  refine ⟨⟨_, _, _, e, (C54_histories k _ _ _ _ _ _ _ _ e).2⟩, r, s2, _, e2, ?_⟩
  rw [h1]
  exact h2

end Props
