import Verif.Proofs.Errors
import Verif.Proofs.Api
import Verif.Proofs.Deprecated
/-! The errors recorded by the functions of the API, exactly. -/

set_option linter.unusedSimpArgs false

namespace Model

open Spec (IterHash slice overwrite AreaOk Err firstErrors within memoryErrors inputErrors outputErrors calculateErrors hmacErrors callErrors mixedErrors functionError apiErrors ApiCall Reply ApiState)

variable {w : Nat} {A : Alg w} {H : IterHash w} {enc : Nat → List Byte}

theorem errs_of_one {r : Int} {es : List Err} (h : Errs r es) (hr : r = 1) : es = [] := by
  rcases h with ⟨-, h⟩ | ⟨h, -⟩
  · exact h
  · omega

theorem eUpdate_one {u : Bool} {env : Env w} {slot : Option Nat} {buf : Option (List Byte)} {n : Nat} {s s' : St w}
    (h : hUpdate A u env slot buf n s = .ok (1, s')) (es : List Err) : eUpdate A u env slot buf n s es = .ok (1, s', es) := by
  obtain ⟨f, g, e⟩ := eUpdate_eq A u env slot buf n s
  rw [e, h, Res.ok_bind, errs_of_one (g _ h) rfl, List.append_nil]

theorem eFinalize_one {u : Bool} {env : Env w} {slot : Option Nat} {o o' : Option (List Byte)} {n : Nat} {s s' : St w}
    (h : hFinalize A u env slot o n s = .ok (1, o', s')) (es : List Err) : eFinalize A u env slot o n s es = .ok (1, o', s', es) := by
  obtain ⟨f, g, e⟩ := eFinalize_eq A u env slot o n s
  rw [e, h, Res.ok_bind, errs_of_one (g _ h) rfl, List.append_nil]

theorem eLocalInit_one {env : Env w} {slot slot' : Option Nat} {s s' : St w} (h : hInitialize A env slot s = .ok (1, slot', s')) (es : List Err) :
    eLocalInit A env slot s es = .ok (1, slot', s', es) := by
  obtain ⟨f, g, e⟩ := eLocalInit_eq A env slot s
  rw [e, h, Res.ok_bind, errs_of_one (g _ h) rfl, List.append_nil]

theorem eLocalInit_fail (A : Alg w) (env : Env w) (s : St w) (h : env.allocOk s.count = false) (es : List Err) :
    eLocalInit A env none s es = .ok (-1, none, { s with count := s.count + 1 }, es ++ [.memInsufficient, .rtInitializeFailed]) := by
  simp [eLocalInit, eInitialize, h, failed]

theorem eLocalFree_ok {slot slot' : Option Nat} {s s' : St w} {r : Int} (h : hFree slot s = .ok (r, slot', s')) (es : List Err) :
    eLocalFree slot s es = .ok (1, slot', s', es) := by
  obtain ⟨g, e⟩ := eLocalFree_eq slot s
  have g := g _ h
  change r = 1 at g
  rw [e, h, g, Res.ok_bind]

theorem eUpdate_bad (A : Alg w) (u : Bool) (env : Env w) (s : St w) (p : Nat) (c : Ctx w) (rest : List (Nat × Obj w)) (buf : Option (List Byte)) (n : Nat)
    (hl : s.live = (p, .ctx c) :: rest) (hn : inputErrors buf.isSome n ≠ []) (es : List Err) :
    eUpdate A u env (some p) buf n s es = .ok (-1, s, es ++ inputErrors buf.isSome n) := by
  have hs : ({ s with live := (p, .ctx c) :: rest } : St w) = s := by rw [← hl]
  unfold inputErrors at hn ⊢
  cases buf with
  | none => simp [eUpdate, hl, getKey, eCtxUpdate, setKey, hs]
  | some b =>
    have hn : ssizeMax < n := by
      by_contra h
      unfold ssizeMax at h
      simp [h] at hn
    simp only [eUpdate, hl, getKey, eCtxUpdate, setKey, hn, hs, if_true, Res.ok_bind, Res.pure_eq, Option.isSome_some, Bool.not_true, Bool.false_eq_true, if_false]
    rw [if_pos (show 2 ^ 63 - 1 < n from hn)]

theorem eFinalize_bad (A : Alg w) (u : Bool) (env : Env w) (s : St w) (p : Nat) (c : Ctx w) (rest : List (Nat × Obj w)) (o : Option (List Byte)) (n : Nat)
    (hl : s.live = (p, .ctx c) :: rest) (hn : outputErrors A.hashSize o.isSome n ≠ []) (es : List Err) :
    eFinalize A u env (some p) o n s es = .ok (-1, o, s, es ++ outputErrors A.hashSize o.isSome n) := by
  have hs : ({ s with live := (p, .ctx c) :: rest } : St w) = s := by rw [← hl]
  unfold outputErrors at hn ⊢
  cases o with
  | none => simp [eFinalize, hl, getKey, eCtxFinalize, setKey, hs]
  | some b =>
    by_cases h1 : n < A.hashSize
    · simp [eFinalize, hl, getKey, eCtxFinalize, setKey, hs, h1]
    · have hn : ssizeMax < n := by
        by_contra h
        unfold ssizeMax at h
        simp [h, h1] at hn
      simp only [eFinalize, hl, getKey, eCtxFinalize, setKey, hn, h1, hs, if_true, Res.ok_bind, Res.pure_eq, Option.isSome_some, Bool.not_true, Bool.false_eq_true, if_false]
      rw [if_pos (show 2 ^ 63 - 1 < n from hn)]

theorem inputErrors_nil {g : Bool} {n : Nat} : inputErrors g n = [] ↔ g = true ∧ n ≤ ssizeMax := by
  unfold inputErrors ssizeMax
  cases g
  · simp
  · simp only [Bool.not_true, Bool.false_eq_true, if_false, true_and]
    split
    · simp; omega
    · simp; omega

theorem outputErrors_nil {k : Nat} {g : Bool} {n : Nat} : outputErrors k g n = [] ↔ g = true ∧ k ≤ n ∧ n ≤ ssizeMax := by
  unfold outputErrors ssizeMax
  cases g
  · simp
  · simp only [Bool.not_true, Bool.false_eq_true, if_false, true_and]
    split
    · simp; omega
    · split
      · simp; omega
      · simp; omega

theorem within_nil {e : Err} {es : List Err} : within e es = [] ↔ es = [] := by cases es <;> simp [within]

theorem within_none (e : Err) : within e [] = [] := rfl

theorem within_append {e : Err} {es : List Err} (h : es ≠ []) : within e es = es ++ [e] := by
  cases es with
  | nil => exact (h rfl).elim
  | cons a b => rfl

theorem firstErrors_cons {es : List Err} (h : es ≠ []) (r : List (List Err)) : firstErrors (es :: r) = es := by
  cases es with
  | nil => exact (h rfl).elim
  | cons a b => rfl

theorem firstErrors_nil (r : List (List Err)) : firstErrors ([] :: r) = firstErrors r := rfl

theorem isSome_region (s : St w) (p : Option Nat) (n : Nat) : (region s p n).isSome = p.isSome := by cases p <;> rfl

/-- The errors recorded by `calculate`. -/
theorem eCalculate_trace (L : Lawful A H enc) (u : Bool) (env : Env w) (hscr : ScrOk A env.scr) (buffer : Option Nat) (size : Nat) (hash : Option Nat) (hashSize : Nat) (s : St w)
    (hb : AreaOk s.caller buffer size) (hh : AreaOk s.caller hash hashSize) (es : List Err) :
    ∃ r s', eCalculate A u env buffer size hash hashSize s es =
      .ok (r, s', es ++ calculateErrors A.hashSize (fun i => env.allocOk (s.count + i)) buffer.isSome size hash.isSome hashSize) := by
  unfold eCalculate calculateErrors
  cases hal : env.allocOk s.count with
  | false =>
    rw [eLocalInit_fail A env s hal, Res.ok_bind]
    simp only [memoryErrors, Nat.add_zero, hal]
    exact ⟨_, _, rfl⟩
  | true =>
    obtain ⟨c, e, hr⟩ := hInitialize_ok L env s hal
    rw [eLocalInit_one e, Res.ok_bind]
    simp only [ne_eq, not_true_eq_false, if_false, memoryErrors, Nat.add_zero, hal, if_true, within_none, firstErrors_nil]
    by_cases hbad : inputErrors buffer.isSome size = []
    · obtain ⟨h1, hsz⟩ := inputErrors_nil.mp hbad
      obtain ⟨i, rfl⟩ := Option.isSome_iff_exists.mp h1
      obtain ⟨c', e', hr'⟩ := hUpdate_ok L u env hscr { s with count := s.count + 1, live := (s.count, .ctx c) :: s.live } s.count c s.live [] (slice s.caller i size) size
        rfl hr hsz (slice_length (hb i rfl hsz))
      rw [region_some, eUpdate_one e', Res.ok_bind, hbad]
      simp only [not_true_eq_false, if_false, failed, ne_eq, within_none, firstErrors_nil]
      by_cases hbad2 : outputErrors A.hashSize hash.isSome hashSize = []
      · obtain ⟨h1, h2, h3⟩ := outputErrors_nil.mp hbad2
        obtain ⟨o, rfl⟩ := Option.isSome_iff_exists.mp h1
        have hol := hh o rfl h3
        rw [region_some, eFinalize_one (hFinalize_ok L u env hscr _ s.count c' s.live _ _ _ rfl hr' h3 h2 (by rw [slice_length hol])), Res.ok_bind, hbad2]
        simp only [setRegion_some, List.nil_append, not_true_eq_false, if_false]
        rw [eLocalFree_ok (hFree_ok _ _ (.ctx (zeroCtx A)) s.live rfl), Res.ok_bind]
        exact ⟨_, _, by simp only [not_true_eq_false, if_false, within, firstErrors, List.append_nil]; rfl⟩
      · rw [eFinalize_bad A u env _ s.count c' s.live _ _ rfl (by rw [isSome_region]; exact hbad2), Res.ok_bind, isSome_region]
        simp only [setRegion_same, if_pos (show ¬ ((-1 : Int) = 1) from by decide)]
        simp only [calculateError]
        rw [hFree_ok _ _ (.ctx c') s.live rfl, firstErrors_cons (by rw [ne_eq, within_nil]; exact hbad2), within_append hbad2]
        exact ⟨_, _, by simp only [List.append_assoc]; rfl⟩
    · rw [eUpdate_bad A u env _ s.count c s.live _ _ rfl (by rw [isSome_region]; exact hbad), Res.ok_bind, isSome_region]
      simp only [failed, ne_eq, if_pos (show ¬ ((-1 : Int) = 1) from by decide)]
      simp only [calculateError]
      rw [hFree_ok _ _ (.ctx c) s.live rfl, firstErrors_cons (by rw [ne_eq, within_nil]; exact hbad), within_append hbad]
      exact ⟨_, _, by simp only [List.append_assoc]; rfl⟩

theorem eHmacKey_true {u : Bool} {env : Env w} {key : Option Nat} {n : Nat} {l l' : Loc} {s s' : St w} (h : hmacKey A u env key n l s = .ok (true, l', s')) (es : List Err) :
    eHmacKey A u env key n l s es = .ok (true, l', s', es) := by
  obtain ⟨f, g, e⟩ := eHmacKey_eq A u env key n l s
  rcases g _ h with ⟨-, k⟩ | ⟨k, -⟩
  · rw [e, h, Res.ok_bind, k, List.append_nil]
  · cases k

theorem eHmacPads_true {env : Env w} {l l' : Loc} {s s' : St w} (h : hmacPads A env l s = .ok (true, l', s')) (es : List Err) :
    eHmacPads A env l s es = .ok (true, l', s', es) := by
  rw [eHmacPads_exact, h]
  simp

theorem eHmacPads_false {env : Env w} {l l' : Loc} {s s' : St w} (h : hmacPads A env l s = .ok (false, l', s')) (es : List Err) :
    eHmacPads A env l s es = .ok (false, l', s', es ++ [.memInsufficient]) := by
  rw [eHmacPads_exact, h]
  simp

theorem eHmacPass_true {u : Bool} {env : Env w} {pad buffer : Option Nat} {size : Nat} {hmac : Option Nat} {hmacSize : Nat} {l l' : Loc} {s s' : St w}
    (h : hmacPass A u env pad buffer size hmac hmacSize l s = .ok (true, l', s')) (es : List Err) :
    eHmacPass A u env pad buffer size hmac hmacSize l s es = .ok (true, l', s', es) := by
  obtain ⟨f, g, e⟩ := eHmacPass_eq A u env pad buffer size hmac hmacSize l s
  rcases g _ h with ⟨-, k⟩ | ⟨k, -⟩
  · rw [e, h, Res.ok_bind, k, List.append_nil]
  · cases k

theorem eHmacPass_fail (u : Bool) (env : Env w) (padding buffer : Option Nat) (size : Nat) (hmac : Option Nat) (hmacSize : Nat) (l : Loc) (s : St w)
    (h : env.allocOk s.count = false) (hc : l.context = none) (es : List Err) :
    eHmacPass A u env padding buffer size hmac hmacSize l s es = .ok (false, l, { s with count := s.count + 1 }, es ++ [.memInsufficient, .rtInitializeFailed]) := by
  obtain ⟨cx, kd, i, o, kh⟩ := l
  simp only at hc
  subst hc
  unfold eHmacPass
  rw [eLocalInit_fail A env s h, Res.ok_bind]
  rfl

/-- The errors of the arguments of a pass. -/
def passErrors (n : Nat) (buffer : Bool) (size : Nat) (hmac : Bool) (hmacSize : Nat) : List Err :=
  firstErrors [within .rtSetFailed (inputErrors buffer size), within .rtFinalizeFailed (outputErrors n hmac hmacSize)]

theorem eHmacPass_args (L : Lawful A H enc) (u : Bool) (env : Env w) (hscr : ScrOk A env.scr) (p : Nat) (pd : List Byte) (buffer : Option Nat) (size : Nat) (hmac : Option Nat) (hmacSize : Nat)
    (l : Loc) (s : St w) (h : env.allocOk s.count = true) (hc : l.context = none) (hp : p < s.count) (hg : getKey p s.live = some (.bytes pd))
    (hpd : pd.length = A.hmacBlockSize) (hb : AreaOk s.caller buffer size) (hargs : passErrors A.hashSize buffer.isSome size hmac.isSome hmacSize ≠ []) (es : List Err) :
    ∃ c, eHmacPass A u env (some p) buffer size hmac hmacSize l s es =
      .ok (false, { l with context := some s.count }, { s with count := s.count + 1, live := (s.count, .ctx c) :: s.live },
        es ++ passErrors A.hashSize buffer.isSome size hmac.isSome hmacSize) := by
  have hB : A.hmacBlockSize ≤ ssizeMax := by rw [L.hmacBs]; unfold ssizeMax; rcases L.size with h | h <;> omega
  obtain ⟨cx, kd, i, o, kh⟩ := l
  simp only at hc
  subst hc
  unfold passErrors at hargs ⊢
  unfold eHmacPass
  obtain ⟨c, e1, hr⟩ := hInitialize_ok L env s h
  rw [eLocalInit_one e1, Res.ok_bind]
  have n1 : s.count ≠ p := by omega
  simp only [ne_eq, not_true_eq_false, if_false, loadBytes, getKey, n1, hg, Res.ok_bind]
  obtain ⟨c2, e2, hr2⟩ := hUpdate_ok L u env hscr { s with count := s.count + 1, live := (s.count, .ctx c) :: s.live } s.count c _ [] pd _ rfl hr hB hpd
  rw [eUpdate_one e2, Res.ok_bind]
  simp only [not_true_eq_false, if_false, failed, ne_eq]
  by_cases hbad : inputErrors buffer.isSome size = []
  · obtain ⟨h1, hsz⟩ := inputErrors_nil.mp hbad
    obtain ⟨i, rfl⟩ := Option.isSome_iff_exists.mp h1
    obtain ⟨c3, e3, hr3⟩ := hUpdate_ok L u env hscr { s with count := s.count + 1, live := (s.count, .ctx c2) :: s.live } s.count c2 _ _ (slice s.caller i size) size rfl hr2 hsz
      (slice_length (hb i rfl hsz))
    refine ⟨c3, ?_⟩
    rw [region_some, eUpdate_one e3, Res.ok_bind]
    simp only [hbad, within_none, firstErrors_nil] at hargs ⊢
    simp only [not_true_eq_false, if_false]
    have hbad2 : outputErrors A.hashSize hmac.isSome hmacSize ≠ [] := by
      intro h
      rw [h] at hargs
      exact hargs rfl
    rw [eFinalize_bad A u env _ s.count c3 s.live _ _ rfl (by rw [isSome_region]; exact hbad2), Res.ok_bind, isSome_region]
    simp only [setRegion_same, if_pos (show ¬ ((-1 : Int) = 1) from by decide)]
    rw [firstErrors_cons (by rw [ne_eq, within_nil]; exact hbad2), within_append hbad2]
    simp only [List.append_assoc]
    rfl
  · refine ⟨c2, ?_⟩
    rw [eUpdate_bad A u env _ s.count c2 s.live _ _ rfl (by rw [isSome_region]; exact hbad), Res.ok_bind, isSome_region]
    simp only [if_pos (show ¬ ((-1 : Int) = 1) from by decide)]
    rw [firstErrors_cons (by rw [ne_eq, within_nil]; exact hbad), within_append hbad]
    simp only [List.append_assoc]
    rfl

/-- `calculate_hmac` after the key. -/
def eHmacRest (A : Alg w) (u : Bool) (env : Env w) (buffer : Option Nat) (size : Nat) (hmac : Option Nat) (hmacSize : Nat) (l : Loc) (s : St w) (es : List Err) :
    Res (Int × Loc × St w × List Err) := do
  let (ok, l, s, es) ← eHmacPads A env l s es
  if !ok then do
    let (r, l, s) ← hmacError A l s
    pure (r, l, s, es)
  else do
    let (ok, l, s, es) ← eHmacPass A u env l.inner buffer size hmac hmacSize l s es
    if !ok then do
      let (r, l, s) ← hmacError A l s
      pure (r, l, s, es)
    else do
      let (ok, l, s, es) ← eHmacPass A u env l.outer hmac A.hashSize hmac hmacSize l s es
      if !ok then do
        let (r, l, s) ← hmacError A l s
        pure (r, l, s, es)
      else do
        let s ← wipeFree A l.outer s
        let l := { l with outer := none }
        let s ← wipeFree A l.inner s
        let l := { l with inner := none }
        let s ← wipeFree A l.keyData s
        let l := { l with keyData := none }
        pure (1, l, s, es)

theorem passErrors_nil {n : Nat} {buffer : Bool} {size : Nat} {hmac : Bool} {hmacSize : Nat} :
    passErrors n buffer size hmac hmacSize = [] ↔ (buffer = true ∧ size ≤ ssizeMax) ∧ hmac = true ∧ n ≤ hmacSize ∧ hmacSize ≤ ssizeMax := by
  unfold passErrors
  rw [← inputErrors_nil, ← outputErrors_nil]
  by_cases h : inputErrors buffer size = []
  · rw [h, within_none, firstErrors_nil]
    by_cases h2 : outputErrors n hmac hmacSize = []
    · rw [h2]; simp [within, firstErrors]
    · rw [firstErrors_cons (by rw [ne_eq, within_nil]; exact h2), within_nil]; simp
  · rw [firstErrors_cons (by rw [ne_eq, within_nil]; exact h), within_nil]
    simp [h]

theorem firstErrors_pass (a b c : List Err) (n : Nat) (buffer : Bool) (size : Nat) (hmac : Bool) (hmacSize : Nat) (r : List (List Err)) :
    firstErrors (a :: b :: c :: within .rtSetFailed (inputErrors buffer size) :: within .rtFinalizeFailed (outputErrors n hmac hmacSize) :: r) =
      firstErrors (a :: b :: c :: passErrors n buffer size hmac hmacSize :: r) := by
  unfold passErrors
  generalize within .rtSetFailed (inputErrors buffer size) = x
  generalize within .rtFinalizeFailed (outputErrors n hmac hmacSize) = y
  cases a <;> cases b <;> cases c <;> cases x <;> cases y <;> rfl

theorem eHmacRest_trace (L : Lawful A H enc) (u : Bool) (env : Env w) (hscr : ScrOk A env.scr) (buffer : Option Nat) (size : Nat) (hmac : Option Nat) (hmacSize : Nat)
    (K kh : List Byte) (a : Nat) (s : St w) (live0 : List (Nat × Obj w)) (hK : K.length = A.hmacBlockSize) (ha : a < s.count)
    (hl : s.live = (a, .bytes K) :: live0) (hb : AreaOk s.caller buffer size) (hh : AreaOk s.caller hmac hmacSize) (es : List Err) :
    ∃ r l' s', eHmacRest A u env buffer size hmac hmacSize ⟨none, some a, none, none, kh⟩ s es = .ok (r, l', s', es ++ firstErrors [
      memoryErrors (env.allocOk s.count),
      memoryErrors (env.allocOk (s.count + 1)),
      within .rtInitializeFailed (memoryErrors (env.allocOk (s.count + 2))),
      passErrors A.hashSize buffer.isSome size hmac.isSome hmacSize,
      within .rtInitializeFailed (memoryErrors (env.allocOk (s.count + 3)))]) := by
  obtain ⟨caller, count, live, freed⟩ := s
  simp only at ha hl hb hh
  subst hl
  have hKx : ∀ x : Byte, (K.map (· ^^^ x)).length = A.hmacBlockSize := by intro x; simpa using hK
  have hBs : A.hmacBlockSize ≤ 128 := by rw [L.hmacBs]; rcases L.size with h | h <;> omega
  have hhs : A.hashSize ≤ A.hmacBlockSize := by rw [L.hmacBs]; exact L.hashLe
  have m1 : memoryErrors true = [] := rfl
  have m2 : memoryErrors false = [.memInsufficient] := rfl
  unfold eHmacRest
  simp only
  cases h1 : env.allocOk count with
  | false =>
    rw [eHmacPads_false (hmacPads_fail1 env _ _ h1), Res.ok_bind]
    simp only [Bool.not_false, if_true]
    rw [hmacError_ok _ _ (zeroCtx A) K K K live0 hK hK hK (by simp [optObj])]
    exact ⟨_, _, _, rfl⟩
  | true =>
    cases h2 : env.allocOk (count + 1) with
    | false =>
      obtain ⟨d, hd, e⟩ := hmacPads_fail2 (A := A) env ⟨none, some a, none, none, kh⟩ ⟨caller, count, (a, .bytes K) :: live0, freed⟩ h1 h2
      rw [eHmacPads_false e, Res.ok_bind]
      simp only [Bool.not_false, if_true]
      rw [hmacError_ok _ _ (zeroCtx A) K d K live0 hK hd hK (by simp [optObj])]
      exact ⟨_, _, _, rfl⟩
    | true =>
      rw [eHmacPads_true (hmacPads_ok env _ _ a K live0 h1 h2 ha rfl hK rfl), Res.ok_bind]
      simp only [Bool.not_true, Bool.false_eq_true, if_false, m1, firstErrors_nil]
      cases h3 : env.allocOk (count + 2) with
      | false =>
        rw [eHmacPass_fail u env _ _ _ _ _ _ _ h3 rfl, Res.ok_bind]
        simp only [Bool.not_false, if_true]
        rw [hmacError_ok _ _ (zeroCtx A) (K.map (· ^^^ 0x5c#8)) (K.map (· ^^^ 0x36#8)) K live0 (hKx _) (hKx _) hK (by simp [optObj])]
        exact ⟨_, _, _, rfl⟩
      | true =>
        simp only [m1, within_none, firstErrors_nil]
        by_cases hargs : passErrors A.hashSize buffer.isSome size hmac.isSome hmacSize = []
        · obtain ⟨⟨g1, g2⟩, g3, g4, g5⟩ := passErrors_nil.mp hargs
          obtain ⟨i, rfl⟩ := Option.isSome_iff_exists.mp g1
          obtain ⟨o, rfl⟩ := Option.isSome_iff_exists.mp g3
          have hol : o + hmacSize ≤ caller.length := hh o rfl g5
          have hdl := digestLen L (K.map (· ^^^ 0x36#8) ++ slice caller i size)
          rw [hargs, firstErrors_nil]
          rw [eHmacPass_true (hmacPass_ok L u env hscr count (K.map (· ^^^ 0x36#8)) i size o hmacSize _ _ h3 rfl (by simp only; omega) (by simp [getKey]) (hKx _) (hb i rfl g2) g2 hol g4 g5),
            Res.ok_bind]
          simp only [Bool.not_true, Bool.false_eq_true, if_false]
          have hol2 : o + hmacSize ≤ (overwrite caller o (H.digest (K.map (· ^^^ 0x36#8) ++ slice caller i size))).length := by
            rw [overwrite_length (by omega)]; exact hol
          cases h4 : env.allocOk (count + 3) with
          | false =>
            rw [eHmacPass_fail u env _ _ _ _ _ _ _ h4 rfl, Res.ok_bind]
            simp only [Bool.not_false, if_true]
            rw [hmacError_ok _ _ (zeroCtx A) (K.map (· ^^^ 0x5c#8)) (K.map (· ^^^ 0x36#8)) K live0 (hKx _) (hKx _) hK (by simp [optObj])]
            exact ⟨_, _, _, rfl⟩
          | true =>
            rw [eHmacPass_true (hmacPass_ok L u env hscr (count + 1) (K.map (· ^^^ 0x5c#8)) o A.hashSize o hmacSize _ _ h4 rfl (by simp only; omega) (by simp [getKey]) (hKx _) (le_trans (by omega) hol2)
              (by unfold ssizeMax; omega) hol2 g4 g5), Res.ok_bind]
            simp only [Bool.not_true, Bool.false_eq_true, if_false]
            rw [wipeFree_ok (count + 1) (K.map (· ^^^ 0x5c#8)) ((count, .bytes (K.map (· ^^^ 0x36#8))) :: (a, .bytes K) :: live0) _ rfl (hKx _), Res.ok_bind]
            rw [wipeFree_ok count (K.map (· ^^^ 0x36#8)) ((a, .bytes K) :: live0) _ rfl (hKx _), Res.ok_bind]
            rw [wipeFree_ok a K live0 _ rfl hK, Res.ok_bind]
            exact ⟨_, _, _, by simp only [m1, within_none, firstErrors_nil, firstErrors, List.append_nil]; rfl⟩
        · obtain ⟨c, e⟩ := eHmacPass_args L u env hscr count (K.map (· ^^^ 0x36#8)) buffer size hmac hmacSize ⟨none, some a, some count, some (count + 1), kh⟩
            ⟨caller, count + 2, (count + 1, .bytes (K.map (· ^^^ 0x5c#8))) :: (count, .bytes (K.map (· ^^^ 0x36#8))) :: (a, .bytes K) :: live0, freed⟩
            h3 rfl (by simp only; omega) (by simp [getKey]) (hKx _) hb hargs es
          rw [e, Res.ok_bind]
          simp only [Bool.not_false, if_true]
          rw [hmacError_ok _ _ c (K.map (· ^^^ 0x5c#8)) (K.map (· ^^^ 0x36#8)) K live0 (hKx _) (hKx _) hK (by simp [optObj]), firstErrors_cons hargs]
          exact ⟨_, _, _, rfl⟩

/-- The errors recorded by `calculate_hmac`. -/
theorem eCalculateHmac_trace (L : Lawful A H enc) (u : Bool) (env : Env w) (hscr : ScrOk A env.scr) (keyHash : List Byte) (hkh : keyHash.length = A.hashSize)
    (key : Option Nat) (keySize : Nat) (buffer : Option Nat) (size : Nat) (hmac : Option Nat) (hmacSize : Nat) (s : St w)
    (hk : AreaOk s.caller key keySize) (hb : AreaOk s.caller buffer size) (hh : AreaOk s.caller hmac hmacSize) (es : List Err) :
    ∃ r l' s', eCalculateHmac A u env keyHash key keySize buffer size hmac hmacSize s es = .ok (r, l', s', es ++
      hmacErrors A.hashSize A.hmacBlockSize (fun i => env.allocOk (s.count + i)) key.isSome keySize buffer.isSome size hmac.isSome hmacSize) := by
  have m1 : memoryErrors true = [] := rfl
  have hassoc : ∀ i j, s.count + (i + j) = s.count + i + j := fun i j => by omega
  unfold hmacErrors
  cases key with
  | none => exact ⟨_, _, _, rfl⟩
  | some k =>
    change ∃ r l' s', (if ssizeMax < keySize then _ else if hmacSize < A.hashSize then _ else (do
      let (ok, l, s, es) ← eHmacKey A u env (some k) keySize ⟨none, none, none, none, keyHash⟩ s es
      if !ok then do
        let (r, l, s) ← hmacError A l s
        pure (r, l, s, es)
      else eHmacRest A u env buffer size hmac hmacSize l s es)) = _
    by_cases hks : ssizeMax < keySize
    · rw [if_pos hks, show inputErrors (some k).isSome keySize = [.argExceeds] by unfold inputErrors; simp only [Option.isSome_some, Bool.not_true, Bool.false_eq_true, if_false]; exact if_pos hks]
      exact ⟨_, _, _, rfl⟩
    · rw [if_neg hks, show inputErrors (some k).isSome keySize = [] from inputErrors_nil.mpr ⟨rfl, by omega⟩, firstErrors_nil]
      by_cases hn : hmacSize < A.hashSize
      · rw [if_pos hn, if_pos hn]
        exact ⟨_, _, _, rfl⟩
      · rw [if_neg hn, if_neg hn, firstErrors_nil]
        have hks : keySize ≤ ssizeMax := by omega
        simp only [Nat.add_zero]
        cases h0 : env.allocOk s.count with
        | false =>
          have e : eHmacKey A u env (some k) keySize ⟨none, none, none, none, keyHash⟩ s es =
              .ok (false, ⟨none, none, none, none, keyHash⟩, { s with count := s.count + 1 }, es ++ [.memInsufficient]) := by
            simp [eHmacKey, allocBytes_fail env _ s h0]
          rw [e, Res.ok_bind]
          simp only [Bool.not_false, if_true]
          rw [hmacError_ok _ _ (zeroCtx A) (List.replicate A.hmacBlockSize 0) (List.replicate A.hmacBlockSize 0) (List.replicate A.hmacBlockSize 0) s.live
            (by simp) (by simp) (by simp) (by simp [optObj])]
          exact ⟨_, _, _, rfl⟩
        | true =>
          rw [m1, firstErrors_nil]
          by_cases hkb : keySize ≤ A.hmacBlockSize
          · rw [eHmacKey_true (hmacKey_short L u env k keySize _ s h0 hkb (hk k rfl hks)), Res.ok_bind]
            simp only [Bool.not_true, Bool.false_eq_true, if_false, hkb, if_true, firstErrors_nil, hassoc]
            rw [firstErrors_pass]
            exact eHmacRest_trace L u env hscr buffer size hmac hmacSize
              (paddedKey A.hmacBlockSize H.digest (slice s.caller k keySize)) keyHash s.count
              { s with count := s.count + 1, live := (s.count, .bytes (paddedKey A.hmacBlockSize H.digest (slice s.caller k keySize))) :: s.live }
              s.live (paddedKey_length L _) (by simp) rfl hb hh es
          · simp only [hkb, if_false, hassoc]
            cases h0' : env.allocOk (s.count + 1) with
            | false =>
              obtain ⟨d, hd, e⟩ := allocBytes_ok env A.hmacBlockSize s h0
              have e : eHmacKey A u env (some k) keySize ⟨none, none, none, none, keyHash⟩ s es =
                  .ok (false, ⟨none, some s.count, none, none, keyHash⟩, { s with count := s.count + 2, live := (s.count, .bytes d) :: s.live }, es ++ [.memInsufficient, .rtInitializeFailed]) := by
                unfold eHmacKey
                rw [e]
                simp only [hkb, if_false]
                rw [eLocalInit_fail A env _ h0']
                rfl
              rw [e, Res.ok_bind]
              simp only [Bool.not_false, if_true]
              rw [hmacError_ok _ _ (zeroCtx A) d d d s.live hd hd hd (by simp [optObj])]
              exact ⟨_, _, _, rfl⟩
            | true =>
              rw [eHmacKey_true (hmacKey_long L u env hscr k keySize ⟨none, none, none, none, keyHash⟩ s h0 h0' rfl hkh (by omega) hks (hk k rfl hks)), Res.ok_bind]
              simp only [Bool.not_true, Bool.false_eq_true, if_false, m1, within_none, firstErrors_nil]
              rw [firstErrors_pass]
              exact eHmacRest_trace L u env hscr buffer size hmac hmacSize
                (paddedKey A.hmacBlockSize H.digest (slice s.caller k keySize)) (H.digest (slice s.caller k keySize)) s.count
                { s with
                  count := s.count + 2, live := (s.count, .bytes (paddedKey A.hmacBlockSize H.digest (slice s.caller k keySize))) :: s.live
                  freed := (s.count + 1, .ctx (zeroCtx A)) :: s.freed }
                s.live (paddedKey_length L _) (by simp) rfl hb hh es

/-- One call with error output. -/
theorem eStep_eq (A : Alg w) (u : Bool) (env : Env w) (call : ApiCall) (scr : Scr w) (slot : Option Nat) (s : St w) :
    ∃ f : Reply × Option Nat × St w → List Err, (∀ x, step A u env call scr slot s = .ok x → Errs x.1.code (f x)) ∧
      ∀ es, eStep A u env call scr slot s es = step A u env call scr slot s >>= fun x => .ok (x.1, x.2.1, x.2.2, es ++ f x) := by
  cases call with
  | init =>
    obtain ⟨f, g, e⟩ := eInitialize_eq A env slot s
    unfold eStep step apiInitialize
    simp only [e]
    cases h : hInitialize A env slot s with
    | ub => exact ⟨fun _ => [], by rintro _ ⟨⟩, fun es => rfl⟩
    | diverge => exact ⟨fun _ => [], by rintro _ ⟨⟩, fun es => rfl⟩
    | ok x => exact ⟨fun _ => f x, by rintro _ ⟨⟩; exact g x h, fun es => rfl⟩
  | initNull => exact ⟨fun _ => [.argInvalid], by rintro _ ⟨⟩; exact .inr ⟨rfl, by simp⟩, fun es => rfl⟩
  | free =>
    have g := (eLocalFree_eq slot s).1
    unfold eStep step apiFree
    simp only [eFree_eq]
    cases h : hFree slot s with
    | ub => exact ⟨fun _ => [], by rintro _ ⟨⟩, fun es => rfl⟩
    | diverge => exact ⟨fun _ => [], by rintro _ ⟨⟩, fun es => rfl⟩
    | ok x => exact ⟨fun _ => [], by rintro _ ⟨⟩; exact .inl ⟨g x h, rfl⟩, fun es => by simp⟩
  | freeNull => exact ⟨fun _ => [.argInvalid], by rintro _ ⟨⟩; exact .inr ⟨rfl, by simp⟩, fun es => rfl⟩
  | update buf size =>
    obtain ⟨f, g, e⟩ := eUpdate_eq A u { env with scr := scr } slot buf size s
    unfold eStep step
    simp only [e]
    cases h : hUpdate A u { env with scr := scr } slot buf size s with
    | ub => exact ⟨fun _ => [], by rintro _ ⟨⟩, fun es => rfl⟩
    | diverge => exact ⟨fun _ => [], by rintro _ ⟨⟩, fun es => rfl⟩
    | ok x => exact ⟨fun _ => f x, by rintro _ ⟨⟩; exact g x h, fun es => rfl⟩
  | finalize out size =>
    obtain ⟨f, g, e⟩ := eFinalize_eq A u { env with scr := scr } slot out size s
    unfold eStep step
    simp only [e]
    cases h : hFinalize A u { env with scr := scr } slot out size s with
    | ub => exact ⟨fun _ => [], by rintro _ ⟨⟩, fun es => rfl⟩
    | diverge => exact ⟨fun _ => [], by rintro _ ⟨⟩, fun es => rfl⟩
    | ok x => exact ⟨fun _ => f x, by rintro _ ⟨⟩; exact g x h, fun es => rfl⟩

theorem eDepStep_eq (A : Alg w) (u : Bool) (env : Env w) (call : ApiCall) (scr : Scr w) (slot : Option Nat) (s : St w) (es : List Err) :
    eDepStep A u env call scr slot s es = eStep A u env call scr slot s es >>= fun x =>
      .ok (if x.1.code ≠ 1 then ⟨-1, x.1.out⟩ else x.1, x.2.1, x.2.2.1, if x.1.code ≠ 1 then x.2.2.2 ++ [functionError call] else x.2.2.2) := by
  cases call with
  | init =>
    unfold eDepStep eStep eDepInitialize
    simp only
    cases eInitialize A env (some slot) s es with
    | ub => rfl
    | diverge => rfl
    | ok x =>
      obtain ⟨r, c, s, es⟩ := x
      by_cases hr : r = 1 <;> cases c <;> simp [hr, functionError]
  | initNull => rfl
  | free =>
    unfold eDepStep eStep eDepFree
    simp only
    cases eFree (some slot) s es with
    | ub => rfl
    | diverge => rfl
    | ok x =>
      obtain ⟨r, c, s, es⟩ := x
      by_cases hr : r = 1 <;> cases c <;> simp [hr, functionError]
  | freeNull => rfl
  | update buf size =>
    unfold eDepStep eStep eDepUpdate
    simp only
    cases eUpdate A u { env with scr := scr } slot buf size s es with
    | ub => rfl
    | diverge => rfl
    | ok x =>
      obtain ⟨r, s, es⟩ := x
      by_cases hr : r = 1 <;> simp [hr, functionError]
  | finalize out size =>
    unfold eDepStep eStep eDepFinalize
    simp only
    cases eFinalize A u { env with scr := scr } slot out size s es with
    | ub => rfl
    | diverge => rfl
    | ok x =>
      obtain ⟨r, h, s, es⟩ := x
      by_cases hr : r = 1 <;> simp [hr, functionError]

theorem depStep_step (A : Alg w) (u : Bool) (env : Env w) (c : ApiCall) (scr : Scr w) (slot : Option Nat) (s : St w) :
    depStep A u env c scr slot s = step A u env c scr slot s := by
  have h1 : ∀ context, depInitialize A env context s = apiInitialize A env context s := fun _ => (apiInitialize_codes _ _ _ _).wrap
  have h2 : ∀ context, depFree context s = apiFree context s := fun _ => (apiFree_codes _ _).wrap
  have h3 : ∀ slot buf size, depUpdate A u { env with scr := scr } slot buf size s = hUpdate A u { env with scr := scr } slot buf size s := fun _ _ _ => (hUpdate_codes _ _ _ _ _ _ _).wrap
  have h4 : ∀ slot hash size, depFinalize A u { env with scr := scr } slot hash size s = hFinalize A u { env with scr := scr } slot hash size s := fun _ _ _ => (hFinalize_codes _ _ _ _ _ _ _).wrap
  cases c <;> simp only [depStep, step, h1, h2, h3, h4]
  · rfl
  · rfl

/-- One call through either set. -/
theorem eMixed_eq (A : Alg w) (u : Bool) (env : Env w) (dep : Bool) (call : ApiCall) (scr : Scr w) (slot : Option Nat) (s : St w) :
    ∃ f : Reply × Option Nat × St w → List Err, (∀ x, step A u env call scr slot s = .ok x → Errs x.1.code (f x)) ∧
      ∀ es, (if dep then eDepStep A u env call scr slot s es else eStep A u env call scr slot s es) = step A u env call scr slot s >>= fun x => .ok (x.1, x.2.1, x.2.2, es ++ f x) := by
  obtain ⟨f, g, e⟩ := eStep_eq A u env call scr slot s
  cases dep with
  | false => exact ⟨f, g, e⟩
  | true =>
    simp only [if_true, eDepStep_eq, e]
    cases h : step A u env call scr slot s with
    | ub => exact ⟨fun _ => [], by rintro _ ⟨⟩, fun es => rfl⟩
    | diverge => exact ⟨fun _ => [], by rintro _ ⟨⟩, fun es => rfl⟩
    | ok x =>
      obtain ⟨⟨r, o⟩, sl, s1⟩ := x
      have g := g _ h
      rcases g with ⟨k1, k2⟩ | ⟨k1, k2⟩
      · change r = 1 at k1
        subst k1
        exact ⟨fun _ => [], by rintro _ ⟨⟩; exact .inl ⟨rfl, rfl⟩, fun es => by simp [k2]⟩
      · change r = -1 at k1
        subst k1
        exact ⟨fun _ => f (⟨-1, o⟩, sl, s1) ++ [functionError call], by rintro _ ⟨⟩; exact .inr ⟨rfl, by simp⟩, fun es => by simp⟩

/-- A program: the same replies as without error output, and an error exactly with each failure. -/
theorem eRun_eq (A : Alg w) (u : Bool) (env : Env w) : ∀ (calls : List (Bool × ApiCall × Scr w)) (slot : Option Nat) (s : St w),
    ∃ f : List Reply × Option Nat × St w → List (List Err), (∀ x, mixedRun A u env calls slot s = .ok x → (f x).length = x.1.length ∧ ∀ y ∈ x.1.zip (f x), Errs y.1.code y.2) ∧
      eRun A u env calls slot s = mixedRun A u env calls slot s >>= fun x => .ok (x.1.zip (f x), x.2.1, x.2.2)
  | [], slot, s => ⟨fun _ => [], by rintro _ ⟨⟩; exact ⟨rfl, by simp⟩, rfl⟩
  | (dep, c, scr) :: cs, slot, s => by
    obtain ⟨f, g, e⟩ := eMixed_eq A u env dep c scr slot s
    unfold eRun mixedRun
    simp only [e, depStep_step, ite_self]
    cases h : step A u env c scr slot s with
    | ub => exact ⟨fun _ => [], by rintro _ ⟨⟩, rfl⟩
    | diverge => exact ⟨fun _ => [], by rintro _ ⟨⟩, rfl⟩
    | ok x =>
      obtain ⟨f2, g2, e2⟩ := eRun_eq A u env cs x.2.1 x.2.2
      simp only [Res.ok_bind, e2]
      cases h2 : mixedRun A u env cs x.2.1 x.2.2 with
      | ub => exact ⟨fun _ => [], by rintro _ ⟨⟩, rfl⟩
      | diverge => exact ⟨fun _ => [], by rintro _ ⟨⟩, rfl⟩
      | ok y =>
        refine ⟨fun _ => f x :: f2 y, ?_, rfl⟩
        rintro _ ⟨⟩
        refine ⟨by simp [(g2 y h2).1], fun z hz => ?_⟩
        rcases List.mem_cons.mp hz with rfl | hz
        · exact g x h
        · exact (g2 y h2).2 z hz

theorem apiStep_code (H : IterHash w) (n : Nat) (z : List (BitVec w)) (al : Nat → Bool) (c : ApiCall) (a : ApiState w) (h : callErrors n a.slot.isSome (al a.attempts) c = []) :
    (Spec.apiStep H n z al c a).1.code = 1 := by
  obtain ⟨sl, at'⟩ := a
  cases c with
  | init => cases sl <;> cases hal : al at' <;> simp_all [callErrors, memoryErrors, Spec.apiStep]
  | initNull => cases h
  | free => rfl
  | freeNull => cases h
  | update buf size =>
    cases sl with
    | none => cases h
    | some x =>
      change firstErrors [inputErrors buf.isSome size] = [] at h
      have h1 : inputErrors buf.isSome size = [] := by
        by_contra hn
        rw [firstErrors_cons hn] at h
        exact hn h
      obtain ⟨h1, h2⟩ := inputErrors_nil.mp h1
      obtain ⟨b, rfl⟩ := Option.isSome_iff_exists.mp h1
      simp [Spec.apiStep, maxSize_eq, h2]
  | finalize out size =>
    cases sl with
    | none => cases h
    | some x =>
      change firstErrors [outputErrors n out.isSome size] = [] at h
      have h1 : outputErrors n out.isSome size = [] := by
        by_contra hn
        rw [firstErrors_cons hn] at h
        exact hn h
      obtain ⟨h1, h2, h3⟩ := outputErrors_nil.mp h1
      obtain ⟨b, rfl⟩ := Option.isSome_iff_exists.mp h1
      simp [Spec.apiStep, maxSize_eq, h2, h3]

/-- The errors of one call on a context variable. -/
theorem eStep_trace (L : Lawful A H enc) (u : Bool) (env : Env w) (live0 : List (Nat × Obj w)) (call : ApiCall) (scr : Scr w) (slot : Option Nat) (s : St w)
    (a : ApiState w) (hv : call.Valid) (hscr : ScrOk A scr) (hrel : ApiRel A H live0 slot s a) (es : List Err) :
    ∃ slot' s', step A u env call scr slot s = .ok ((Spec.apiStep H A.hashSize (List.replicate A.nHash 0) env.allocOk call a).1, slot', s') ∧
      ApiRel A H live0 slot' s' (Spec.apiStep H A.hashSize (List.replicate A.nHash 0) env.allocOk call a).2 ∧
      eStep A u env call scr slot s es = .ok ((Spec.apiStep H A.hashSize (List.replicate A.nHash 0) env.allocOk call a).1, slot', s',
        es ++ callErrors A.hashSize a.slot.isSome (env.allocOk a.attempts) call) := by
  obtain ⟨slot', s', e, r, -⟩ := step_ok L u env live0 call scr slot s a hv hscr hrel
  refine ⟨slot', s', e, r, ?_⟩
  obtain ⟨f, g, e2⟩ := eStep_eq A u env call scr slot s
  by_cases hc : callErrors A.hashSize a.slot.isSome (env.allocOk a.attempts) call = []
  · rw [e2, e, Res.ok_bind, errs_of_one (g _ e) (apiStep_code H _ _ _ _ _ hc), hc]
  · have key : ∃ x : Reply × Option Nat × St w, eStep A u env call scr slot s es = .ok (x.1, x.2.1, x.2.2, es ++ callErrors A.hashSize a.slot.isSome (env.allocOk a.attempts) call) := by
      obtain ⟨aslot, att⟩ := a
      obtain ⟨hatt, hrel⟩ := hrel
      simp only at hatt hrel hc ⊢
      subst hatt
      match slot, aslot, hrel with
      | none, none, hlive =>
        cases call with
        | init =>
          cases hal : env.allocOk s.count with
          | true => rw [hal] at hc; exact (hc rfl).elim
          | false => exact ⟨(_, _, _), by simp only [eStep, eInitialize, hal, Bool.false_eq_true, if_false, Res.ok_bind]; rfl⟩
        | initNull => exact ⟨(_, _, _), rfl⟩
        | free => exact (hc rfl).elim
        | freeNull => exact ⟨(_, _, _), rfl⟩
        | update buf size => exact ⟨(_, _, _), rfl⟩
        | finalize out size => exact ⟨(_, _, _), rfl⟩
      | some p, some (h0, m), ⟨_, _, c, hlive, _⟩ =>
        cases call with
        | init => exact ⟨(_, _, _), rfl⟩
        | initNull => exact ⟨(_, _, _), rfl⟩
        | free => exact (hc rfl).elim
        | freeNull => exact ⟨(_, _, _), rfl⟩
        | update buf size =>
          have hc : inputErrors buf.isSome size ≠ [] := by
            intro h
            apply hc
            simp only [callErrors, h]
            rfl
          have e := eUpdate_bad A u { env with scr := scr } s p c live0 buf size hlive hc es
          refine ⟨(⟨-1, none⟩, some p, s), ?_⟩
          simp only [eStep, e, Res.ok_bind, callErrors, Option.isSome_some, if_true, firstErrors_nil, firstErrors_cons hc]
          rfl
        | finalize out size =>
          have hc : outputErrors A.hashSize out.isSome size ≠ [] := by
            intro h
            apply hc
            simp only [callErrors, h]
            rfl
          have e := eFinalize_bad A u { env with scr := scr } s p c live0 out size hlive hc es
          refine ⟨(⟨-1, out⟩, some p, s), ?_⟩
          simp only [eStep, e, Res.ok_bind, callErrors, Option.isSome_some, if_true, firstErrors_nil, firstErrors_cons hc]
          rfl
    obtain ⟨x, hx⟩ := key
    have h3 := e2 es
    rw [e, Res.ok_bind, hx] at h3
    injection h3 with h3
    rw [hx]
    obtain ⟨x1, x2, x3⟩ := x
    simp only [Prod.mk.injEq] at h3 ⊢
    simp [h3.1, h3.2.1, h3.2.2.1]

/-- The errors of every call of a program. -/
theorem eRun_trace (L : Lawful A H enc) (u : Bool) (env : Env w) (live0 : List (Nat × Obj w)) :
    ∀ (calls : List (Bool × ApiCall × Scr w)) (slot : Option Nat) (s : St w) (a : ApiState w),
      (∀ c ∈ calls, c.2.1.Valid ∧ ScrOk A c.2.2) → ApiRel A H live0 slot s a →
      ∃ slot' s', eRun A u env calls slot s = .ok ((Spec.apiRun H A.hashSize (List.replicate A.nHash 0) env.allocOk (calls.map fun c => c.2.1) a).1.zip
        (apiErrors H A.hashSize (List.replicate A.nHash 0) env.allocOk (calls.map fun c => (c.1, c.2.1)) a), slot', s')
  | [], slot, s, a, _, _ => ⟨slot, s, rfl⟩
  | (dep, c, scr) :: cs, slot, s, a, hv, hrel => by
    obtain ⟨slot1, s1, e0, r1, e1⟩ := eStep_trace L u env live0 c scr slot s a (hv (dep, c, scr) (by simp)).1 (hv (dep, c, scr) (by simp)).2 hrel []
    obtain ⟨slot2, s2, e2⟩ := eRun_trace L u env live0 cs slot1 s1 _ (fun x hx => hv x (by simp [hx])) r1
    refine ⟨slot2, s2, ?_⟩
    have e3 : (if dep then eDepStep A u env c scr slot s [] else eStep A u env c scr slot s []) =
        .ok ((Spec.apiStep H A.hashSize (List.replicate A.nHash 0) env.allocOk c a).1, slot1, s1, mixedErrors A.hashSize a.slot.isSome (env.allocOk a.attempts) dep c) := by
      unfold mixedErrors
      cases dep with
      | false => simpa using e1
      | true =>
        simp only [if_true, eDepStep_eq, e1, Res.ok_bind, List.nil_append]
        obtain ⟨f, g, e4⟩ := eStep_eq A u env c scr slot s
        have hg := g _ e0
        have hf : f ((Spec.apiStep H A.hashSize (List.replicate A.nHash 0) env.allocOk c a).1, slot1, s1) = callErrors A.hashSize a.slot.isSome (env.allocOk a.attempts) c := by
          have := e4 []
          rw [e0, e1, Res.ok_bind] at this
          injection this with this
          simp only [Prod.mk.injEq, true_and, List.nil_append] at this
          exact this.symm
        rw [hf] at hg
        generalize (Spec.apiStep H A.hashSize (List.replicate A.nHash 0) env.allocOk c a).1 = rep at hg ⊢
        obtain ⟨r, o⟩ := rep
        rcases hg with ⟨k1, k2⟩ | ⟨k1, k2⟩
        · change r = 1 at k1
          subst k1
          simp [k2, within]
        · change r = -1 at k1
          subst k1
          rw [within_append k2]
          simp
    simp [eRun, e3, e2, Spec.apiRun, apiErrors]

end Model
