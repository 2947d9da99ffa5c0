import Verif.Proofs.Notes
import Verif.Proofs.ErrorTraces
/-! The messages recorded by the functions of the API, exactly. Written after Proofs/ErrorTraces. -/

set_option linter.unusedSimpArgs false

namespace Model

open Spec (IterHash slice overwrite AreaOk Err Note Fn firstNotes withinNote memoryNotes contextNotes keyNotes initializeNote updateNote finalizeNote calledFn inputNotes outputNotes calculateNotes hmacNotes callNotes mixedNotes functionNote apiNotes ApiCall Reply ApiState)

variable {w : Nat} {A : Alg w} {H : IterHash w} {enc : Nat → List Byte}

theorem nErrs_of_one {fn : Fn} {r : Int} {ns : List Note} (h : NErrs fn r ns) (hr : r = 1) : ns = [] := by
  rcases h with ⟨-, h⟩ | ⟨h, -⟩
  · exact h
  · omega

theorem nUpdate_one {u : Bool} {env : Env w} {slot : Option Nat} {buf : Option (List Byte)} {n : Nat} {s s' : St w}
    (h : hUpdate A u env slot buf n s = .ok (1, s')) (ns : List Note) : nUpdate A u env slot buf n s ns = .ok (1, s', ns) := by
  obtain ⟨f, g, e⟩ := nUpdate_eq A u env slot buf n s
  rw [e, h, Res.ok_bind, nErrs_of_one (g _ h) rfl, List.append_nil]

theorem nFinalize_one {u : Bool} {env : Env w} {slot : Option Nat} {o o' : Option (List Byte)} {n : Nat} {s s' : St w}
    (h : hFinalize A u env slot o n s = .ok (1, o', s')) (ns : List Note) : nFinalize A u env slot o n s ns = .ok (1, o', s', ns) := by
  obtain ⟨f, g, e⟩ := nFinalize_eq A u env slot o n s
  rw [e, h, Res.ok_bind, nErrs_of_one (g _ h) rfl, List.append_nil]

theorem nLocalInit_one (fn : Fn) {env : Env w} {slot slot' : Option Nat} {s s' : St w} (h : hInitialize A env slot s = .ok (1, slot', s')) (ns : List Note) :
    nLocalInit fn A env slot s ns = .ok (1, slot', s', ns) := by
  obtain ⟨f, g, e⟩ := nLocalInit_eq fn A env slot s
  rw [e, h, Res.ok_bind, nErrs_of_one (g _ h) rfl, List.append_nil]

theorem nLocalInit_fail (fn : Fn) (A : Alg w) (env : Env w) (s : St w) (h : env.allocOk s.count = false) (ns : List Note) :
    nLocalInit fn A env none s ns = .ok (-1, none, { s with count := s.count + 1 }, ns ++ [⟨.ctxInitialize, .memInsufficient, .createContext⟩, initializeNote fn]) := by
  simp [nLocalInit, nInitialize, initializeNote, h, noteFailed]

theorem nLocalFree_ok (fn : Fn) {slot slot' : Option Nat} {s s' : St w} {r : Int} (h : hFree slot s = .ok (r, slot', s')) (ns : List Note) :
    nLocalFree fn slot s ns = .ok (1, slot', s', ns) := by
  obtain ⟨g, e⟩ := nLocalFree_eq fn slot s
  have g := g _ h
  change r = 1 at g
  rw [e, h, g, Res.ok_bind]

theorem nUpdate_bad (A : Alg w) (u : Bool) (env : Env w) (s : St w) (p : Nat) (c : Ctx w) (rest : List (Nat × Obj w)) (buf : Option (List Byte)) (n : Nat)
    (hl : s.live = (p, .ctx c) :: rest) (hn : inputNotes buf.isSome n ≠ []) (ns : List Note) :
    nUpdate A u env (some p) buf n s ns = .ok (-1, s, ns ++ inputNotes buf.isSome n) := by
  have hs : ({ s with live := (p, .ctx c) :: rest } : St w) = s := by rw [← hl]
  unfold inputNotes at hn ⊢
  cases buf with
  | none => simp [nUpdate, hl, getKey, nCtxUpdate, setKey, hs]
  | some b =>
    have hn : ssizeMax < n := by
      by_contra h
      unfold ssizeMax at h
      simp [h] at hn
    simp only [nUpdate, hl, getKey, nCtxUpdate, setKey, hn, hs, if_true, Res.ok_bind, Res.pure_eq, Option.isSome_some, Bool.not_true, Bool.false_eq_true, if_false]
    rw [if_pos (show 2 ^ 63 - 1 < n from hn)]

theorem nFinalize_bad (A : Alg w) (u : Bool) (env : Env w) (s : St w) (p : Nat) (c : Ctx w) (rest : List (Nat × Obj w)) (o : Option (List Byte)) (n : Nat)
    (hl : s.live = (p, .ctx c) :: rest) (hn : outputNotes A.hashSize o.isSome n ≠ []) (ns : List Note) :
    nFinalize A u env (some p) o n s ns = .ok (-1, o, s, ns ++ outputNotes A.hashSize o.isSome n) := by
  have hs : ({ s with live := (p, .ctx c) :: rest } : St w) = s := by rw [← hl]
  unfold outputNotes at hn ⊢
  cases o with
  | none => simp [nFinalize, hl, getKey, nCtxFinalize, setKey, hs]
  | some b =>
    by_cases h1 : n < A.hashSize
    · simp [nFinalize, hl, getKey, nCtxFinalize, setKey, hs, h1]
    · have hn : ssizeMax < n := by
        by_contra h
        unfold ssizeMax at h
        simp [h, h1] at hn
      simp only [nFinalize, hl, getKey, nCtxFinalize, setKey, hn, h1, hs, if_true, Res.ok_bind, Res.pure_eq, Option.isSome_some, Bool.not_true, Bool.false_eq_true, if_false]
      rw [if_pos (show 2 ^ 63 - 1 < n from hn)]

theorem inputNotes_nil {g : Bool} {n : Nat} : inputNotes g n = [] ↔ g = true ∧ n ≤ ssizeMax := by
  unfold inputNotes ssizeMax
  cases g
  · simp
  · simp only [Bool.not_true, Bool.false_eq_true, if_false, true_and]
    split
    · simp; omega
    · simp; omega

theorem keyNotes_nil {g : Bool} {n : Nat} : keyNotes g n = [] ↔ g = true ∧ n ≤ ssizeMax := by
  unfold keyNotes ssizeMax
  cases g
  · simp
  · simp only [Bool.not_true, Bool.false_eq_true, if_false, true_and]
    split
    · simp; omega
    · simp; omega

theorem outputNotes_nil {k : Nat} {g : Bool} {n : Nat} : outputNotes k g n = [] ↔ g = true ∧ k ≤ n ∧ n ≤ ssizeMax := by
  unfold outputNotes ssizeMax
  cases g
  · simp
  · simp only [Bool.not_true, Bool.false_eq_true, if_false, true_and]
    split
    · simp; omega
    · split
      · simp; omega
      · simp; omega

theorem withinNote_nil {e : Note} {ns : List Note} : withinNote e ns = [] ↔ ns = [] := by cases ns <;> simp [withinNote]

theorem withinNote_none (e : Note) : withinNote e [] = [] := rfl

theorem withinNote_append {e : Note} {ns : List Note} (h : ns ≠ []) : withinNote e ns = ns ++ [e] := by
  cases ns with
  | nil => exact (h rfl).elim
  | cons a b => rfl

theorem firstNotes_cons {ns : List Note} (h : ns ≠ []) (r : List (List Note)) : firstNotes (ns :: r) = ns := by
  cases ns with
  | nil => exact (h rfl).elim
  | cons a b => rfl

theorem firstNotes_nil (r : List (List Note)) : firstNotes ([] :: r) = firstNotes r := rfl

/-- The messages recorded by `calculate`. -/
theorem nCalculate_trace (L : Lawful A H enc) (u : Bool) (env : Env w) (hscr : ScrOk A env.scr) (buffer : Option Nat) (size : Nat) (hash : Option Nat) (hashSize : Nat) (s : St w)
    (hb : AreaOk s.caller buffer size) (hh : AreaOk s.caller hash hashSize) (ns : List Note) :
    ∃ r s', nCalculate A u env buffer size hash hashSize s ns =
      .ok (r, s', ns ++ calculateNotes A.hashSize (fun i => env.allocOk (s.count + i)) buffer.isSome size hash.isSome hashSize) := by
  unfold nCalculate calculateNotes
  cases hal : env.allocOk s.count with
  | false =>
    rw [nLocalInit_fail .calculate A env s hal, Res.ok_bind]
    simp only [contextNotes, memoryNotes, Nat.add_zero, hal]
    exact ⟨_, _, rfl⟩
  | true =>
    obtain ⟨c, e, hr⟩ := hInitialize_ok L env s hal
    rw [nLocalInit_one .calculate e, Res.ok_bind]
    simp only [ne_eq, not_true_eq_false, if_false, contextNotes, memoryNotes, Nat.add_zero, hal, if_true, withinNote_none, firstNotes_nil]
    by_cases hbad : inputNotes buffer.isSome size = []
    · obtain ⟨h1, hsz⟩ := inputNotes_nil.mp hbad
      obtain ⟨i, rfl⟩ := Option.isSome_iff_exists.mp h1
      obtain ⟨c', e', hr'⟩ := hUpdate_ok L u env hscr { s with count := s.count + 1, live := (s.count, .ctx c) :: s.live } s.count c s.live [] (slice s.caller i size) size
        rfl hr hsz (slice_length (hb i rfl hsz))
      rw [region_some, nUpdate_one e', Res.ok_bind, hbad]
      simp only [not_true_eq_false, if_false, noteFailed, ne_eq, withinNote_none, firstNotes_nil]
      by_cases hbad2 : outputNotes A.hashSize hash.isSome hashSize = []
      · obtain ⟨h1, h2, h3⟩ := outputNotes_nil.mp hbad2
        obtain ⟨o, rfl⟩ := Option.isSome_iff_exists.mp h1
        have hol := hh o rfl h3
        rw [region_some, nFinalize_one (hFinalize_ok L u env hscr _ s.count c' s.live _ _ _ rfl hr' h3 h2 (by rw [slice_length hol])), Res.ok_bind, hbad2]
        simp only [setRegion_some, List.nil_append, not_true_eq_false, if_false]
        rw [nLocalFree_ok .calculate (hFree_ok _ _ (.ctx (zeroCtx A)) s.live rfl), Res.ok_bind]
        exact ⟨_, _, by simp only [not_true_eq_false, if_false, withinNote, firstNotes, List.append_nil]; rfl⟩
      · rw [nFinalize_bad A u env _ s.count c' s.live _ _ rfl (by rw [isSome_region]; exact hbad2), Res.ok_bind, isSome_region]
        simp only [setRegion_same, if_pos (show ¬ ((-1 : Int) = 1) from by decide)]
        simp only [calculateError]
        rw [hFree_ok _ _ (.ctx c') s.live rfl, firstNotes_cons (by rw [ne_eq, withinNote_nil]; exact hbad2), withinNote_append hbad2]
        exact ⟨_, _, by simp only [List.append_assoc]; rfl⟩
    · rw [nUpdate_bad A u env _ s.count c s.live _ _ rfl (by rw [isSome_region]; exact hbad), Res.ok_bind, isSome_region]
      simp only [noteFailed, ne_eq, if_pos (show ¬ ((-1 : Int) = 1) from by decide)]
      simp only [calculateError]
      rw [hFree_ok _ _ (.ctx c) s.live rfl, firstNotes_cons (by rw [ne_eq, withinNote_nil]; exact hbad), withinNote_append hbad]
      exact ⟨_, _, by simp only [List.append_assoc]; rfl⟩

theorem nHmacKey_true {u : Bool} {env : Env w} {key : Option Nat} {n : Nat} {l l' : Loc} {s s' : St w} (h : hmacKey A u env key n l s = .ok (true, l', s')) (ns : List Note) :
    nHmacKey A u env key n l s ns = .ok (true, l', s', ns) := by
  obtain ⟨f, g, e⟩ := nHmacKey_eq A u env key n l s
  rcases g _ h with ⟨-, k⟩ | ⟨k, -⟩
  · rw [e, h, Res.ok_bind, k, List.append_nil]
  · cases k

theorem nHmacPads_true {env : Env w} {l l' : Loc} {s s' : St w} (h : hmacPads A env l s = .ok (true, l', s')) (ns : List Note) :
    nHmacPads A env l s ns = .ok (true, l', s', ns) := by
  rw [nHmacPads_exact, h]
  simp [padNotes]

theorem nHmacPads_false {env : Env w} {l l' : Loc} {s s' : St w} (h : hmacPads A env l s = .ok (false, l', s')) (ns : List Note) :
    nHmacPads A env l s ns = .ok (false, l', s', ns ++ padNotes false l') := by
  rw [nHmacPads_exact, h]
  simp

theorem nHmacPass_true {u : Bool} {env : Env w} {pad buffer : Option Nat} {size : Nat} {hmac : Option Nat} {hmacSize : Nat} {l l' : Loc} {s s' : St w}
    (h : hmacPass A u env pad buffer size hmac hmacSize l s = .ok (true, l', s')) (ns : List Note) :
    nHmacPass A u env pad buffer size hmac hmacSize l s ns = .ok (true, l', s', ns) := by
  obtain ⟨f, g, e⟩ := nHmacPass_eq A u env pad buffer size hmac hmacSize l s
  rcases g _ h with ⟨-, k⟩ | ⟨k, -⟩
  · rw [e, h, Res.ok_bind, k, List.append_nil]
  · cases k

theorem nHmacPass_fail (u : Bool) (env : Env w) (padding buffer : Option Nat) (size : Nat) (hmac : Option Nat) (hmacSize : Nat) (l : Loc) (s : St w)
    (h : env.allocOk s.count = false) (hc : l.context = none) (ns : List Note) :
    nHmacPass A u env padding buffer size hmac hmacSize l s ns = .ok (false, l, { s with count := s.count + 1 }, ns ++ [⟨.ctxInitialize, .memInsufficient, .createContext⟩, initializeNote .calculateHmac]) := by
  obtain ⟨cx, kd, i, o, kh⟩ := l
  simp only at hc
  subst hc
  unfold nHmacPass
  rw [nLocalInit_fail .calculateHmac A env s h, Res.ok_bind]
  rfl

/-- The messages of the arguments of a pass. -/
def passNotes (n : Nat) (buffer : Bool) (size : Nat) (hmac : Bool) (hmacSize : Nat) : List Note :=
  firstNotes [withinNote (updateNote .calculateHmac) (inputNotes buffer size), withinNote (finalizeNote .calculateHmac) (outputNotes n hmac hmacSize)]

theorem nHmacPass_args (L : Lawful A H enc) (u : Bool) (env : Env w) (hscr : ScrOk A env.scr) (p : Nat) (pd : List Byte) (buffer : Option Nat) (size : Nat) (hmac : Option Nat) (hmacSize : Nat)
    (l : Loc) (s : St w) (h : env.allocOk s.count = true) (hc : l.context = none) (hp : p < s.count) (hg : getKey p s.live = some (.bytes pd))
    (hpd : pd.length = A.hmacBlockSize) (hb : AreaOk s.caller buffer size) (hargs : passNotes A.hashSize buffer.isSome size hmac.isSome hmacSize ≠ []) (ns : List Note) :
    ∃ c, nHmacPass A u env (some p) buffer size hmac hmacSize l s ns =
      .ok (false, { l with context := some s.count }, { s with count := s.count + 1, live := (s.count, .ctx c) :: s.live },
        ns ++ passNotes A.hashSize buffer.isSome size hmac.isSome hmacSize) := by
  have hB : A.hmacBlockSize ≤ ssizeMax := by rw [L.hmacBs]; unfold ssizeMax; rcases L.size with h | h <;> omega
  obtain ⟨cx, kd, i, o, kh⟩ := l
  simp only at hc
  subst hc
  unfold passNotes at hargs ⊢
  unfold nHmacPass
  obtain ⟨c, e1, hr⟩ := hInitialize_ok L env s h
  rw [nLocalInit_one .calculateHmac e1, Res.ok_bind]
  have n1 : s.count ≠ p := by omega
  simp only [ne_eq, not_true_eq_false, if_false, loadBytes, getKey, n1, hg, Res.ok_bind]
  obtain ⟨c2, e2, hr2⟩ := hUpdate_ok L u env hscr { s with count := s.count + 1, live := (s.count, .ctx c) :: s.live } s.count c _ [] pd _ rfl hr hB hpd
  rw [nUpdate_one e2, Res.ok_bind]
  simp only [not_true_eq_false, if_false, noteFailed, ne_eq]
  by_cases hbad : inputNotes buffer.isSome size = []
  · obtain ⟨h1, hsz⟩ := inputNotes_nil.mp hbad
    obtain ⟨i, rfl⟩ := Option.isSome_iff_exists.mp h1
    obtain ⟨c3, e3, hr3⟩ := hUpdate_ok L u env hscr { s with count := s.count + 1, live := (s.count, .ctx c2) :: s.live } s.count c2 _ _ (slice s.caller i size) size rfl hr2 hsz
      (slice_length (hb i rfl hsz))
    refine ⟨c3, ?_⟩
    rw [region_some, nUpdate_one e3, Res.ok_bind]
    simp only [hbad, withinNote_none, firstNotes_nil] at hargs ⊢
    simp only [not_true_eq_false, if_false]
    have hbad2 : outputNotes A.hashSize hmac.isSome hmacSize ≠ [] := by
      intro h
      rw [h] at hargs
      exact hargs rfl
    rw [nFinalize_bad A u env _ s.count c3 s.live _ _ rfl (by rw [isSome_region]; exact hbad2), Res.ok_bind, isSome_region]
    simp only [setRegion_same, if_pos (show ¬ ((-1 : Int) = 1) from by decide)]
    rw [firstNotes_cons (by rw [ne_eq, withinNote_nil]; exact hbad2), withinNote_append hbad2]
    simp only [List.append_assoc]
    rfl
  · refine ⟨c2, ?_⟩
    rw [nUpdate_bad A u env _ s.count c2 s.live _ _ rfl (by rw [isSome_region]; exact hbad), Res.ok_bind, isSome_region]
    simp only [if_pos (show ¬ ((-1 : Int) = 1) from by decide)]
    rw [firstNotes_cons (by rw [ne_eq, withinNote_nil]; exact hbad), withinNote_append hbad]
    simp only [List.append_assoc]
    rfl

/-- `calculate_hmac` after the key. -/
def nHmacRest (A : Alg w) (u : Bool) (env : Env w) (buffer : Option Nat) (size : Nat) (hmac : Option Nat) (hmacSize : Nat) (l : Loc) (s : St w) (ns : List Note) :
    Res (Int × Loc × St w × List Note) := do
  let (ok, l, s, ns) ← nHmacPads A env l s ns
  if !ok then do
    let (r, l, s) ← hmacError A l s
    pure (r, l, s, ns)
  else do
    let (ok, l, s, ns) ← nHmacPass A u env l.inner buffer size hmac hmacSize l s ns
    if !ok then do
      let (r, l, s) ← hmacError A l s
      pure (r, l, s, ns)
    else do
      let (ok, l, s, ns) ← nHmacPass A u env l.outer hmac A.hashSize hmac hmacSize l s ns
      if !ok then do
        let (r, l, s) ← hmacError A l s
        pure (r, l, s, ns)
      else do
        let s ← wipeFree A l.outer s
        let l := { l with outer := none }
        let s ← wipeFree A l.inner s
        let l := { l with inner := none }
        let s ← wipeFree A l.keyData s
        let l := { l with keyData := none }
        pure (1, l, s, ns)

theorem passNotes_nil {n : Nat} {buffer : Bool} {size : Nat} {hmac : Bool} {hmacSize : Nat} :
    passNotes n buffer size hmac hmacSize = [] ↔ (buffer = true ∧ size ≤ ssizeMax) ∧ hmac = true ∧ n ≤ hmacSize ∧ hmacSize ≤ ssizeMax := by
  unfold passNotes
  rw [← inputNotes_nil, ← outputNotes_nil]
  by_cases h : inputNotes buffer size = []
  · rw [h, withinNote_none, firstNotes_nil]
    by_cases h2 : outputNotes n hmac hmacSize = []
    · rw [h2]; simp [withinNote, firstNotes]
    · rw [firstNotes_cons (by rw [ne_eq, withinNote_nil]; exact h2), withinNote_nil]; simp
  · rw [firstNotes_cons (by rw [ne_eq, withinNote_nil]; exact h), withinNote_nil]
    simp [h]

theorem firstNotes_pass (a b c : List Note) (n : Nat) (buffer : Bool) (size : Nat) (hmac : Bool) (hmacSize : Nat) (r : List (List Note)) :
    firstNotes (a :: b :: c :: withinNote (updateNote .calculateHmac) (inputNotes buffer size) :: withinNote (finalizeNote .calculateHmac) (outputNotes n hmac hmacSize) :: r) =
      firstNotes (a :: b :: c :: passNotes n buffer size hmac hmacSize :: r) := by
  unfold passNotes
  generalize withinNote (updateNote .calculateHmac) (inputNotes buffer size) = x
  generalize withinNote (finalizeNote .calculateHmac) (outputNotes n hmac hmacSize) = y
  cases a <;> cases b <;> cases c <;> cases x <;> cases y <;> rfl

theorem nHmacRest_trace (L : Lawful A H enc) (u : Bool) (env : Env w) (hscr : ScrOk A env.scr) (buffer : Option Nat) (size : Nat) (hmac : Option Nat) (hmacSize : Nat)
    (K kh : List Byte) (a : Nat) (s : St w) (live0 : List (Nat × Obj w)) (hK : K.length = A.hmacBlockSize) (ha : a < s.count)
    (hl : s.live = (a, .bytes K) :: live0) (hb : AreaOk s.caller buffer size) (hh : AreaOk s.caller hmac hmacSize) (ns : List Note) :
    ∃ r l' s', nHmacRest A u env buffer size hmac hmacSize ⟨none, some a, none, none, kh⟩ s ns = .ok (r, l', s', ns ++ firstNotes [
      memoryNotes ⟨.calculateHmac, .memInsufficient, .createInner⟩ (env.allocOk s.count),
      memoryNotes ⟨.calculateHmac, .memInsufficient, .createOuter⟩ (env.allocOk (s.count + 1)),
      withinNote (initializeNote .calculateHmac) (contextNotes (env.allocOk (s.count + 2))),
      passNotes A.hashSize buffer.isSome size hmac.isSome hmacSize,
      withinNote (initializeNote .calculateHmac) (contextNotes (env.allocOk (s.count + 3)))]) := by
  obtain ⟨caller, count, live, freed⟩ := s
  simp only at ha hl hb hh
  subst hl
  have hKx : ∀ x : Byte, (K.map (· ^^^ x)).length = A.hmacBlockSize := by intro x; simpa using hK
  have hBs : A.hmacBlockSize ≤ 128 := by rw [L.hmacBs]; rcases L.size with h | h <;> omega
  have hhs : A.hashSize ≤ A.hmacBlockSize := by rw [L.hmacBs]; exact L.hashLe
  have m1 : ∀ e, memoryNotes e true = [] := fun _ => rfl
  have m1' : contextNotes true = [] := rfl
  unfold nHmacRest
  simp only
  cases h1 : env.allocOk count with
  | false =>
    rw [nHmacPads_false (hmacPads_fail1 env _ _ h1), Res.ok_bind]
    simp only [Bool.not_false, if_true]
    rw [hmacError_ok _ _ (zeroCtx A) K K K live0 hK hK hK (by simp [optObj])]
    exact ⟨_, _, _, rfl⟩
  | true =>
    cases h2 : env.allocOk (count + 1) with
    | false =>
      obtain ⟨d, hd, e⟩ := hmacPads_fail2 (A := A) env ⟨none, some a, none, none, kh⟩ ⟨caller, count, (a, .bytes K) :: live0, freed⟩ h1 h2
      rw [nHmacPads_false e, Res.ok_bind]
      simp only [Bool.not_false, if_true]
      rw [hmacError_ok _ _ (zeroCtx A) K d K live0 hK hd hK (by simp [optObj])]
      exact ⟨_, _, _, rfl⟩
    | true =>
      rw [nHmacPads_true (hmacPads_ok env _ _ a K live0 h1 h2 ha rfl hK rfl), Res.ok_bind]
      simp only [Bool.not_true, Bool.false_eq_true, if_false, m1, m1', firstNotes_nil]
      cases h3 : env.allocOk (count + 2) with
      | false =>
        rw [nHmacPass_fail u env _ _ _ _ _ _ _ h3 rfl, Res.ok_bind]
        simp only [Bool.not_false, if_true]
        rw [hmacError_ok _ _ (zeroCtx A) (K.map (· ^^^ 0x5c#8)) (K.map (· ^^^ 0x36#8)) K live0 (hKx _) (hKx _) hK (by simp [optObj])]
        exact ⟨_, _, _, rfl⟩
      | true =>
        simp only [m1, m1', withinNote_none, firstNotes_nil]
        by_cases hargs : passNotes A.hashSize buffer.isSome size hmac.isSome hmacSize = []
        · obtain ⟨⟨g1, g2⟩, g3, g4, g5⟩ := passNotes_nil.mp hargs
          obtain ⟨i, rfl⟩ := Option.isSome_iff_exists.mp g1
          obtain ⟨o, rfl⟩ := Option.isSome_iff_exists.mp g3
          have hol : o + hmacSize ≤ caller.length := hh o rfl g5
          have hdl := digestLen L (K.map (· ^^^ 0x36#8) ++ slice caller i size)
          rw [hargs, firstNotes_nil]
          rw [nHmacPass_true (hmacPass_ok L u env hscr count (K.map (· ^^^ 0x36#8)) i size o hmacSize _ _ h3 rfl (by simp only; omega) (by simp [getKey]) (hKx _) (hb i rfl g2) g2 hol g4 g5),
            Res.ok_bind]
          simp only [Bool.not_true, Bool.false_eq_true, if_false]
          have hol2 : o + hmacSize ≤ (overwrite caller o (H.digest (K.map (· ^^^ 0x36#8) ++ slice caller i size))).length := by
            rw [overwrite_length (by omega)]; exact hol
          cases h4 : env.allocOk (count + 3) with
          | false =>
            rw [nHmacPass_fail u env _ _ _ _ _ _ _ h4 rfl, Res.ok_bind]
            simp only [Bool.not_false, if_true]
            rw [hmacError_ok _ _ (zeroCtx A) (K.map (· ^^^ 0x5c#8)) (K.map (· ^^^ 0x36#8)) K live0 (hKx _) (hKx _) hK (by simp [optObj])]
            exact ⟨_, _, _, rfl⟩
          | true =>
            rw [nHmacPass_true (hmacPass_ok L u env hscr (count + 1) (K.map (· ^^^ 0x5c#8)) o A.hashSize o hmacSize _ _ h4 rfl (by simp only; omega) (by simp [getKey]) (hKx _) (le_trans (by omega) hol2)
              (by unfold ssizeMax; omega) hol2 g4 g5), Res.ok_bind]
            simp only [Bool.not_true, Bool.false_eq_true, if_false]
            rw [wipeFree_ok (count + 1) (K.map (· ^^^ 0x5c#8)) ((count, .bytes (K.map (· ^^^ 0x36#8))) :: (a, .bytes K) :: live0) _ rfl (hKx _), Res.ok_bind]
            rw [wipeFree_ok count (K.map (· ^^^ 0x36#8)) ((a, .bytes K) :: live0) _ rfl (hKx _), Res.ok_bind]
            rw [wipeFree_ok a K live0 _ rfl hK, Res.ok_bind]
            exact ⟨_, _, _, by simp only [m1, m1', withinNote_none, firstNotes_nil, firstNotes, List.append_nil]; rfl⟩
        · obtain ⟨c, e⟩ := nHmacPass_args L u env hscr count (K.map (· ^^^ 0x36#8)) buffer size hmac hmacSize ⟨none, some a, some count, some (count + 1), kh⟩
            ⟨caller, count + 2, (count + 1, .bytes (K.map (· ^^^ 0x5c#8))) :: (count, .bytes (K.map (· ^^^ 0x36#8))) :: (a, .bytes K) :: live0, freed⟩
            h3 rfl (by simp only; omega) (by simp [getKey]) (hKx _) hb hargs ns
          rw [e, Res.ok_bind]
          simp only [Bool.not_false, if_true]
          rw [hmacError_ok _ _ c (K.map (· ^^^ 0x5c#8)) (K.map (· ^^^ 0x36#8)) K live0 (hKx _) (hKx _) hK (by simp [optObj]), firstNotes_cons hargs]
          exact ⟨_, _, _, rfl⟩

/-- The messages recorded by `calculate_hmac`. -/
theorem nCalculateHmac_trace (L : Lawful A H enc) (u : Bool) (env : Env w) (hscr : ScrOk A env.scr) (keyHash : List Byte) (hkh : keyHash.length = A.hashSize)
    (key : Option Nat) (keySize : Nat) (buffer : Option Nat) (size : Nat) (hmac : Option Nat) (hmacSize : Nat) (s : St w)
    (hk : AreaOk s.caller key keySize) (hb : AreaOk s.caller buffer size) (hh : AreaOk s.caller hmac hmacSize) (ns : List Note) :
    ∃ r l' s', nCalculateHmac A u env keyHash key keySize buffer size hmac hmacSize s ns = .ok (r, l', s', ns ++
      hmacNotes A.hashSize A.hmacBlockSize (fun i => env.allocOk (s.count + i)) key.isSome keySize buffer.isSome size hmac.isSome hmacSize) := by
  have m1 : ∀ e, memoryNotes e true = [] := fun _ => rfl
  have m1' : contextNotes true = [] := rfl
  have hassoc : ∀ i j, s.count + (i + j) = s.count + i + j := fun i j => by omega
  unfold hmacNotes
  cases key with
  | none => exact ⟨_, _, _, rfl⟩
  | some k =>
    change ∃ r l' s', (if ssizeMax < keySize then _ else if hmacSize < A.hashSize then _ else (do
      let (ok, l, s, ns) ← nHmacKey A u env (some k) keySize ⟨none, none, none, none, keyHash⟩ s ns
      if !ok then do
        let (r, l, s) ← hmacError A l s
        pure (r, l, s, ns)
      else nHmacRest A u env buffer size hmac hmacSize l s ns)) = _
    by_cases hks : ssizeMax < keySize
    · rw [if_pos hks, show keyNotes (some k).isSome keySize = [⟨.calculateHmac, .argExceeds, .keyExceeds⟩] by unfold keyNotes; simp only [Option.isSome_some, Bool.not_true, Bool.false_eq_true, if_false]; exact if_pos hks]
      exact ⟨_, _, _, rfl⟩
    · rw [if_neg hks, show keyNotes (some k).isSome keySize = [] from keyNotes_nil.mpr ⟨rfl, by omega⟩, firstNotes_nil]
      by_cases hn : hmacSize < A.hashSize
      · rw [if_pos hn, if_pos hn]
        exact ⟨_, _, _, rfl⟩
      · rw [if_neg hn, if_neg hn, firstNotes_nil]
        have hks : keySize ≤ ssizeMax := by omega
        simp only [Nat.add_zero]
        cases h0 : env.allocOk s.count with
        | false =>
          have e : nHmacKey A u env (some k) keySize ⟨none, none, none, none, keyHash⟩ s ns =
              .ok (false, ⟨none, none, none, none, keyHash⟩, { s with count := s.count + 1 }, ns ++ [⟨.calculateHmac, .memInsufficient, .createKey⟩]) := by
            simp [nHmacKey, allocBytes_fail env _ s h0]
          rw [e, Res.ok_bind]
          simp only [Bool.not_false, if_true]
          rw [hmacError_ok _ _ (zeroCtx A) (List.replicate A.hmacBlockSize 0) (List.replicate A.hmacBlockSize 0) (List.replicate A.hmacBlockSize 0) s.live
            (by simp) (by simp) (by simp) (by simp [optObj])]
          exact ⟨_, _, _, rfl⟩
        | true =>
          rw [m1, firstNotes_nil]
          by_cases hkb : keySize ≤ A.hmacBlockSize
          · rw [nHmacKey_true (hmacKey_short L u env k keySize _ s h0 hkb (hk k rfl hks)), Res.ok_bind]
            simp only [Bool.not_true, Bool.false_eq_true, if_false, hkb, if_true, firstNotes_nil, hassoc]
            rw [firstNotes_pass]
            exact nHmacRest_trace L u env hscr buffer size hmac hmacSize
              (paddedKey A.hmacBlockSize H.digest (slice s.caller k keySize)) keyHash s.count
              { s with count := s.count + 1, live := (s.count, .bytes (paddedKey A.hmacBlockSize H.digest (slice s.caller k keySize))) :: s.live }
              s.live (paddedKey_length L _) (by simp) rfl hb hh ns
          · simp only [hkb, if_false, hassoc]
            cases h0' : env.allocOk (s.count + 1) with
            | false =>
              obtain ⟨d, hd, e⟩ := allocBytes_ok env A.hmacBlockSize s h0
              have e : nHmacKey A u env (some k) keySize ⟨none, none, none, none, keyHash⟩ s ns =
                  .ok (false, ⟨none, some s.count, none, none, keyHash⟩, { s with count := s.count + 2, live := (s.count, .bytes d) :: s.live }, ns ++ [⟨.ctxInitialize, .memInsufficient, .createContext⟩, initializeNote .calculateHmac]) := by
                unfold nHmacKey
                rw [e]
                simp only [hkb, if_false]
                rw [nLocalInit_fail .calculateHmac A env _ h0']
                rfl
              rw [e, Res.ok_bind]
              simp only [Bool.not_false, if_true]
              rw [hmacError_ok _ _ (zeroCtx A) d d d s.live hd hd hd (by simp [optObj])]
              exact ⟨_, _, _, rfl⟩
            | true =>
              rw [nHmacKey_true (hmacKey_long L u env hscr k keySize ⟨none, none, none, none, keyHash⟩ s h0 h0' rfl hkh (by omega) hks (hk k rfl hks)), Res.ok_bind]
              simp only [Bool.not_true, Bool.false_eq_true, if_false, m1, m1', withinNote_none, firstNotes_nil]
              rw [firstNotes_pass]
              exact nHmacRest_trace L u env hscr buffer size hmac hmacSize
                (paddedKey A.hmacBlockSize H.digest (slice s.caller k keySize)) (H.digest (slice s.caller k keySize)) s.count
                { s with
                  count := s.count + 2, live := (s.count, .bytes (paddedKey A.hmacBlockSize H.digest (slice s.caller k keySize))) :: s.live
                  freed := (s.count + 1, .ctx (zeroCtx A)) :: s.freed }
                s.live (paddedKey_length L _) (by simp) rfl hb hh ns

/-- One call with messages. -/
theorem nStep_eq (A : Alg w) (u : Bool) (env : Env w) (call : ApiCall) (scr : Scr w) (slot : Option Nat) (s : St w) :
    ∃ f : Reply × Option Nat × St w → List Note, (∀ x, step A u env call scr slot s = .ok x → NErrs (calledFn false call) x.1.code (f x)) ∧
      ∀ ns, nStep A u env call scr slot s ns = step A u env call scr slot s >>= fun x => .ok (x.1, x.2.1, x.2.2, ns ++ f x) := by
  cases call with
  | init =>
    obtain ⟨f, g, e⟩ := nInitialize_eq A env slot s
    unfold nStep step apiInitialize
    simp only [e]
    cases h : hInitialize A env slot s with
    | ub => exact ⟨fun _ => [], by rintro _ ⟨⟩, fun ns => rfl⟩
    | diverge => exact ⟨fun _ => [], by rintro _ ⟨⟩, fun ns => rfl⟩
    | ok x => exact ⟨fun _ => f x, by rintro _ ⟨⟩; exact g x h, fun ns => rfl⟩
  | initNull => exact ⟨fun _ => [⟨.ctxInitialize, .argInvalid, .invalidContext⟩], by rintro _ ⟨⟩; exact .inr ⟨rfl, rfl⟩, fun ns => rfl⟩
  | free =>
    have g := (nLocalFree_eq .calculateHmac slot s).1
    unfold nStep step apiFree
    simp only [nFree_eq]
    cases h : hFree slot s with
    | ub => exact ⟨fun _ => [], by rintro _ ⟨⟩, fun ns => rfl⟩
    | diverge => exact ⟨fun _ => [], by rintro _ ⟨⟩, fun ns => rfl⟩
    | ok x => exact ⟨fun _ => [], by rintro _ ⟨⟩; exact .inl ⟨g x h, rfl⟩, fun ns => by simp⟩
  | freeNull => exact ⟨fun _ => [⟨.ctxFree, .argInvalid, .invalidContext⟩], by rintro _ ⟨⟩; exact .inr ⟨rfl, rfl⟩, fun ns => rfl⟩
  | update buf size =>
    obtain ⟨f, g, e⟩ := nUpdate_eq A u { env with scr := scr } slot buf size s
    unfold nStep step
    simp only [e]
    cases h : hUpdate A u { env with scr := scr } slot buf size s with
    | ub => exact ⟨fun _ => [], by rintro _ ⟨⟩, fun ns => rfl⟩
    | diverge => exact ⟨fun _ => [], by rintro _ ⟨⟩, fun ns => rfl⟩
    | ok x => exact ⟨fun _ => f x, by rintro _ ⟨⟩; exact g x h, fun ns => rfl⟩
  | finalize out size =>
    obtain ⟨f, g, e⟩ := nFinalize_eq A u { env with scr := scr } slot out size s
    unfold nStep step
    simp only [e]
    cases h : hFinalize A u { env with scr := scr } slot out size s with
    | ub => exact ⟨fun _ => [], by rintro _ ⟨⟩, fun ns => rfl⟩
    | diverge => exact ⟨fun _ => [], by rintro _ ⟨⟩, fun ns => rfl⟩
    | ok x => exact ⟨fun _ => f x, by rintro _ ⟨⟩; exact g x h, fun ns => rfl⟩

theorem nDepStep_eq (A : Alg w) (u : Bool) (env : Env w) (call : ApiCall) (scr : Scr w) (slot : Option Nat) (s : St w) (ns : List Note) :
    nDepStep A u env call scr slot s ns = nStep A u env call scr slot s ns >>= fun x =>
      .ok (if x.1.code ≠ 1 then ⟨-1, x.1.out⟩ else x.1, x.2.1, x.2.2.1, if x.1.code ≠ 1 then x.2.2.2 ++ [functionNote call] else x.2.2.2) := by
  cases call with
  | init =>
    unfold nDepStep nStep nDepInitialize
    simp only
    cases nInitialize A env (some slot) s ns with
    | ub => rfl
    | diverge => rfl
    | ok x =>
      obtain ⟨r, c, s, ns⟩ := x
      by_cases hr : r = 1 <;> cases c <;> simp [hr, functionNote]
  | initNull => rfl
  | free =>
    unfold nDepStep nStep nDepFree
    simp only
    cases nFree (some slot) s ns with
    | ub => rfl
    | diverge => rfl
    | ok x =>
      obtain ⟨r, c, s, ns⟩ := x
      by_cases hr : r = 1 <;> cases c <;> simp [hr, functionNote]
  | freeNull => rfl
  | update buf size =>
    unfold nDepStep nStep nDepUpdate
    simp only
    cases nUpdate A u { env with scr := scr } slot buf size s ns with
    | ub => rfl
    | diverge => rfl
    | ok x =>
      obtain ⟨r, s, ns⟩ := x
      by_cases hr : r = 1 <;> simp [hr, functionNote]
  | finalize out size =>
    unfold nDepStep nStep nDepFinalize
    simp only
    cases nFinalize A u { env with scr := scr } slot out size s ns with
    | ub => rfl
    | diverge => rfl
    | ok x =>
      obtain ⟨r, h, s, ns⟩ := x
      by_cases hr : r = 1 <;> simp [hr, functionNote]

/-- One call through either set. -/
theorem nMixed_eq (A : Alg w) (u : Bool) (env : Env w) (dep : Bool) (call : ApiCall) (scr : Scr w) (slot : Option Nat) (s : St w) :
    ∃ f : Reply × Option Nat × St w → List Note, (∀ x, step A u env call scr slot s = .ok x → NErrs (calledFn dep call) x.1.code (f x)) ∧
      ∀ ns, (if dep then nDepStep A u env call scr slot s ns else nStep A u env call scr slot s ns) = step A u env call scr slot s >>= fun x => .ok (x.1, x.2.1, x.2.2, ns ++ f x) := by
  obtain ⟨f, g, e⟩ := nStep_eq A u env call scr slot s
  cases dep with
  | false => exact ⟨f, g, e⟩
  | true =>
    simp only [if_true, nDepStep_eq, e]
    cases h : step A u env call scr slot s with
    | ub => exact ⟨fun _ => [], by rintro _ ⟨⟩, fun ns => rfl⟩
    | diverge => exact ⟨fun _ => [], by rintro _ ⟨⟩, fun ns => rfl⟩
    | ok x =>
      obtain ⟨⟨r, o⟩, sl, s1⟩ := x
      have g := g _ h
      rcases g with ⟨k1, k2⟩ | ⟨k1, k2⟩
      · change r = 1 at k1
        subst k1
        exact ⟨fun _ => [], by rintro _ ⟨⟩; exact .inl ⟨rfl, rfl⟩, fun ns => by simp [k2]⟩
      · change r = -1 at k1
        subst k1
        exact ⟨fun _ => f (⟨-1, o⟩, sl, s1) ++ [functionNote call], by rintro _ ⟨⟩; exact .inr ⟨rfl, by cases call <;> simp [Named, functionNote, calledFn]⟩, fun ns => by simp⟩

/-- A program: the same replies as without error output, and with each failure, and only then, messages of which the last is of the function that was called. -/
theorem nRun_eq (A : Alg w) (u : Bool) (env : Env w) : ∀ (calls : List (Bool × ApiCall × Scr w)) (slot : Option Nat) (s : St w),
    ∃ f : List Reply × Option Nat × St w → List (List Note), (∀ x, mixedRun A u env calls slot s = .ok x → (f x).length = x.1.length ∧ ∀ y ∈ (calls.map fun c => (c.1, c.2.1)).zip (x.1.zip (f x)), NErrs (calledFn y.1.1 y.1.2) y.2.1.code y.2.2) ∧
      nRun A u env calls slot s = mixedRun A u env calls slot s >>= fun x => .ok (x.1.zip (f x), x.2.1, x.2.2)
  | [], slot, s => ⟨fun _ => [], by rintro _ ⟨⟩; exact ⟨rfl, by simp⟩, rfl⟩
  | (dep, c, scr) :: cs, slot, s => by
    obtain ⟨f, g, e⟩ := nMixed_eq A u env dep c scr slot s
    unfold nRun mixedRun
    simp only [e, depStep_step, ite_self]
    cases h : step A u env c scr slot s with
    | ub => exact ⟨fun _ => [], by rintro _ ⟨⟩, rfl⟩
    | diverge => exact ⟨fun _ => [], by rintro _ ⟨⟩, rfl⟩
    | ok x =>
      obtain ⟨f2, g2, e2⟩ := nRun_eq A u env cs x.2.1 x.2.2
      simp only [Res.ok_bind, e2]
      cases h2 : mixedRun A u env cs x.2.1 x.2.2 with
      | ub => exact ⟨fun _ => [], by rintro _ ⟨⟩, rfl⟩
      | diverge => exact ⟨fun _ => [], by rintro _ ⟨⟩, rfl⟩
      | ok y =>
        refine ⟨fun _ => f x :: f2 y, ?_, rfl⟩
        rintro _ ⟨⟩
        refine ⟨by simp [(g2 y h2).1], fun z hz => ?_⟩
        rcases List.mem_cons.mp hz with rfl | hz
        · exact g x h
        · exact (g2 y h2).2 z hz

theorem apiStep_code_notes (H : IterHash w) (n : Nat) (z : List (BitVec w)) (al : Nat → Bool) (c : ApiCall) (a : ApiState w) (h : callNotes n a.slot.isSome (al a.attempts) c = []) :
    (Spec.apiStep H n z al c a).1.code = 1 := by
  obtain ⟨sl, at'⟩ := a
  cases c with
  | init => cases sl <;> cases hal : al at' <;> simp_all [callNotes, contextNotes, memoryNotes, Spec.apiStep]
  | initNull => cases h
  | free => rfl
  | freeNull => cases h
  | update buf size =>
    cases sl with
    | none => cases h
    | some x =>
      change firstNotes [inputNotes buf.isSome size] = [] at h
      have h1 : inputNotes buf.isSome size = [] := by
        by_contra hn
        rw [firstNotes_cons hn] at h
        exact hn h
      obtain ⟨h1, h2⟩ := inputNotes_nil.mp h1
      obtain ⟨b, rfl⟩ := Option.isSome_iff_exists.mp h1
      simp [Spec.apiStep, maxSize_eq, h2]
  | finalize out size =>
    cases sl with
    | none => cases h
    | some x =>
      change firstNotes [outputNotes n out.isSome size] = [] at h
      have h1 : outputNotes n out.isSome size = [] := by
        by_contra hn
        rw [firstNotes_cons hn] at h
        exact hn h
      obtain ⟨h1, h2, h3⟩ := outputNotes_nil.mp h1
      obtain ⟨b, rfl⟩ := Option.isSome_iff_exists.mp h1
      simp [Spec.apiStep, maxSize_eq, h2, h3]

/-- The messages of one call on a context variable. -/
theorem nStep_trace (L : Lawful A H enc) (u : Bool) (env : Env w) (live0 : List (Nat × Obj w)) (call : ApiCall) (scr : Scr w) (slot : Option Nat) (s : St w)
    (a : ApiState w) (hv : call.Valid) (hscr : ScrOk A scr) (hrel : ApiRel A H live0 slot s a) (ns : List Note) :
    ∃ slot' s', step A u env call scr slot s = .ok ((Spec.apiStep H A.hashSize (List.replicate A.nHash 0) env.allocOk call a).1, slot', s') ∧
      ApiRel A H live0 slot' s' (Spec.apiStep H A.hashSize (List.replicate A.nHash 0) env.allocOk call a).2 ∧
      nStep A u env call scr slot s ns = .ok ((Spec.apiStep H A.hashSize (List.replicate A.nHash 0) env.allocOk call a).1, slot', s',
        ns ++ callNotes A.hashSize a.slot.isSome (env.allocOk a.attempts) call) := by
  obtain ⟨slot', s', e, r, -⟩ := step_ok L u env live0 call scr slot s a hv hscr hrel
  refine ⟨slot', s', e, r, ?_⟩
  obtain ⟨f, g, e2⟩ := nStep_eq A u env call scr slot s
  by_cases hc : callNotes A.hashSize a.slot.isSome (env.allocOk a.attempts) call = []
  · rw [e2, e, Res.ok_bind, nErrs_of_one (g _ e) (apiStep_code_notes H _ _ _ _ _ hc), hc]
  · have key : ∃ x : Reply × Option Nat × St w, nStep A u env call scr slot s ns = .ok (x.1, x.2.1, x.2.2, ns ++ callNotes A.hashSize a.slot.isSome (env.allocOk a.attempts) call) := by
      obtain ⟨aslot, att⟩ := a
      obtain ⟨hatt, hrel⟩ := hrel
      simp only at hatt hrel hc ⊢
      subst hatt
      match slot, aslot, hrel with
      | none, none, hlive =>
        cases call with
        | init =>
          cases hal : env.allocOk s.count with
          | true => rw [hal] at hc; exact (hc rfl).elim
          | false => exact ⟨(_, _, _), by simp only [nStep, nInitialize, hal, Bool.false_eq_true, if_false, Res.ok_bind]; rfl⟩
        | initNull => exact ⟨(_, _, _), rfl⟩
        | free => exact (hc rfl).elim
        | freeNull => exact ⟨(_, _, _), rfl⟩
        | update buf size => exact ⟨(_, _, _), rfl⟩
        | finalize out size => exact ⟨(_, _, _), rfl⟩
      | some p, some (h0, m), ⟨_, _, c, hlive, _⟩ =>
        cases call with
        | init => exact ⟨(_, _, _), rfl⟩
        | initNull => exact ⟨(_, _, _), rfl⟩
        | free => exact (hc rfl).elim
        | freeNull => exact ⟨(_, _, _), rfl⟩
        | update buf size =>
          have hc : inputNotes buf.isSome size ≠ [] := by
            intro h
            apply hc
            simp only [callNotes, h]
            rfl
          have e := nUpdate_bad A u { env with scr := scr } s p c live0 buf size hlive hc ns
          refine ⟨(⟨-1, none⟩, some p, s), ?_⟩
          simp only [nStep, e, Res.ok_bind, callNotes, Option.isSome_some, if_true, firstNotes_nil, firstNotes_cons hc]
          rfl
        | finalize out size =>
          have hc : outputNotes A.hashSize out.isSome size ≠ [] := by
            intro h
            apply hc
            simp only [callNotes, h]
            rfl
          have e := nFinalize_bad A u { env with scr := scr } s p c live0 out size hlive hc ns
          refine ⟨(⟨-1, out⟩, some p, s), ?_⟩
          simp only [nStep, e, Res.ok_bind, callNotes, Option.isSome_some, if_true, firstNotes_nil, firstNotes_cons hc]
          rfl
    obtain ⟨x, hx⟩ := key
    have h3 := e2 ns
    rw [e, Res.ok_bind, hx] at h3
    injection h3 with h3
    rw [hx]
    obtain ⟨x1, x2, x3⟩ := x
    simp only [Prod.mk.injEq] at h3 ⊢
    simp [h3.1, h3.2.1, h3.2.2.1]

/-- The messages of every call of a program. -/
theorem nRun_trace (L : Lawful A H enc) (u : Bool) (env : Env w) (live0 : List (Nat × Obj w)) :
    ∀ (calls : List (Bool × ApiCall × Scr w)) (slot : Option Nat) (s : St w) (a : ApiState w),
      (∀ c ∈ calls, c.2.1.Valid ∧ ScrOk A c.2.2) → ApiRel A H live0 slot s a →
      ∃ slot' s', nRun A u env calls slot s = .ok ((Spec.apiRun H A.hashSize (List.replicate A.nHash 0) env.allocOk (calls.map fun c => c.2.1) a).1.zip
        (apiNotes H A.hashSize (List.replicate A.nHash 0) env.allocOk (calls.map fun c => (c.1, c.2.1)) a), slot', s')
  | [], slot, s, a, _, _ => ⟨slot, s, rfl⟩
  | (dep, c, scr) :: cs, slot, s, a, hv, hrel => by
    obtain ⟨slot1, s1, e0, r1, e1⟩ := nStep_trace L u env live0 c scr slot s a (hv (dep, c, scr) (by simp)).1 (hv (dep, c, scr) (by simp)).2 hrel []
    obtain ⟨slot2, s2, e2⟩ := nRun_trace L u env live0 cs slot1 s1 _ (fun x hx => hv x (by simp [hx])) r1
    refine ⟨slot2, s2, ?_⟩
    have e3 : (if dep then nDepStep A u env c scr slot s [] else nStep A u env c scr slot s []) =
        .ok ((Spec.apiStep H A.hashSize (List.replicate A.nHash 0) env.allocOk c a).1, slot1, s1, mixedNotes A.hashSize a.slot.isSome (env.allocOk a.attempts) dep c) := by
      unfold mixedNotes
      cases dep with
      | false => simpa using e1
      | true =>
        simp only [if_true, nDepStep_eq, e1, Res.ok_bind, List.nil_append]
        obtain ⟨f, g, e4⟩ := nStep_eq A u env c scr slot s
        have hg := g _ e0
        have hf : f ((Spec.apiStep H A.hashSize (List.replicate A.nHash 0) env.allocOk c a).1, slot1, s1) = callNotes A.hashSize a.slot.isSome (env.allocOk a.attempts) c := by
          have := e4 []
          rw [e0, e1, Res.ok_bind] at this
          injection this with this
          simp only [Prod.mk.injEq, true_and, List.nil_append] at this
          exact this.symm
        rw [hf] at hg
        generalize (Spec.apiStep H A.hashSize (List.replicate A.nHash 0) env.allocOk c a).1 = rep at hg ⊢
        obtain ⟨r, o⟩ := rep
        rcases hg with ⟨k1, k2⟩ | ⟨k1, k2⟩
        · change r = 1 at k1
          subst k1
          simp [k2, withinNote]
        · change r = -1 at k1
          subst k1
          rw [withinNote_append k2.ne]
          simp
    simp [nRun, e3, e2, Spec.apiRun, apiNotes]

end Model
