import Verif.Proofs.Kinds
import Verif.Spec.Memory
/-! The one-shot functions, stage by stage. -/

namespace Model

open Spec (IterHash slice overwrite AreaOk)

variable {w : Nat} {A : Alg w} {H : IterHash w} {enc : Nat → List Byte}

theorem slice_length {mem : List Byte} {o n : Nat} (h : o + n ≤ mem.length) : (slice mem o n).length = n := by
  simp [slice]; omega

theorem region_some (s : St w) (o n : Nat) : region s (some o) n = some (slice s.caller o n) := rfl

theorem overwrite_slice (mem : List Byte) (o n : Nat) : overwrite mem o (slice mem o n) = mem := by
  unfold overwrite slice
  rcases Nat.le_total (mem.length - o) n with h | h
  · rw [List.take_of_length_le (l := mem.drop o) (by simpa using h)]
    simp only [List.length_drop]
    rw [List.drop_eq_nil_of_le (as := mem) (i := o + (mem.length - o)) (by omega), List.append_nil, List.take_append_drop]
  · rw [List.length_take, List.length_drop, Nat.min_eq_left h, ← List.drop_drop, List.take_append_drop, List.take_append_drop]

theorem overwrite_digest {mem : List Byte} {o n h : Nat} (d : List Byte) (hd : d.length = h) (hn : h ≤ n) (hb : o + n ≤ mem.length) :
    overwrite mem o (d ++ (slice mem o n).drop h) = overwrite mem o d := by
  unfold overwrite slice
  simp only [List.length_append, List.length_drop, List.length_take, hd]
  rw [List.append_assoc, List.drop_take, List.drop_drop]
  have : o + (h + (min n (mem.length - o) - h)) = (o + h) + (n - h) := by omega
  rw [this, ← List.drop_drop (l := mem) (i := n - h) (j := o + h), List.take_append_drop]

theorem overwrite_length {mem : List Byte} {o : Nat} {d : List Byte} (h : o + d.length ≤ mem.length) : (overwrite mem o d).length = mem.length := by
  simp [overwrite]; omega

theorem slice_overwrite {mem : List Byte} {o n : Nat} {d : List Byte} (hd : d.length = n) (h : o + n ≤ mem.length) : slice (overwrite mem o d) o n = d := by
  unfold slice overwrite
  rw [List.drop_left' (by simp; omega), List.take_left' hd]

theorem overwrite_overwrite {mem : List Byte} {o : Nat} {a b : List Byte} (hab : a.length = b.length) (h : o + a.length ≤ mem.length) :
    overwrite (overwrite mem o a) o b = overwrite mem o b := by
  unfold overwrite
  rw [List.take_left' (by simp; omega), ← hab, ← List.append_assoc (mem.take o) a, List.drop_left' (by simp; omega)]

theorem setRegion_some (s : St w) (o : Nat) (b : List Byte) : setRegion s (some o) (some b) = { s with caller := overwrite s.caller o b } := rfl

theorem setRegion_same (s : St w) (p : Option Nat) (n : Nat) : setRegion s p (region s p n) = s := by
  cases p with
  | none => rfl
  | some o => rw [region_some, setRegion_some, overwrite_slice]

theorem hInitialize_ok (L : Lawful A H enc) (env : Env w) (s : St w) (h : env.allocOk s.count = true) :
    ∃ c, hInitialize A env none s = .ok (1, some s.count, { s with count := s.count + 1, live := (s.count, .ctx c) :: s.live }) ∧ Rep A H H.iv [] c := by
  obtain ⟨c, e, hr⟩ := ctxInitialize_ok L (env.junkCtx s.count)
  exact ⟨c, by simp [hInitialize, h, e], hr⟩

theorem hInitialize_fail (A : Alg w) (env : Env w) (s : St w) (h : env.allocOk s.count = false) :
    hInitialize A env none s = .ok (-1, none, { s with count := s.count + 1 }) := by
  simp [hInitialize, h, ctxInitialize]

theorem ivLen (L : Lawful A H enc) : H.iv.length = A.nHash := by rw [← L.iv]; exact L.ivLen

theorem hUpdate_ok (L : Lawful A H enc) (u : Bool) (env : Env w) (hscr : ScrOk A env.scr) (s : St w) (p : Nat) (c : Ctx w) (rest : List (Nat × Obj w)) (m b : List Byte) (n : Nat)
    (hl : s.live = (p, .ctx c) :: rest) (hr : Rep A H H.iv m c) (hn : n ≤ ssizeMax) (hb : b.length = n) :
    ∃ c', hUpdate A u env (some p) (some b) n s = .ok (1, { s with live := (p, .ctx c') :: rest }) ∧ Rep A H H.iv (m ++ b) c' := by
  obtain ⟨c', e, hr'⟩ := ctxUpdate_ok L (ivLen L) u env.scr hscr c b n hn (by omega) hr
  rw [List.take_of_length_le (by omega)] at hr'
  exact ⟨c', by simp [hUpdate, hl, getKey, e, setKey], hr'⟩

theorem hUpdate_bad (A : Alg w) (u : Bool) (env : Env w) (s : St w) (p : Nat) (c : Ctx w) (rest : List (Nat × Obj w)) (buf : Option (List Byte)) (n : Nat)
    (hl : s.live = (p, .ctx c) :: rest) (hn : buf = none ∨ ssizeMax < n) :
    hUpdate A u env (some p) buf n s = .ok (-1, s) := by
  have hs : ({ s with live := (p, .ctx c) :: rest } : St w) = s := by rw [← hl]
  cases buf with
  | none => simp [hUpdate, hl, getKey, ctxUpdate, setKey, hs]
  | some b =>
    have hn : ssizeMax < n := by simpa using hn
    simp [hUpdate, hl, getKey, ctxUpdate, setKey, hn, hs]

theorem hFinalize_ok (L : Lawful A H enc) (u : Bool) (env : Env w) (hscr : ScrOk A env.scr) (s : St w) (p : Nat) (c : Ctx w) (rest : List (Nat × Obj w)) (m o : List Byte) (n : Nat)
    (hl : s.live = (p, .ctx c) :: rest) (hr : Rep A H H.iv m c) (hn : n ≤ ssizeMax) (hh : A.hashSize ≤ n) (hb : n ≤ o.length) :
    hFinalize A u env (some p) (some o) n s =
      .ok (1, some (H.digest m ++ o.drop A.hashSize), { s with live := (p, .ctx (zeroCtx A)) :: rest }) := by
  have e := ctxFinalize_ok L (ivLen L) u env.scr hscr c o n hn hh hb hr
  simp [hFinalize, hl, getKey, e, setKey, IterHash.digest]

theorem hFinalize_bad (A : Alg w) (u : Bool) (env : Env w) (s : St w) (p : Nat) (c : Ctx w) (rest : List (Nat × Obj w)) (o : Option (List Byte)) (n : Nat)
    (hl : s.live = (p, .ctx c) :: rest) (hn : o = none ∨ n < A.hashSize ∨ ssizeMax < n) :
    hFinalize A u env (some p) o n s = .ok (-1, o, s) := by
  have hs : ({ s with live := (p, .ctx c) :: rest } : St w) = s := by rw [← hl]
  cases o with
  | none => simp [hFinalize, hl, getKey, ctxFinalize, setKey, hs]
  | some b =>
    by_cases h1 : n < A.hashSize
    · simp [hFinalize, hl, getKey, ctxFinalize, setKey, h1, hs]
    · have h2 : ssizeMax < n := by simpa [h1] using hn
      simp [hFinalize, hl, getKey, ctxFinalize, setKey, h1, h2, hs]

theorem hFree_ok (s : St w) (p : Nat) (o : Obj w) (rest : List (Nat × Obj w)) (hl : s.live = (p, o) :: rest) :
    hFree (some p) s = .ok (1, none, { s with live := rest, freed := (p, o) :: s.freed }) := by
  simp [hFree, memFree, hl, getKey, eraseKey]

theorem digestLen (L : Lawful A H enc) (m : List Byte) : (H.digest m).length = A.hashSize :=
  L.outLen _ (chain_len L _ _ (ivLen L))

/-- The arguments with which `calculate` can succeed. -/
def CalcArgs (A : Alg w) (buffer : Option Nat) (size : Nat) (hash : Option Nat) (hashSize : Nat) : Prop :=
  buffer ≠ none ∧ size ≤ ssizeMax ∧ hash ≠ none ∧ A.hashSize ≤ hashSize ∧ hashSize ≤ ssizeMax

/-- `libhmac_*_calculate`. -/
theorem calculate_ok (L : Lawful A H enc) (u : Bool) (env : Env w) (hscr : ScrOk A env.scr) (buffer : Option Nat) (size : Nat) (hash : Option Nat) (hashSize : Nat) (s : St w)
    (hb : AreaOk s.caller buffer size) (hh : AreaOk s.caller hash hashSize) :
    (env.allocOk s.count = false ∧ calculate A u env buffer size hash hashSize s = .ok (-1, { s with count := s.count + 1 })) ∨
    (env.allocOk s.count = true ∧ ¬ CalcArgs A buffer size hash hashSize ∧ ∃ c, calculate A u env buffer size hash hashSize s =
      .ok (-1, { s with count := s.count + 1, freed := (s.count, .ctx c) :: s.freed })) ∨
    (env.allocOk s.count = true ∧ ∃ i o, buffer = some i ∧ size ≤ ssizeMax ∧ hash = some o ∧ A.hashSize ≤ hashSize ∧ hashSize ≤ ssizeMax ∧
      calculate A u env buffer size hash hashSize s = .ok (1, { s with
        count := s.count + 1, caller := overwrite s.caller o (H.digest (slice s.caller i size)), freed := (s.count, .ctx (zeroCtx A)) :: s.freed })) := by
  unfold calculate
  cases hal : env.allocOk s.count with
  | false =>
    left
    refine ⟨rfl, ?_⟩
    rw [hInitialize_fail A env s hal, Res.ok_bind]
    simp [calculateError]
  | true =>
    right
    obtain ⟨c, e, hr⟩ := hInitialize_ok L env s hal
    rw [e, Res.ok_bind]
    simp only [ne_eq, not_true_eq_false, if_false]
    by_cases hbad : region { s with count := s.count + 1, live := (s.count, .ctx c) :: s.live } buffer size = none ∨ ssizeMax < size
    · left
      refine ⟨trivial, ?_, c, ?_⟩
      · rintro ⟨h1, h2, -⟩
        rcases hbad with h | h
        · cases buffer with
          | none => exact h1 rfl
          | some i => cases h
        · omega
      · rw [hUpdate_bad A u env _ s.count c s.live _ _ rfl hbad, Res.ok_bind]
        simp only [calculateError]
        rw [hFree_ok _ _ (.ctx c) s.live rfl]
        rfl
    · cases buffer with
      | none => exact (hbad (Or.inl rfl)).elim
      | some i =>
        have hsz : size ≤ ssizeMax := by have := fun h => hbad (Or.inr h); omega
        have hlen : (slice s.caller i size).length = size := slice_length (hb i rfl hsz)
        obtain ⟨c', e', hr'⟩ := hUpdate_ok L u env hscr { s with count := s.count + 1, live := (s.count, .ctx c) :: s.live } s.count c s.live [] (slice s.caller i size) size
          rfl hr hsz hlen
        rw [region_some, e', Res.ok_bind]
        simp only [not_true_eq_false, if_false]
        by_cases hbad2 : region { s with count := s.count + 1, live := (s.count, .ctx c') :: s.live } hash hashSize = none ∨ hashSize < A.hashSize ∨ ssizeMax < hashSize
        · left
          refine ⟨trivial, ?_, c', ?_⟩
          · rintro ⟨-, -, h1, h2, h3⟩
            rcases hbad2 with h | h
            · cases hash with
              | none => exact h1 rfl
              | some i => cases h
            · omega
          · rw [hFinalize_bad A u env _ s.count c' s.live _ _ rfl hbad2, Res.ok_bind]
            simp only [setRegion_same]
            simp only [calculateError]
            rw [if_pos (by decide), hFree_ok _ _ (.ctx c') s.live rfl]
            rfl
        · right
          cases hash with
          | none => exact (hbad2 (Or.inl rfl)).elim
          | some o =>
            have hcond : A.hashSize ≤ hashSize ∧ hashSize ≤ ssizeMax := by
              have := fun h => hbad2 (Or.inr h)
              omega
            have hol := hh o rfl hcond.2
            refine ⟨trivial, i, o, rfl, hsz, rfl, hcond.1, hcond.2, ?_⟩
            rw [region_some, hFinalize_ok L u env hscr _ s.count c' s.live _ _ _ rfl hr' hcond.2 hcond.1 (by rw [slice_length hol]), Res.ok_bind]
            simp only [setRegion_some, List.nil_append]
            rw [if_neg (by decide), hFree_ok _ _ (.ctx (zeroCtx A)) s.live rfl]
            simp only [Res.ok_bind]
            rw [if_neg (by decide), overwrite_digest _ (digestLen L _) hcond.1 hol]
            rfl

end Model
