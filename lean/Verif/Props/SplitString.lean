import Verif.Proofs.SplitString
import Verif.Props.HandleBuildsRun
/-! C92: selecting digests and the memory it needs to read the list of names. -/

namespace Props

open Model Spec

variable {M : Type}

/-- C92, as a user would want it: selecting digests leaves nothing allocated that it needed only to read the list of names, if releasing such memory works. -/
def C92Statement : Prop := ∀ (M : Type) (T : Tool) (C : Contexts M) (mc : Bool) (c : SplitCalls) (string : List Nat) (h h' : Handle) (W W' : WorldOf M) (r : Int) (left : Bool), FreesAll c →
  Builds.setDigestTypesWith T C mc c string h W = .ok (r, h', W', left) → left = false

/-- What holds: nothing is left unless the list was split and then could not be read; if selecting succeeds, nothing is left however. Missing: the two `return( -1 )` between the split and the release. -/
theorem C92_released_partial (T : Tool) (C : Contexts M) (mc : Bool) (c : SplitCalls) (string : List Nat) (h h' : Handle) (W W' : WorldOf M) (r : Int) (left : Bool)
    (e : Builds.setDigestTypesWith T C mc c string h W = .ok (r, h', W', left)) : (FreesAll c → ¬ ReadBroken c (nameCount string) → left = false) ∧ (r = 0 → left = false) := by
  obtain ⟨r1, h1, W1, l1, e1, -, e3, -, e5⟩ := Builds.setDigestTypesWith_spec T C mc c string h W
  rw [e] at e1
  cases e1
  refine ⟨fun hf hb => ?_, e3⟩
  cases left with
  | false => rfl
  | true =>
    rcases e5 rfl with h | h
    · exact absurd h hb
    · exact absurd h (hf 0)

/-- C92. In those two cases the memory is always left, although nobody has a pointer to it any more. -/
theorem C92_left (T : Tool) (C : Contexts M) (mc : Bool) (c : SplitCalls) (string : List Nat) (h : Handle) (W : WorldOf M) (hb : ReadBroken c (nameCount string)) :
    Builds.setDigestTypesWith T C mc c string h W = .ok (-1, h, W, true) := by
  obtain ⟨r1, h1, W1, l1, e1, e2, e3, e4, -⟩ := Builds.setDigestTypesWith_spec T C mc c string h W
  have hl : ¬ ListRead c (nameCount string) := fun hr => by
    rcases hb.2 with h1 | ⟨i, hi, h1, -⟩
    · rw [hr.2.1] at h1; cases h1
    · rw [hr.2.2 i hi] at h1; cases h1
  simp only [Builds.setDigestTypes, hl, decide_false, Bool.not_false, if_true] at e2
  cases e2
  obtain rfl := e4 hb
  exact e1

/-- So the property does not hold: the number of names cannot be told, and the split string is left. -/
theorem C92_not_released : ¬ C92Statement := fun h => by
  have := h Mem tool0 (.builtin tool0) false ⟨true, false, fun _ => .found, fun _ => .done⟩ (codes "md5") handle0 _ world0 _ _ _ (fun _ => by simp)
    (C92_left tool0 (.builtin tool0) false ⟨true, false, fun _ => .found, fun _ => .done⟩ (codes "md5") handle0 world0 ⟨rfl, .inl rfl⟩)
  cases this

/-- C92. With the calls of libcsplit one by one selecting digests is what the other properties (C40, C49, C89, C90) say it is: `splitOk` stands for all calls that read the list, `splitFreeOk` for the one that releases it. -/
theorem C92_same (T : Tool) (C : Contexts M) (mc : Bool) (c : SplitCalls) (string : List Nat) (h : Handle) (W : WorldOf M) :
    ∃ r h' W' left, Builds.setDigestTypesWith T C mc c string h W = .ok (r, h', W', left) ∧
      Builds.setDigestTypes T C mc (decide (ListRead c (nameCount string))) (decide (c.free 0 = .done)) string h W = .ok (r, h', W') := by
  obtain ⟨r, h', W', left, e1, e2, -⟩ := Builds.setDigestTypesWith_spec T C mc c string h W
  exact ⟨r, h', W', left, e1, e2⟩

/-- C92. Any sequence of calls on a handle has the results and effects it has with the two Booleans. -/
theorem C92_histories_same (T : Tool) (C : Contexts M) : ∀ (calls : List (HandleOp × SplitCalls)) (slot : Option Handle) (W : WorldOf M),
    (Builds.splitRun T C calls slot W >>= fun x => pure (x.1, x.2.1, x.2.2.1)) = Builds.handleRun T C (calls.map plainOp) slot W
  | [], _, _ => rfl
  | (op, c) :: calls, slot, W => by
    have hs := (Builds.splitStep_spec T C op c slot W).1
    simp only [Builds.splitRun, List.map_cons, Builds.handleRun]
    rw [← hs]
    cases Builds.splitStep T C op c slot W with
    | ub => rfl
    | diverge => rfl
    | ok x =>
      obtain ⟨r, slot', W', n⟩ := x
      simp only [Res.ok_bind, Res.pure_eq]
      rw [← C92_histories_same T C calls slot' W']
      cases Builds.splitRun T C calls slot' W' <;> rfl

open Classical in
/-- C92. The split strings left by a sequence of calls on a handle: at most one for each call that selects digests from a list that could be split but not be read. Without such calls there are none. -/
theorem C92_histories_left (T : Tool) (C : Contexts M) : ∀ (calls : List (HandleOp × SplitCalls)) (slot : Option Handle) (W : WorldOf M) (rs : List Int) (slot' : Option Handle) (W' : WorldOf M) (n : Nat),
    (∀ x ∈ calls, FreesAll x.2) → Builds.splitRun T C calls slot W = .ok (rs, slot', W', n) → n ≤ calls.countP fun x => decide (Broken x)
  | [], _, _, _, _, _, _, _, e => by
    cases e
    simp
  | (op, c) :: calls, slot, W, rs, slot', W', n, hf, e => by
    simp only [Builds.splitRun] at e
    obtain ⟨⟨r1, s1, W1, n1⟩, e1, e⟩ := Res.bind_eq_ok e
    obtain ⟨⟨r2, s2, W2, n2⟩, e2, e⟩ := Res.bind_eq_ok e
    cases e
    have h2 := C92_histories_left T C calls s1 W1 r2 s2 W2 n2 (fun x hx => hf x (by simp [hx])) e2
    obtain ⟨h3, h4, -⟩ := (Builds.splitStep_spec T C op c slot W).2 _ _ _ _ e1
    dsimp only
    rw [List.countP_cons]
    by_cases hb : Broken (op, c)
    · rw [if_pos (by simpa using hb)]
      omega
    · have : n1 = 0 := by
        by_contra hn
        rcases (h4 (by omega)).2 with h | h
        · exact hb h
        · exact hf (op, c) (by simp) 0 h
      omega

theorem handle_stays (T : Tool) (C : Contexts M) (op : HandleOp) (c : SplitCalls) (hop : ∀ b, op ≠ .free b) (h : Handle) (W W' : WorldOf M) (r : Int) (slot' : Option Handle) (n : Nat)
    (e : Builds.splitStep T C op c (some h) W = .ok (r, slot', W', n)) : slot'.isSome = true := by
  have hs := (Builds.splitStep_spec T C op c (some h) W).1
  rw [e, Res.ok_bind, Res.pure_eq] at hs
  cases op with
  | free b => exact absurd rfl (hop b)
  | init =>
    simp only [plainOp, Builds.handleStep, Builds.sumInitialize] at hs
    cases hs
    rfl
  | abort => cases hs; rfl
  | «open» ok => cases hs; rfl
  | close ok => cases hs; rfl
  | process inp ab =>
    obtain ⟨x, -, e⟩ := Res.bind_eq_ok hs.symm
    cases e
    rfl
  | digests mc a b str =>
    obtain ⟨x, -, e⟩ := Res.bind_eq_ok hs.symm
    cases e
    rfl
  | bufferSize v dp str =>
    obtain ⟨x, -, e⟩ := Res.bind_eq_ok hs.symm
    cases e
    rfl
  | print =>
    obtain ⟨x, -, e⟩ := Res.bind_eq_ok hs.symm
    cases e
    rfl

open Classical in
/-- C92. On a handle that exists and is not freed meanwhile, exactly one is left for each such call. -/
theorem C92_histories_exact (T : Tool) (C : Contexts M) : ∀ (calls : List (HandleOp × SplitCalls)) (h : Handle) (W : WorldOf M) (rs : List Int) (slot' : Option Handle) (W' : WorldOf M) (n : Nat),
    (∀ x ∈ calls, FreesAll x.2 ∧ ∀ b, x.1 ≠ .free b) → Builds.splitRun T C calls (some h) W = .ok (rs, slot', W', n) → n = calls.countP fun x => decide (Broken x)
  | [], _, _, _, _, _, _, _, e => by
    cases e
    simp
  | (op, c) :: calls, h, W, rs, slot', W', n, hf, e => by
    simp only [Builds.splitRun] at e
    obtain ⟨⟨r1, s1, W1, n1⟩, e1, e⟩ := Res.bind_eq_ok e
    obtain ⟨⟨r2, s2, W2, n2⟩, e2, e⟩ := Res.bind_eq_ok e
    cases e
    obtain ⟨h', rfl⟩ := Option.isSome_iff_exists.mp (handle_stays T C op c (hf (op, c) (by simp)).2 h W W1 r1 s1 n1 e1)
    have h2 := C92_histories_exact T C calls h' W1 r2 s2 W2 n2 (fun x hx => hf x (by simp [hx])) e2
    obtain ⟨-, h4, h5⟩ := (Builds.splitStep_spec T C op c (some h) W).2 _ _ _ _ e1
    dsimp only
    rw [List.countP_cons]
    by_cases hb : Broken (op, c)
    · rw [if_pos (by simpa using hb), h5 rfl hb]
      omega
    · have : n1 = 0 := by
        by_contra hn
        rcases (h4 (by omega)).2 with h | h
        · exact hb h
        · exact (hf (op, c) (by simp)).1 0 h
      rw [if_neg (by simpa using hb)]
      omega

/-- C92. In every build and on every host any sequence of calls that does not print runs to its end without undefined behaviour, whatever calls of libcsplit fail, and with libcsplit working it leaves no split string. -/
theorem C92_no_ub {hb : Nat} {ch : Kind → Choice} {L : Kind → Library} (hL : Correct ch L) (h1 : 17 ≤ hb) (h2 : hb ≤ 64) (T : Tool) (hT : T.Ok) (calls : List (HandleOp × SplitCalls)) (hv : ∀ x ∈ calls, x.1.Valid)
    (hp : ∀ x ∈ calls, x.1 ≠ .print) (W : WorldOf (MixedMem L)) :
    ∃ rs slot' W' n, Builds.splitRun T (.mixedHost hb ch L T) calls none W = .ok (rs, slot', W', n) ∧ rs.length = calls.length ∧ ((∀ x ∈ calls, FreesAll x.2 ∧ ¬ Broken x) → n = 0) := by
  obtain ⟨rs, slot', W', e, hlen⟩ := C90_no_ub hL h1 h2 T hT (calls.map plainOp) (fun op ho => by
    obtain ⟨⟨op', c⟩, hx, rfl⟩ := List.mem_map.mp ho
    have := hv _ hx
    cases op' <;> exact this) (fun ho => by
    obtain ⟨⟨op', c⟩, hx, he⟩ := List.mem_map.mp ho
    have := hp _ hx
    cases op' <;> first | (exact absurd rfl this) | (cases he)) W
  rw [← C92_histories_same] at e
  obtain ⟨⟨rs1, s1, W1, n⟩, e1, e⟩ := Res.bind_eq_ok e
  cases e
  refine ⟨_, _, _, n, e1, by simpa using hlen, fun hc => ?_⟩
  classical
  have := C92_histories_left T _ calls none W _ _ _ n (fun x hx => (hc x hx).1) e1
  rw [List.countP_eq_zero.mpr fun x hx => by simpa using (hc x hx).2] at this
  omega

/-! ### Examples -/

/-- A library that works, one that fails at the second name, and one that gives a NULL pointer for it. -/
def split0 : SplitCalls := ⟨true, true, fun _ => .found, fun _ => .done⟩
def splitFails : SplitCalls := ⟨true, true, fun i => if i = 1 then .fails else .found, fun _ => .done⟩
def splitNull : SplitCalls := ⟨true, true, fun i => if i = 1 then .null else .found, fun _ => .done⟩

theorem splitNull_broken : ReadBroken splitNull (nameCount (codes "md5,sha1")) := ⟨rfl, .inr ⟨1, by decide, rfl, fun j hj => by simp [splitNull]; omega⟩⟩

example : Builds.setDigestTypesWith tool0 (.builtin tool0) false splitNull (codes "md5,sha1") handle0 world0 = .ok (-1, handle0, world0, true) := C92_left _ _ _ _ _ _ _ splitNull_broken

/-- C92_released_partial: the second name cannot be retrieved. -/
example : ∃ h' W', Builds.setDigestTypesWith tool0 (.builtin tool0) false splitFails (codes "md5,sha1") handle0 world0 = .ok (-1, h', W', false) := by
  have e : ∃ h' W' l, Builds.setDigestTypesWith tool0 (.builtin tool0) false splitFails (codes "md5,sha1") handle0 world0 = .ok (-1, h', W', l) := ⟨_, _, _, rfl⟩
  obtain ⟨h', W', l, e⟩ := e
  obtain rfl := (C92_released_partial _ _ _ _ _ _ _ _ _ _ _ e).1 (fun n => by simp [splitFails]) (fun hb => by
    rcases hb.2 with h | ⟨i, hi, h, -⟩
    · cases h
    · simp only [splitFails] at h
      split at h <;> cases h)
  exact ⟨h', W', e⟩

/-- C92_no_ub and C92_histories_left: a handle on which digests are selected twice, the second time with a NULL pointer. -/
example : ∃ rs slot' W' n, Builds.splitRun tool0 (.mixedHost 32 choice0 failingLibrary tool0) [(.init, split0), (.digests false true true (codes "sha256"), split0), (.digests false true true (codes "md5,sha1"), splitNull)] none
    (mixed0 _) = .ok (rs, slot', W', n) ∧ rs.length = 3 ∧ n ≤ 1 := by
  obtain ⟨rs, slot', W', n, e, h, -⟩ := C92_no_ub (hb := 32) failing_correct (by decide) (by decide) tool0 tool0_ok
    [(.init, split0), (.digests false true true (codes "sha256"), split0), (.digests false true true (codes "md5,sha1"), splitNull)] (by simp [HandleOp.Valid]) (by simp) (mixed0 _)
  refine ⟨rs, slot', W', n, e, h, ?_⟩
  classical
  refine Nat.le_trans (C92_histories_left _ _ _ _ _ _ _ _ n (fun x hx => ?_) e) ?_
  · simp only [List.mem_cons, List.not_mem_nil, or_false] at hx
    rcases hx with rfl | rfl | rfl <;> exact fun n => by simp [split0, splitNull]
  · have h0 : ¬ Broken (.init, split0) := fun h => h
    have h1 : ¬ Broken (.digests false true true (codes "sha256"), split0) := fun hb => by
      rcases hb.2 with h | ⟨i, hi, h, -⟩ <;> cases h
    simp only [List.countP_cons, List.countP_nil, h0, h1, decide_false, Bool.false_eq_true, if_false]
    split <;> omega

/-- C92_histories_exact: the NULL pointer leaves one split string. -/
example : ∃ rs slot' W', Builds.splitRun tool0 (.builtin tool0) [(.digests false true true (codes "md5,sha1"), splitNull), (.abort, split0)] (some handle0) world0 = .ok (rs, slot', W', 1) := by
  have e : ∃ rs slot' W' n, Builds.splitRun tool0 (.builtin tool0) [(.digests false true true (codes "md5,sha1"), splitNull), (.abort, split0)] (some handle0) world0 = .ok (rs, slot', W', n) := ⟨_, _, _, _, rfl⟩
  obtain ⟨rs, slot', W', n, e⟩ := e
  have hn := C92_histories_exact _ _ _ _ _ _ _ _ n (fun x hx => by
    simp only [List.mem_cons, List.not_mem_nil, or_false] at hx
    rcases hx with rfl | rfl <;> exact ⟨fun n => by simp [split0, splitNull], fun b => by simp⟩) e
  have h0 : ¬ Broken (.abort, split0) := fun h => h
  have h1 : Broken (.digests false true true (codes "md5,sha1"), splitNull) := splitNull_broken
  simp only [List.countP_cons, List.countP_nil, h0, h1, decide_true, decide_false, Bool.false_eq_true, if_false, if_true] at hn
  subst hn
  exact ⟨rs, slot', W', e⟩

/-- C92_same, for a library that fails. -/
example := C92_same tool0 (.builtin tool0) false splitFails (codes "md5,sha1") handle0 world0

end Props
