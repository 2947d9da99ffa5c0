import Verif.Proofs.Basic
import Verif.Model.Getopt
import Verif.Spec.Getopt
/-! The option parser. -/

namespace Model

open Spec

theorem findChar_append (c : Nat) (hc : c ≠ 0) : ∀ s : List Nat, findChar c (s ++ [0]) = findChar c s
  | [] => by simp [findChar, Ne.symm hc]
  | x :: s => by simp [findChar, findChar_append c hc s]

theorem searchChar_eq (mc : Bool) (opts : List Nat) (c : Nat) (hc : c ≠ 0) : searchChar mc opts c = findChar c opts := by
  cases mc <;> simp [searchChar, findChar_append c hc]

theorem findChar_none (c : Nat) (hc : c ≠ 58) : ∀ opts : List Nat, optionKind opts c = none → findChar c opts = none
  | [], _ => rfl
  | x :: t, h => by
    by_cases hx : x = c
    · simp [optionKind, hx, hc] at h
    · have : optionKind t c = none := by simpa [optionKind, hx] using h
      simp [findChar, hx, findChar_none c hc t this]

theorem findChar_some (c : Nat) (hc : c ≠ 58) : ∀ (opts : List Nat) (b : Bool), optionKind opts c = some b →
    ∃ i v, findChar c opts = some i ∧ rd (opts ++ [0]) (i + 1) = .ok v ∧ (v = 58 ↔ b = true)
  | [], b, h => by cases h
  | x :: t, b, h => by
    by_cases hx : x = c
    · have hb : (t.head? == some 58) = b := by simpa [optionKind, hx, hc] using h
      cases t with
      | nil =>
        refine ⟨0, 0, by simp [findChar, hx], rfl, ?_⟩
        rw [← hb]
        decide
      | cons y t =>
        refine ⟨0, y, by simp [findChar, hx], rfl, ?_⟩
        rw [← hb]
        simp
    · have : optionKind t c = some b := by simpa [optionKind, hx] using h
      obtain ⟨i, v, h1, h2, h3⟩ := findChar_some c hc t b this
      exact ⟨i + 1, v, by simp [findChar, hx, h1], by rw [List.cons_append, rd_cons_succ]; exact h2, h3⟩

theorem optionKind_colon : ∀ opts : List Nat, optionKind opts 58 = none
  | [] => rfl
  | x :: t => by simp [optionKind, optionKind_colon t]

/-- One option character, given it and its successor. -/
theorem getoptChar_eq (mc : Bool) (args : List (List Nat)) (opts : List Nat) (p : Nat × Nat) (s : OptState) (c d : Nat) (h1 : readChar args p = .ok c)
    (h2 : readChar args (p.1, p.2 + 1) = .ok d) (hc : c ≠ 0) : getoptChar mc args opts p s =
      .ok (match optionKind opts c with
        | none => (some 63, if d = 0 then { s with optind := s.optind + 1 } else s)
        | some false => (some c, if d = 0 then { s with optarg := none, optind := s.optind + 1 } else { s with optarg := none, next := some (p.1, p.2 + 1) })
        | some true =>
          if d ≠ 0 then (some c, { s with optarg := some (p.1, p.2 + 1), optind := s.optind + 1 })
          else if args.length ≤ s.optind + 1 then (some 58, { s with optind := s.optind + 1 })
          else (some c, { s with optarg := some (s.optind + 1, 0), optind := s.optind + 2 })) := by
  unfold getoptChar
  simp only [h1, Res.ok_bind]
  by_cases h58 : c = 58
  · subst h58
    simp only [if_true, h2, Res.ok_bind, optionKind_colon, Res.pure_eq]
  · simp only [if_neg h58, searchChar_eq mc opts c hc]
    cases hk : optionKind opts c with
    | none => simp only [findChar_none c h58 opts hk, h2, Res.ok_bind, Res.pure_eq]
    | some b =>
      obtain ⟨i, v, e1, e2, e3⟩ := findChar_some c h58 opts b hk
      simp only [e1, e2, h2, Res.ok_bind, Res.pure_eq]
      cases b with
      | false => simp only [ne_eq, e3, Bool.false_eq_true, not_false_eq_true, if_true]
      | true =>
        simp only [ne_eq, e3, not_true_eq_false, if_false]
        split
        · rfl
        · split <;> rfl

/-- The argument vector as the program gets it: every string with its terminator. -/
def argVector (bodies : List (List Nat)) : List (List Nat) := bodies.map (· ++ [0])

theorem readChar_body (bodies : List (List Nat)) (i j : Nat) (body : List Nat) (h : bodies[i]? = some body) (hj : j ≤ body.length) :
    readChar (argVector bodies) (i, j) = .ok (body[j]?.getD 0) := by
  have h1 : rd (argVector bodies) i = .ok (body ++ [0]) := rd_eq_ok (by simp [argVector, h])
  simp only [readChar, h1, Res.ok_bind]
  refine rd_eq_ok ?_
  rcases Nat.lt_or_eq_of_le hj with hj | hj
  · simp [List.getElem?_append_left hj, hj]
  · subst hj
    simp

theorem readChar_at (bodies : List (List Nat)) (i : Nat) (done : List Nat) (c : Nat) (t : List Nat) (h : bodies[i]? = some (done ++ c :: t)) :
    readChar (argVector bodies) (i, done.length) = .ok c ∧ readChar (argVector bodies) (i, done.length + 1) = .ok (t.head?.getD 0) := by
  constructor
  · rw [readChar_body bodies i _ _ h (by simp)]
    simp
  · rw [readChar_body bodies i _ _ h (by simp)]
    cases t <;> simp

theorem argString_body (bodies : List (List Nat)) (i j : Nat) (body : List Nat) (h : bodies[i]? = some body) (hj : j ≤ body.length) (h0 : 0 ∉ body.drop j) :
    argString (argVector bodies) (some (i, j)) = .ok (some (body.drop j)) := by
  have h1 : rd (argVector bodies) i = .ok (body ++ [0]) := rd_eq_ok (by simp [argVector, h])
  have hlt : j < (body ++ [0]).length := by simp; omega
  simp only [argString, h1, Res.ok_bind, if_pos hlt, Res.pure_eq]
  rw [List.drop_append_of_le_length hj, List.takeWhile_append_of_pos (fun x hx => by simpa using fun (e : x = 0) => h0 (e ▸ hx))]
  simp

/-- Steps of the parser: options returned with the string of their argument. -/
inductive OptSteps (mc : Bool) (args : List (List Nat)) (opts : List Nat) : OptState → List (Nat × Option (List Nat)) → OptState → Prop
  | nil (s) : OptSteps mc args opts s [] s
  | cons {s s1 s2 c a os} (h : getopt mc args opts s = .ok (some c, s1)) (ha : argString args s1.optarg = .ok a) (hs : OptSteps mc args opts s1 os s2) :
      OptSteps mc args opts s ((c, a) :: os) s2

theorem OptSteps.trans {mc args opts s s1 s2 os os'} (h1 : OptSteps mc args opts s os s1) (h2 : OptSteps mc args opts s1 os' s2) : OptSteps mc args opts s (os ++ os') s2 := by
  induction h1 with
  | nil => exact h2
  | cons h ha _ ih => exact .cons h ha (ih h2)

/-- The parser is about to look at the character `off` of argument `i`. -/
def Inside (mc : Bool) (args : List (List Nat)) (opts : List Nat) (i off : Nat) (s : OptState) : Prop :=
  ∃ oa, getopt mc args opts s = getoptChar mc args opts (i, off) ⟨i, oa, none⟩

theorem flags_steps (mc : Bool) (opts : List Nat) (bodies : List (List Nat)) (i : Nat) (x : Nat) (tail : List Nat) (hx : x ≠ 0) :
    ∀ (flags done : List Nat) (s : OptState), bodies[i]? = some (done ++ flags ++ x :: tail) → (∀ f ∈ flags, optionKind opts f = some false ∧ f ≠ 0) →
      Inside mc (argVector bodies) opts i done.length s →
      ∃ s', OptSteps mc (argVector bodies) opts s (flags.map fun f => (f, none)) s' ∧ Inside mc (argVector bodies) opts i (done ++ flags).length s'
  | [], done, s, _, _, hi => ⟨s, .nil s, by simpa using hi⟩
  | f :: flags, done, s, hb, hf, hi => by
    obtain ⟨oa, hi⟩ := hi
    obtain ⟨hk, hf0⟩ := hf f (by simp)
    have h1 := readChar_body bodies i done.length _ hb (by simp)
    have h2 := readChar_body bodies i (done.length + 1) _ hb (by simp)
    obtain ⟨d, hd, hd0⟩ : ∃ d, (done ++ (f :: flags) ++ x :: tail)[done.length + 1]?.getD 0 = d ∧ d ≠ 0 := by
      refine ⟨_, rfl, ?_⟩
      cases flags with
      | nil => simpa using hx
      | cons y t =>
        have := (hf y (by simp)).2
        simpa using this
    rw [hd] at h2
    have hc : (done ++ (f :: flags) ++ x :: tail)[done.length]?.getD 0 = f := by simp
    rw [hc] at h1
    have e := getoptChar_eq mc (argVector bodies) opts (i, done.length) ⟨i, oa, none⟩ f d h1 h2 hf0
    simp only [hk, if_neg hd0] at e
    obtain ⟨s', h3, h4⟩ := flags_steps mc opts bodies i x tail hx flags (done ++ [f]) ⟨i, none, some (i, done.length + 1)⟩ (by simpa using hb) (fun g hg => hf g (by simp [hg]))
      ⟨none, by simp [getopt]⟩
    exact ⟨s', .cons (hi.trans e) rfl h3, by simpa using h4⟩

theorem inside_start (mc : Bool) (opts : List Nat) (bodies : List (List Nat)) (i : Nat) (y : Nat) (t : List Nat) (oa : Option (Nat × Nat)) (hb : bodies[i]? = some (45 :: y :: t)) (hy : y ≠ 45) :
    Inside mc (argVector bodies) opts i 1 ⟨i, oa, none⟩ := by
  have hlt : ¬ (argVector bodies).length ≤ i := by
    obtain ⟨h, -⟩ := List.getElem?_eq_some_iff.mp hb
    simpa [argVector] using h
  have h0 := readChar_body bodies i 0 _ hb (by simp)
  have h1 := readChar_body bodies i 1 _ hb (by simp)
  refine ⟨oa, ?_⟩
  simp only [getopt, if_neg hlt, h0, h1, Res.ok_bind]
  simp [hy]

/-- The options of a group, one after the other. -/
theorem group_steps (mc : Bool) (opts : List Nat) (pre post : List (List Nat)) (g : OptGroup) (hg : g.Ok opts) (oa : Option (Nat × Nat)) :
    ∃ oa', OptSteps mc (argVector (pre ++ (g.args ++ post))) opts ⟨pre.length, oa, none⟩ g.options ⟨(pre ++ g.args).length, oa', none⟩ := by
  obtain ⟨flags, last⟩ := g
  obtain ⟨hne, hflags, hlast⟩ := hg
  simp only at hne hflags hlast
  -- the first option character is not '-'
  have start : ∀ (fs : List Nat) (x : Nat) (tail : List Nat) (bodies : List (List Nat)), bodies[pre.length]? = some (45 :: (fs ++ x :: tail)) → x ≠ 45 → (∀ f ∈ fs, f ≠ 45) →
      Inside mc (argVector bodies) opts pre.length 1 ⟨pre.length, oa, none⟩ := by
    intro fs x tail bodies hb hx hfs
    cases fs with
    | nil => exact inside_start mc opts bodies pre.length x tail oa hb hx
    | cons f fs => exact inside_start mc opts bodies pre.length f (fs ++ x :: tail) oa hb (hfs f (by simp))
  cases last with
  | none =>
    obtain ⟨fs, f, rfl⟩ : ∃ fs f, flags = fs ++ [f] := ⟨flags.dropLast, flags.getLast (by simpa using hne), (List.dropLast_concat_getLast _).symm⟩
    obtain ⟨hk, hf0, hf45⟩ := hflags f (by simp)
    obtain ⟨bodies, hbs⟩ : ∃ bodies, bodies = pre ++ ([45 :: (fs ++ [f])] ++ post) := ⟨_, rfl⟩
    have hb : bodies[pre.length]? = some (45 :: (fs ++ [f])) := by rw [hbs]; simp
    obtain ⟨s', h3, oa', h4⟩ := flags_steps mc opts bodies pre.length f [] hf0 fs [45] ⟨pre.length, oa, none⟩ hb
      (fun g hg => ⟨(hflags g (by simp [hg])).1, (hflags g (by simp [hg])).2.1⟩) (start fs f [] bodies hb hf45 fun g hg => (hflags g (by simp [hg])).2.2)
    obtain ⟨h1, h2⟩ := readChar_at bodies pre.length ([45] ++ fs) f [] hb
    simp only [List.head?_nil, Option.getD_none] at h2
    have e := getoptChar_eq mc (argVector bodies) opts (pre.length, ([45] ++ fs).length) ⟨pre.length, oa', none⟩ f 0 h1 h2 hf0
    simp only [hk, if_true] at e
    refine ⟨none, ?_⟩
    have := h3.trans (.cons (h4.trans e) rfl (.nil _))
    simp only [OptGroup.args, OptGroup.options, ← hbs]
    simpa using this
  | some l =>
    obtain ⟨o, v, a⟩ := l
    obtain ⟨hk, ho0, ho45, hv0, hva⟩ := hlast o v a rfl
    cases a with
    | true =>
      obtain ⟨bodies, hbs⟩ : ∃ bodies, bodies = pre ++ ([45 :: (flags ++ o :: v)] ++ post) := ⟨_, rfl⟩
      have hb : bodies[pre.length]? = some (45 :: (flags ++ o :: v)) := by rw [hbs]; simp
      obtain ⟨s', h3, oa', h4⟩ := flags_steps mc opts bodies pre.length o v ho0 flags [45] ⟨pre.length, oa, none⟩ hb
        (fun g hg => ⟨(hflags g hg).1, (hflags g hg).2.1⟩) (start flags o v bodies hb ho45 fun g hg => (hflags g hg).2.2)
      obtain ⟨d, t, rfl⟩ : ∃ d t, v = d :: t := List.exists_cons_of_ne_nil (hva rfl)
      have hd0 : d ≠ 0 := fun h => hv0 (by simp [h])
      obtain ⟨h1, h2⟩ := readChar_at bodies pre.length ([45] ++ flags) o (d :: t) hb
      simp only [List.head?_cons, Option.getD_some] at h2
      have e := getoptChar_eq mc (argVector bodies) opts (pre.length, ([45] ++ flags).length) ⟨pre.length, oa', none⟩ o d h1 h2 ho0
      simp only [hk, ne_eq, hd0, not_false_eq_true, if_true] at e
      have ha := argString_body bodies pre.length (([45] ++ flags).length + 1) _ hb (by simp)
      have hdr : (45 :: (flags ++ o :: d :: t)).drop (([45] ++ flags).length + 1) = d :: t := by simp [List.drop_append]
      rw [hdr] at ha
      refine ⟨some (pre.length, ([45] ++ flags).length + 1), ?_⟩
      have := h3.trans (.cons (h4.trans e) (ha hv0) (.nil _))
      simp only [OptGroup.args, OptGroup.options, ← hbs]
      simpa using this
    | false =>
      obtain ⟨bodies, hbs⟩ : ∃ bodies, bodies = pre ++ ([45 :: (flags ++ [o]), v] ++ post) := ⟨_, rfl⟩
      have hb : bodies[pre.length]? = some (45 :: (flags ++ [o])) := by rw [hbs]; simp
      have hb' : bodies[pre.length + 1]? = some v := by rw [hbs]; simp
      obtain ⟨s', h3, oa', h4⟩ := flags_steps mc opts bodies pre.length o [] ho0 flags [45] ⟨pre.length, oa, none⟩ hb
        (fun g hg => ⟨(hflags g hg).1, (hflags g hg).2.1⟩) (start flags o [] bodies hb ho45 fun g hg => (hflags g hg).2.2)
      obtain ⟨h1, h2⟩ := readChar_at bodies pre.length ([45] ++ flags) o [] hb
      simp only [List.head?_nil, Option.getD_none] at h2
      have e := getoptChar_eq mc (argVector bodies) opts (pre.length, ([45] ++ flags).length) ⟨pre.length, oa', none⟩ o 0 h1 h2 ho0
      have hlt : ¬ (argVector bodies).length ≤ pre.length + 1 := by
        obtain ⟨h, -⟩ := List.getElem?_eq_some_iff.mp hb'
        simpa [argVector] using h
      simp only [hk, ne_eq, not_true_eq_false, if_false, if_neg hlt] at e
      have ha := argString_body bodies (pre.length + 1) 0 _ hb' (by simp) (by simpa using hv0)
      refine ⟨some (pre.length + 1, 0), ?_⟩
      have := h3.trans (.cons (h4.trans e) ha (.nil _))
      simp only [OptGroup.args, OptGroup.options, ← hbs]
      simpa using this

/-- All groups. -/
theorem groups_steps (mc : Bool) (opts : List Nat) (post : List (List Nat)) : ∀ (groups : List OptGroup) (pre : List (List Nat)) (oa : Option (Nat × Nat)), (∀ g ∈ groups, g.Ok opts) →
    ∃ oa', OptSteps mc (argVector (pre ++ (groups.flatMap OptGroup.args ++ post))) opts ⟨pre.length, oa, none⟩ (groups.flatMap OptGroup.options)
      ⟨(pre ++ groups.flatMap OptGroup.args).length, oa', none⟩
  | [], pre, oa, _ => ⟨oa, by simpa using .nil _⟩
  | g :: groups, pre, oa, h => by
    obtain ⟨oa1, h1⟩ := group_steps mc opts pre (groups.flatMap OptGroup.args ++ post) g (h g (by simp)) oa
    obtain ⟨oa2, h2⟩ := groups_steps mc opts post groups (pre ++ g.args) oa1 (fun g' hg' => h g' (by simp [hg']))
    refine ⟨oa2, ?_⟩
    have := h1.trans (by simpa using h2)
    simpa using this

/-- An argument of known flags followed by an option that is unknown or lacks its argument. -/
theorem bad_steps (mc : Bool) (opts : List Nat) (pre post : List (List Nat)) (flags : List Nat) (x : Nat) (tail : List Nat) (hflags : ∀ f ∈ flags, optionKind opts f = some false ∧ f ≠ 0 ∧ f ≠ 45)
    (hx0 : x ≠ 0) (hx45 : x ≠ 45) (h0 : 0 ∉ tail) (hx : optionKind opts x = none ∨ optionKind opts x = some true ∧ tail = [] ∧ post = []) (oa : Option (Nat × Nat)) :
    ∃ s1 s2, OptSteps mc (argVector (pre ++ ((45 :: (flags ++ x :: tail)) :: post))) opts ⟨pre.length, oa, none⟩ (flags.map fun f => (f, none)) s1 ∧
      getopt mc (argVector (pre ++ ((45 :: (flags ++ x :: tail)) :: post))) opts s1 = .ok (some (if optionKind opts x = none then 63 else 58), s2) ∧ pre.length ≤ s2.optind ∧ s2.optind ≤ pre.length + 1 ∧
      s2.optind = if tail = [] then pre.length + 1 else pre.length := by
  obtain ⟨bodies, hbs⟩ : ∃ bodies, bodies = pre ++ ((45 :: (flags ++ x :: tail)) :: post) := ⟨_, rfl⟩
  have hb : bodies[pre.length]? = some (45 :: (flags ++ x :: tail)) := by rw [hbs]; simp
  rw [← hbs]
  have start : Inside mc (argVector bodies) opts pre.length 1 ⟨pre.length, oa, none⟩ := by
    cases flags with
    | nil => exact inside_start mc opts bodies pre.length x tail oa hb hx45
    | cons f fs => exact inside_start mc opts bodies pre.length f (fs ++ x :: tail) oa hb (hflags f (by simp)).2.2
  obtain ⟨s', h3, oa', h4⟩ := flags_steps mc opts bodies pre.length x tail hx0 flags [45] ⟨pre.length, oa, none⟩ hb (fun g hg => ⟨(hflags g hg).1, (hflags g hg).2.1⟩) start
  obtain ⟨h1, h2⟩ := readChar_at bodies pre.length ([45] ++ flags) x tail hb
  have e := getoptChar_eq mc (argVector bodies) opts (pre.length, ([45] ++ flags).length) ⟨pre.length, oa', none⟩ x _ h1 h2 hx0
  rcases hx with hk | ⟨hk, rfl, rfl⟩
  · simp only [hk] at e
    have hg := h4.trans e
    refine ⟨s', _, h3, by rw [hg, if_pos hk], ?_⟩
    cases tail with
    | nil => simp
    | cons y t =>
      have hy : y ≠ 0 := fun h => h0 (by simp [h])
      simp [hy]
  · have hlen : (argVector bodies).length ≤ pre.length + 1 := by rw [hbs]; simp [argVector]
    simp only [hk, List.head?_nil, Option.getD_none, ne_eq, not_true_eq_false, if_false, if_pos hlen] at e
    have hg := h4.trans e
    refine ⟨s', ⟨pre.length + 1, oa', none⟩, h3, ?_, by simp, by simp, by simp⟩
    rw [hg, if_neg (by simp [hk])]

/-- At the first operand the parser stops. -/
theorem getopt_operands (mc : Bool) (opts : List Nat) (pre rest : List (List Nat)) (oa : Option (Nat × Nat)) (h : Operands rest) :
    getopt mc (argVector (pre ++ rest)) opts ⟨pre.length, oa, none⟩ = .ok (none, ⟨pre.length, oa, none⟩) := by
  cases rest with
  | nil => simp [getopt, argVector]
  | cons a rest =>
    have hb : (pre ++ a :: rest)[pre.length]? = some a := by simp
    have h0 := readChar_body (pre ++ a :: rest) pre.length 0 a hb (by simp)
    have hlt : ¬ (argVector (pre ++ a :: rest)).length ≤ pre.length := by simp [argVector]
    have h45 : a[0]?.getD 0 ≠ 45 := by
      have := h a rfl
      cases a with
      | nil => simp
      | cons x t => simpa using this
    simp only [getopt, if_neg hlt, h0, Res.ok_bind, ne_eq, h45, not_false_eq_true, if_true, Res.pure_eq]

/-- At an argument that begins with "--" the parser stops behind it. -/
theorem getopt_dashes (mc : Bool) (opts : List Nat) (pre rest : List (List Nat)) (t : List Nat) (oa : Option (Nat × Nat)) :
    getopt mc (argVector (pre ++ (45 :: 45 :: t) :: rest)) opts ⟨pre.length, oa, none⟩ = .ok (none, ⟨pre.length + 1, oa, none⟩) := by
  have hb : (pre ++ (45 :: 45 :: t) :: rest)[pre.length]? = some (45 :: 45 :: t) := by simp
  have h0 := readChar_body (pre ++ (45 :: 45 :: t) :: rest) pre.length 0 _ hb (by simp)
  have h1 := readChar_body (pre ++ (45 :: 45 :: t) :: rest) pre.length 1 _ hb (by simp)
  have hlt : ¬ (argVector (pre ++ (45 :: 45 :: t) :: rest)).length ≤ pre.length := by simp [argVector]
  simp only [getopt, if_neg hlt, h0, h1, Res.ok_bind]
  simp

theorem collect_steps {mc args opts s os s1 s2} (h : OptSteps mc args opts s os s1) (hend : getopt mc args opts s1 = .ok (none, s2)) (hos : ∀ o ∈ os, o.1 ≠ 63 ∧ o.1 ≠ 58) (extra : Nat) :
    collect mc args opts (os.length + 1 + extra) s = .ok (os, s2) := by
  induction h with
  | nil s => simp [collect, hend, Nat.add_comm]
  | @cons s s1 s3 c a os h ha _ ih =>
    have hc := hos (c, a) (by simp)
    have := ih hend (fun o ho => hos o (by simp [ho]))
    simp only at hc
    rw [List.length_cons, show os.length + 1 + 1 + extra = (os.length + 1 + extra) + 1 by omega, collect]
    simp only [h, Res.ok_bind, hc.1, hc.2, or_self, if_false, ha, this, Res.pure_eq]

/-! ### All argument vectors -/

/-- What is left from argument `i` on, counted in characters and terminators. -/
def remaining (bodies : List (List Nat)) (i : Nat) : Nat := ((bodies.drop i).map fun b => b.length + 1).sum

theorem remaining_step (bodies : List (List Nat)) (i : Nat) (body : List Nat) (h : bodies[i]? = some body) : remaining bodies i = body.length + 1 + remaining bodies (i + 1) := by
  obtain ⟨hi, rfl⟩ := List.getElem?_eq_some_iff.mp h
  rw [remaining, List.drop_eq_getElem_cons hi, List.map_cons, List.sum_cons]
  rfl

theorem remaining_mono (bodies : List (List Nat)) (i : Nat) : remaining bodies (i + 1) ≤ remaining bodies i := by
  cases h : bodies[i]? with
  | some body =>
    rw [remaining_step bodies i body h]
    omega
  | none =>
    have := List.getElem?_eq_none_iff.mp h
    rw [remaining, List.drop_eq_nil_of_le (by omega)]
    exact Nat.zero_le _

/-- Reachable states: pointers point into argument strings. -/
structure StOk (bodies : List (List Nat)) (s : OptState) : Prop where
  optind : s.optind ≤ bodies.length
  next : ∀ p, s.next = some p → p.1 = s.optind ∧ ∃ body, bodies[p.1]? = some body ∧ p.2 < body.length
  optarg : ∀ p, s.optarg = some p → ∃ body, bodies[p.1]? = some body ∧ p.2 ≤ body.length

/-- The remaining work. -/
def OptState.work (bodies : List (List Nat)) (s : OptState) : Nat :=
  match s.next with
  | none => remaining bodies s.optind
  | some p => remaining bodies s.optind - p.2

theorem getoptChar_ok (mc : Bool) (bodies : List (List Nat)) (opts : List Nat) (h0 : ∀ b ∈ bodies, 0 ∉ b) (i off : Nat) (oa : Option (Nat × Nat)) (body : List Nat)
    (hb : bodies[i]? = some body) (hoff : off < body.length) (hoa : ∀ p, oa = some p → ∃ body, bodies[p.1]? = some body ∧ p.2 ≤ body.length) :
    ∃ c s', getoptChar mc (argVector bodies) opts (i, off) ⟨i, oa, none⟩ = .ok (some c, s') ∧ StOk bodies s' ∧ (c ≠ 63 → c ≠ 58 → s'.work bodies < remaining bodies i - off) ∧
      i ≤ s'.optind := by
  have hi : i < bodies.length := (List.getElem?_eq_some_iff.mp hb).1
  have hmem : 0 ∉ body := h0 body (List.mem_of_getElem? hb)
  have h1 := readChar_body bodies i off body hb (by omega)
  have h2 := readChar_body bodies i (off + 1) body hb (by omega)
  obtain ⟨c, hc⟩ : ∃ c, body[off]? = some c := ⟨_, List.getElem?_eq_getElem hoff⟩
  have hc0 : c ≠ 0 := fun e => hmem (e ▸ List.mem_of_getElem? hc)
  rw [hc, Option.getD_some] at h1
  obtain ⟨d, hd⟩ : ∃ d, body[off + 1]?.getD 0 = d := ⟨_, rfl⟩
  rw [hd] at h2
  have hd' : d ≠ 0 → off + 1 < body.length := by
    intro hne
    by_contra hge
    rw [List.getElem?_eq_none_iff.mpr (by omega)] at hd
    exact hne hd.symm
  have hrem := remaining_step bodies i body hb
  rw [getoptChar_eq mc _ opts (i, off) _ c d h1 h2 hc0]
  cases hk : optionKind opts c with
  | none =>
    refine ⟨63, _, rfl, ?_, by simp, ?_⟩
    · split
      · exact ⟨by simp only; omega, by simp, hoa⟩
      · exact ⟨by simp only; omega, by simp, hoa⟩
    · split <;> simp
  | some b =>
    cases b with
    | false =>
      refine ⟨c, _, rfl, ?_, fun _ _ => ?_, ?_⟩
      · split
        · exact ⟨by simp only; omega, by simp, by simp⟩
        · rename_i hd0
          exact ⟨by simp only; omega, fun p hp => by cases hp; exact ⟨rfl, body, hb, hd' hd0⟩, by simp⟩
      · split
        · simp only [OptState.work]
          omega
        · simp only [OptState.work]
          omega
      · split <;> simp
    | true =>
      by_cases hd0 : d = 0
      · simp only [ne_eq, hd0, not_true_eq_false, if_false]
        by_cases hlen : (argVector bodies).length ≤ i + 1
        · rw [if_pos hlen]
          exact ⟨58, _, rfl, ⟨by simp only; omega, by simp, hoa⟩, by simp, by simp⟩
        · rw [if_neg hlen]
          have hlen' : i + 1 < bodies.length := by simpa [argVector] using hlen
          refine ⟨c, _, rfl, ⟨by simp only; omega, by simp, fun p hp => ?_⟩, fun _ _ => ?_, by simp⟩
          · cases hp
            exact ⟨_, List.getElem?_eq_getElem hlen', Nat.zero_le _⟩
          · simp only [OptState.work]
            have : remaining bodies (i + 2) ≤ remaining bodies (i + 1) := remaining_mono bodies (i + 1)
            omega
      · simp only [ne_eq, hd0, not_false_eq_true, if_true]
        refine ⟨c, _, rfl, ⟨by simp only; omega, by simp, fun p hp => ?_⟩, fun _ _ => ?_, by simp⟩
        · cases hp
          exact ⟨body, hb, by simp only; omega⟩
        · simp only [OptState.work]
          omega

theorem getopt_ok (mc : Bool) (bodies : List (List Nat)) (opts : List Nat) (h0 : ∀ b ∈ bodies, 0 ∉ b) (hdash : ∀ b ∈ bodies.drop 1, b ≠ [45]) (s : OptState) (hs : StOk bodies s) (h1 : 1 ≤ s.optind) :
    ∃ c s', getopt mc (argVector bodies) opts s = .ok (c, s') ∧ StOk bodies s' ∧ (∀ x, c = some x → x ≠ 63 → x ≠ 58 → s'.work bodies < s.work bodies) ∧ 1 ≤ s'.optind := by
  obtain ⟨i, oa, next⟩ := s
  cases next with
  | some p =>
    obtain ⟨hp, body, hb, hlt⟩ := hs.next p rfl
    obtain ⟨j, off⟩ := p
    simp only at hp
    subst hp
    obtain ⟨c, s', e, hok, hw, hi⟩ := getoptChar_ok mc bodies opts h0 j off oa body hb hlt hs.optarg
    exact ⟨some c, s', e, hok, fun x hx => by cases hx; exact hw, by simp only at h1; omega⟩
  | none =>
    by_cases hlen : bodies.length ≤ i
    · exact ⟨none, ⟨i, oa, none⟩, by simp [getopt, argVector, hlen], hs, by simp, h1⟩
    · have hi : i < bodies.length := by omega
      obtain ⟨body, hb⟩ : ∃ body, bodies[i]? = some body := ⟨_, List.getElem?_eq_getElem hi⟩
      have e0 := readChar_body bodies i 0 body hb (Nat.zero_le _)
      have hlt : ¬ (argVector bodies).length ≤ i := by simpa [argVector] using hi
      cases body with
      | nil =>
        refine ⟨none, ⟨i, oa, none⟩, ?_, hs, by simp, h1⟩
        simp only [getopt, if_neg hlt, e0, Res.ok_bind]
        simp
      | cons x t =>
        simp only [List.getElem?_cons_zero, Option.getD_some] at e0
        by_cases hx : x = 45
        · subst hx
          have hmem : (45 :: t) ∈ bodies.drop 1 := by
            rw [List.mem_iff_getElem?]
            simp only at h1
            exact ⟨i - 1, by rw [List.getElem?_drop, show 1 + (i - 1) = i by omega, hb]⟩
          have hne := hdash _ hmem
          cases t with
          | nil => exact absurd rfl hne
          | cons y t =>
            have e1 := readChar_body bodies i 1 _ hb (by simp)
            simp only [List.getElem?_cons_succ, List.getElem?_cons_zero, Option.getD_some] at e1
            by_cases hy : y = 45
            · subst hy
              refine ⟨none, ⟨i + 1, oa, none⟩, ?_, ⟨by simp only; omega, by simp, hs.optarg⟩, by simp, by simp⟩
              simp only [getopt, if_neg hlt, e0, e1, Res.ok_bind]
              simp
            · obtain ⟨c, s', e, hok, hw, hi'⟩ := getoptChar_ok mc bodies opts h0 i 1 oa _ hb (by simp) hs.optarg
              refine ⟨some c, s', ?_, hok, fun x hx h63 h58 => ?_, by simp only at h1; omega⟩
              · simp only [getopt, if_neg hlt, e0, e1, Res.ok_bind, ne_eq, not_true_eq_false, if_false, if_neg hy, e]
              · cases hx
                have := hw h63 h58
                simp only [OptState.work] at this ⊢
                omega
        · refine ⟨none, ⟨i, oa, none⟩, ?_, hs, by simp, h1⟩
          simp only [getopt, if_neg hlt, e0, Res.ok_bind, ne_eq, hx, not_false_eq_true, if_true, Res.pure_eq]

theorem argString_ok (bodies : List (List Nat)) (s : OptState) (hs : StOk bodies s) : ∃ a, argString (argVector bodies) s.optarg = .ok a := by
  cases ho : s.optarg with
  | none => exact ⟨none, rfl⟩
  | some p =>
    obtain ⟨body, hb, hp⟩ := hs.optarg p ho
    have h1 : rd (argVector bodies) p.1 = .ok (body ++ [0]) := rd_eq_ok (by simp [argVector, hb])
    have hlt : p.2 < (body ++ [0]).length := by simp; omega
    exact ⟨some (((body ++ [0]).drop p.2).takeWhile (· ≠ 0)), by simp only [argString, h1, Res.ok_bind, if_pos hlt, Res.pure_eq]⟩

theorem collect_ok (mc : Bool) (bodies : List (List Nat)) (opts : List Nat) (h0 : ∀ b ∈ bodies, 0 ∉ b) (hdash : ∀ b ∈ bodies.drop 1, b ≠ [45]) :
    ∀ (fuel : Nat) (s : OptState), StOk bodies s → 1 ≤ s.optind → s.work bodies < fuel →
      ∃ r s', collect mc (argVector bodies) opts fuel s = .ok (r, s') ∧ StOk bodies s' ∧ 1 ≤ s'.optind
  | 0, _, _, _, h => by omega
  | fuel + 1, s, hs, h1, hw => by
    obtain ⟨c, s1, e, hs1, hw1, h11⟩ := getopt_ok mc bodies opts h0 hdash s hs h1
    rw [collect]
    simp only [e, Res.ok_bind]
    cases c with
    | none => exact ⟨[], s1, rfl, hs1, h11⟩
    | some c =>
      by_cases hc : c = 63 ∨ c = 58
      · exact ⟨[(c, none)], s1, by simp only [if_pos hc, Res.pure_eq], hs1, h11⟩
      · obtain ⟨a, ea⟩ := argString_ok bodies s1 hs1
        have := hw1 c rfl (fun h => hc (.inl h)) (fun h => hc (.inr h))
        obtain ⟨r, s', er, hs', h1'⟩ := collect_ok mc bodies opts h0 hdash fuel s1 hs1 h11 (by omega)
        exact ⟨(c, a) :: r, s', by simp only [if_neg hc, ea, Res.ok_bind, er, Res.pure_eq], hs', h1'⟩

end Model
