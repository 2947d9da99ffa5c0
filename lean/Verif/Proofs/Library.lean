import Verif.Model.Library
import Verif.Proofs.Hmacsum
/-! The option loop over any getopt. -/

namespace Model

open Spec (Line Library OptGroup Item Operands optionKind)

theorem Library.Gives.trans {L : Library} {s s1 s2 : L.State} {os os' : List (Nat × Option (List Nat))} (h1 : L.Gives s os s1) (h2 : L.Gives s1 os' s2) : L.Gives s (os ++ os') s2 := by
  induction h1 with
  | nil => exact h2
  | cons s s1 s' c a os h ha _ ih => exact .cons s s1 _ c a _ h ha (ih h2)

theorem Library.Gives.split {L : Library} : ∀ {os os' : List (Nat × Option (List Nat))} {s s2 : L.State}, L.Gives s (os ++ os') s2 → ∃ s1, L.Gives s os s1 ∧ L.Gives s1 os' s2
  | [], os', s, s2, h => ⟨s, .nil s, h⟩
  | x :: os, os', s, s2, h => by
    cases h with
    | cons _ s1 _ c a _ h ha hs =>
      obtain ⟨s', h1, h2⟩ := Library.Gives.split hs
      exact ⟨s', .cons s s1 s' c a os h ha h1, h2⟩

/-- Options that are not -h, -V or unknown. -/
theorem library_steps {L : Library} {n : Nat} {s s1 : L.State} {os : List (Nat × Option (List Nat))} (h : L.Gives s os s1) : ∀ (o : Options) (fuel : Nat), (∀ x ∈ os, x.1 = 100 ∨ x.1 = 112 ∨ x.1 = 118) →
    (∀ x ∈ os, x.1 ≠ 118 → x.2 ≠ none) → parseLibrary L n (os.length + fuel) o s = parseLibrary L n fuel (os.foldl Options.apply o) s1 := by
  induction h with
  | nil s => intro o fuel _ _; simp
  | cons s s1 s' c a os h ha _ ih =>
    intro o fuel hos harg
    have hc := hos (c, a) (by simp)
    have hca := harg (c, a) (by simp)
    have ih := fun o => ih o fuel (fun x hx => hos x (by simp [hx])) (fun x hx => harg x (by simp [hx]))
    rw [List.length_cons, show os.length + 1 + fuel = (os.length + fuel) + 1 by omega, parseLibrary, h]
    simp only [List.foldl_cons]
    simp only at hc hca
    have ha' : c ≠ 118 → L.optarg s1 = a := fun h => by
      rcases ha with rfl | ha
      · exact absurd rfl (hca h)
      · exact ha
    rcases hc with rfl | rfl | rfl
    · rw [if_pos rfl, ha' (by decide), ih]; rfl
    · rw [if_neg (by decide), if_neg (by decide), if_pos rfl, ha' (by decide), ih]; rfl
    · rw [if_neg (by decide), if_neg (by decide), if_neg (by decide), if_pos rfl, ih]; rfl

/-- The loop never does what is undefined, if the library stays within the vector. -/
theorem parseLibrary_ok {L : Library} {args : List (List Nat)} (hne : args ≠ []) (hb : L.InBounds) : ∀ (fuel : Nat) (o : Options) (s : L.State), L.Reach args s →
    parseLibrary L args.length fuel o s ≠ .ub ∧ ∀ o' source, parseLibrary L args.length fuel o s = .ok (.run o' source) → source ∈ args
  | 0, o, s, _ => by simp [parseLibrary]
  | fuel + 1, o, s, hr => by
    obtain ⟨hp, h1, h2⟩ := hb args hne s hr
    have hr' := Library.Reach.next s hr
    rw [parseLibrary]
    generalize L.next s = x at hp h1 h2 hr'
    obtain ⟨c, s'⟩ := x
    dsimp only at hp h1 h2 hr'
    have hl := hp.length_eq
    cases c with
    | none =>
      dsimp only
      split
      · simp
      · rename_i hi
        have : L.optind s' < (L.argv s').length := by omega
        rw [List.getElem?_eq_getElem this]
        refine ⟨by simp, fun o' source e => ?_⟩
        cases e
        exact hp.mem_iff.mp (List.getElem_mem this)
    | some c =>
      dsimp only
      split
      · exact parseLibrary_ok hne hb fuel _ _ hr'
      split
      · simp
      split
      · exact parseLibrary_ok hne hb fuel _ _ hr'
      split
      · exact parseLibrary_ok hne hb fuel _ _ hr'
      split
      · simp
      split
      · omega
      · have : L.optind s' - 1 < (L.argv s').length := by omega
        rw [List.getElem?_eq_getElem this]
        simp

/-- If the loop does not end within some calls, the library gives as many options. -/
theorem parseLibrary_diverge {L : Library} {n : Nat} : ∀ (fuel : Nat) (o : Options) (s : L.State), parseLibrary L n fuel o s = .diverge →
    ∃ os s', os.length = fuel ∧ L.Gives s os s' ∧ ∀ x ∈ os, x.1 = 100 ∨ x.1 = 112 ∨ x.1 = 118
  | 0, o, s, _ => ⟨[], s, rfl, .nil s, by simp⟩
  | fuel + 1, o, s, e => by
    rw [parseLibrary] at e
    generalize hx : L.next s = x at e
    obtain ⟨c, s'⟩ := x
    cases c with
    | none =>
      dsimp only at e
      split at e
      · cases e
      · split at e <;> cases e
    | some c =>
      dsimp only at e
      have key : ∀ o', (c = 100 ∨ c = 112 ∨ c = 118) → parseLibrary L n fuel o' s' = .diverge →
          ∃ os s', os.length = fuel + 1 ∧ L.Gives s os s' ∧ ∀ x ∈ os, x.1 = 100 ∨ x.1 = 112 ∨ x.1 = 118 := fun o' hc e => by
        obtain ⟨os, s2, h1, h2, h3⟩ := parseLibrary_diverge fuel o' s' e
        refine ⟨(c, none) :: os, s2, by simp [h1], .cons s s' s2 c none os hx (.inl rfl) h2, fun x hx => ?_⟩
        rcases List.mem_cons.mp hx with rfl | hx
        · exact hc
        · exact h3 x hx
      split at e
      · exact key _ (by omega) e
      split at e
      · cases e
      split at e
      · exact key _ (by omega) e
      split at e
      · exact key _ (by omega) e
      split at e
      · cases e
      split at e
      · cases e
      · split at e <;> cases e

/-! ### The option parser of /repo as a library -/

/-- hmactools/hmactools_getopt.c (Model/Getopt.lean) seen as such a library. (For comparison; undefined behaviour becomes the end of the options.) -/
def fallbackLibrary (mc : Bool) (opts : List Nat) : Library where
  State := List (List Nat) × OptState
  start := fun args => (args, optInit)
  next := fun s => match getopt mc (argVector s.1) opts s.2 with
    | .ok (c, t) => (c, (s.1, t))
    | _ => (none, s)
  argv := fun s => s.1
  optind := fun s => s.2.optind
  optarg := fun s => match argString (argVector s.1) s.2.optarg with
    | .ok a => a
    | _ => none


theorem fallback_gives {mc : Bool} {opts : List Nat} {args : List (List Nat)} {s s' : OptState} {os : List (Nat × Option (List Nat))} (h : OptSteps mc (argVector args) opts s os s') :
    (fallbackLibrary mc opts).Gives (args, s) os (args, s') := by
  induction h with
  | nil s => exact .nil _
  | @cons s s1 s2 c a os h ha _ ih =>
    have e1 : (fallbackLibrary mc opts).next (args, s) = (some c, (args, s1)) := by simp [fallbackLibrary, h]
    have e2 : (fallbackLibrary mc opts).optarg (args, s1) = a := by simp [fallbackLibrary, ha]
    exact .cons _ _ _ c a os e1 (.inr e2) ih

/-- The option parser of /repo does what POSIX says. -/
theorem fallback_posix (mc : Bool) (opts : List Nat) : (fallbackLibrary mc opts).Posix opts := by
  intro program groups rest hg hr _
  obtain ⟨oa, h⟩ := groups_steps mc opts rest groups [program] none hg
  have hend := getopt_operands mc opts ([program] ++ groups.flatMap OptGroup.args) rest oa hr
  rw [List.append_assoc] at hend
  refine ⟨(program :: (groups.flatMap OptGroup.args ++ rest), ⟨([program] ++ groups.flatMap OptGroup.args).length, oa, none⟩), ⟨_, fallback_gives h, ?_⟩, rfl, ?_⟩
  · have : getopt mc (argVector (program :: (groups.flatMap OptGroup.args ++ rest))) opts ⟨([program] ++ groups.flatMap OptGroup.args).length, oa, none⟩ = _ := hend
    simp only [fallbackLibrary, List.cons_append, List.nil_append] at this ⊢
    rw [this]
  · simp [fallbackLibrary, Nat.add_comm]

/-! ### A getopt that rearranges the vector -/

/-- The options in an argument (behind its '-'), and if the next argument belongs to the last of them. Unknown options and missing arguments give '?'. -/
def scanArg (opts : List Nat) : List Nat → Option (List Nat) → List (Nat × Option (List Nat)) × Bool
  | [], _ => ([], false)
  | c :: t, next =>
    match optionKind opts c with
    | none => ((63, none) :: (scanArg opts t next).1, (scanArg opts t next).2)
    | some false => ((c, none) :: (scanArg opts t next).1, (scanArg opts t next).2)
    | some true =>
      if t ≠ [] then ([(c, some t)], false)
      else match next with
        | none => ([(63, none)], false)
        | some v => ([(c, some v)], true)

/-- The options of the arguments, the arguments with options, and the operands. -/
def scanLine (opts : List Nat) : Nat → List (List Nat) → List (Nat × Option (List Nat)) × List (List Nat) × List (List Nat)
  | 0, args => ([], [], args)
  | _ + 1, [] => ([], [], [])
  | fuel + 1, a :: rest =>
    if a.head? = some 45 then
      if (scanArg opts a.tail rest.head?).2 then
        ((scanArg opts a.tail rest.head?).1 ++ (scanLine opts fuel rest.tail).1, a :: (rest.take 1 ++ (scanLine opts fuel rest.tail).2.1), (scanLine opts fuel rest.tail).2.2)
      else ((scanArg opts a.tail rest.head?).1 ++ (scanLine opts fuel rest).1, a :: (scanLine opts fuel rest).2.1, (scanLine opts fuel rest).2.2)
    else ((scanLine opts fuel rest).1, (scanLine opts fuel rest).2.1, a :: (scanLine opts fuel rest).2.2)

/-- The state of that getopt: the options to come, `optarg`, the vector and `optind`. -/
structure GnuState where
  todo : List (Nat × Option (List Nat))
  arg : Option (List Nat)
  vector : List (List Nat)
  index : Nat

/-- A getopt with the promises of GNU, which looks at the whole vector at first. -/
def gnuLibrary (opts : List Nat) : Library where
  State := GnuState
  start := fun args => ⟨(scanLine opts args.length args.tail).1, none, args.take 1 ++ ((scanLine opts args.length args.tail).2.1 ++ (scanLine opts args.length args.tail).2.2),
    (args.take 1).length + (scanLine opts args.length args.tail).2.1.length⟩
  next := fun s => match s.todo with
    | [] => (none, s)
    | x :: os => (some x.1, { s with todo := os, arg := x.2 })
  argv := GnuState.vector
  optind := GnuState.index
  optarg := GnuState.arg

theorem gnu_gives (opts : List Nat) (vector : List (List Nat)) (index : Nat) : ∀ (os : List (Nat × Option (List Nat))) (arg : Option (List Nat)),
    ∃ arg', (gnuLibrary opts).Gives (GnuState.mk os arg vector index) os (GnuState.mk [] arg' vector index)
  | [], arg => ⟨arg, .nil _⟩
  | (c, a) :: os, arg => by
    obtain ⟨arg', h⟩ := gnu_gives opts vector index os a
    have e : (gnuLibrary opts).next (GnuState.mk ((c, a) :: os) arg vector index) = (some c, GnuState.mk os a vector index) := rfl
    exact ⟨arg', .cons _ _ _ c a os e (.inr rfl) h⟩

theorem scanArg_flags (opts : List Nat) (tail : List Nat) (next : Option (List Nat)) : ∀ (flags : List Nat), (∀ f ∈ flags, optionKind opts f = some false) →
    scanArg opts (flags ++ tail) next = (flags.map (fun f => (f, none)) ++ (scanArg opts tail next).1, (scanArg opts tail next).2)
  | [], _ => rfl
  | f :: flags, h => by
    rw [List.cons_append, scanArg.eq_def]
    simp only [h f (by simp), scanArg_flags opts tail next flags fun g hg => h g (by simp [hg]), List.map_cons, List.cons_append]

theorem scanLine_items (opts : List Nat) : ∀ (fuel : Nat) (items : List Item), (∀ i ∈ items, i.Ok opts) → (items.flatMap Item.args).length ≤ fuel →
    (scanLine opts fuel (items.flatMap Item.args)).1 = (items.filterMap Item.group?).flatMap OptGroup.options ∧
    (scanLine opts fuel (items.flatMap Item.args)).2.2 = items.filterMap Item.operand? ∧
    ((scanLine opts fuel (items.flatMap Item.args)).2.1 ++ (scanLine opts fuel (items.flatMap Item.args)).2.2).Perm (items.flatMap Item.args)
  | fuel, [], _, _ => by cases fuel <;> simp [scanLine]
  | 0, i :: items, _, h => by
    exfalso
    rcases i with ⟨flags, _ | ⟨o, v, _ | _⟩⟩ | a <;> simp [Item.args, OptGroup.args] at h
  | fuel + 1, .operand a :: items, hok, h => by
    have ha : a.head? ≠ some 45 := (hok (.operand a) (by simp)).1
    simp only [List.flatMap_cons, Item.args, List.cons_append, List.nil_append, List.length_cons] at h ⊢
    obtain ⟨h1, h2, h3⟩ := scanLine_items opts fuel items (fun i hi => hok i (by simp [hi])) (by omega)
    rw [scanLine, if_neg ha]
    refine ⟨by rw [List.filterMap_cons]; exact h1, by rw [List.filterMap_cons, h2]; rfl, ?_⟩
    exact List.perm_middle.trans (h3.cons a)
  | fuel + 1, .options ⟨flags, last⟩ :: items, hok, h => by
    have hg : OptGroup.Ok opts ⟨flags, last⟩ := hok (.options ⟨flags, last⟩) (by simp)
    have hf := fun f hf => (hg.flags f hf).1
    have hi : ∀ i ∈ items, i.Ok opts := fun i hi => hok i (by simp [hi])
    rcases last with _ | ⟨o, v, _ | _⟩
    · simp only [List.flatMap_cons, Item.args, OptGroup.args, List.cons_append, List.nil_append, List.length_cons] at h ⊢
      obtain ⟨h1, h2, h3⟩ := scanLine_items opts fuel items hi (by omega)
      have hs : ∀ next, scanArg opts flags next = (flags.map (fun f => (f, none)), false) := fun next => by
        have := scanArg_flags opts [] next flags hf
        simpa [scanArg] using this
      rw [scanLine, if_pos (List.head?_cons)]
      simp only [List.tail_cons, hs, Bool.false_eq_true, if_false]
      exact ⟨by rw [List.filterMap_cons]; simp [Item.group?, OptGroup.options, h1], by rw [List.filterMap_cons]; exact h2, h3.cons _⟩
    · obtain ⟨ho, -⟩ := hg.last o v false rfl
      simp only [List.flatMap_cons, Item.args, OptGroup.args, List.cons_append, List.nil_append, List.length_cons] at h ⊢
      obtain ⟨h1, h2, h3⟩ := scanLine_items opts fuel items hi (by omega)
      have hs : scanArg opts (flags ++ [o]) (some v) = (flags.map (fun f => (f, none)) ++ [(o, some v)], true) := by
        rw [scanArg_flags opts [o] _ flags hf]
        simp [scanArg, ho]
      rw [scanLine, if_pos (List.head?_cons)]
      simp only [List.tail_cons, List.head?_cons, hs, if_true]
      exact ⟨by rw [List.filterMap_cons]; simp [Item.group?, OptGroup.options, h1], by rw [List.filterMap_cons]; exact h2, (h3.cons _).cons _⟩
    · obtain ⟨ho, -, -, -, hv⟩ := hg.last o v true rfl
      simp only [List.flatMap_cons, Item.args, OptGroup.args, List.cons_append, List.nil_append, List.length_cons] at h ⊢
      obtain ⟨h1, h2, h3⟩ := scanLine_items opts fuel items hi (by omega)
      have hs : ∀ next, scanArg opts (flags ++ o :: v) next = (flags.map (fun f => (f, none)) ++ [(o, some v)], false) := fun next => by
        rw [scanArg_flags opts (o :: v) _ flags hf]
        simp [scanArg, ho, hv rfl]
      rw [scanLine, if_pos (List.head?_cons)]
      simp only [List.tail_cons, hs, Bool.false_eq_true, if_false]
      exact ⟨by rw [List.filterMap_cons]; simp [Item.group?, OptGroup.options, h1], by rw [List.filterMap_cons]; exact h2, h3.cons _⟩

/-- There is a getopt with the promises of GNU. -/
theorem gnu_gnu (opts : List Nat) : (gnuLibrary opts).Gnu opts := by
  intro program items hok
  obtain ⟨h1, h2, h3⟩ := scanLine_items opts (program :: items.flatMap Item.args).length items hok (by simp)
  have hst : (gnuLibrary opts).start (program :: items.flatMap Item.args) =
      GnuState.mk (scanLine opts (program :: items.flatMap Item.args).length (items.flatMap Item.args)).1 none
        ([program] ++ ((scanLine opts (program :: items.flatMap Item.args).length (items.flatMap Item.args)).2.1 ++ (scanLine opts (program :: items.flatMap Item.args).length (items.flatMap Item.args)).2.2))
        (1 + (scanLine opts (program :: items.flatMap Item.args).length (items.flatMap Item.args)).2.1.length) := rfl
  rw [hst, h1]
  generalize (scanLine opts (program :: items.flatMap Item.args).length (items.flatMap Item.args)).2.1 = as at h3 ⊢
  rw [h2] at h3 ⊢
  obtain ⟨arg', hg⟩ := gnu_gives opts ([program] ++ (as ++ items.filterMap Item.operand?)) (1 + as.length) ((items.filterMap Item.group?).flatMap OptGroup.options) none
  refine ⟨GnuState.mk [] arg' ([program] ++ (as ++ items.filterMap Item.operand?)) (1 + as.length), ⟨_, hg, rfl⟩, h3.cons program, ?_, ?_⟩
  · show List.drop (1 + as.length) ([program] ++ (as ++ items.filterMap Item.operand?)) = _
    rw [← List.append_assoc, List.drop_left' (by simp [Nat.add_comm])]
  · show 1 + as.length ≤ ([program] ++ (as ++ items.filterMap Item.operand?)).length
    simp only [List.length_append, List.length_cons, List.length_nil]
    omega

theorem scanLine_perm (opts : List Nat) : ∀ (fuel : Nat) (args : List (List Nat)), ((scanLine opts fuel args).2.1 ++ (scanLine opts fuel args).2.2).Perm args
  | 0, args => by simp [scanLine]
  | fuel + 1, [] => by simp [scanLine]
  | fuel + 1, a :: rest => by
    rw [scanLine]
    split
    · split
      · have h := scanLine_perm opts fuel rest.tail
        simp only [List.cons_append, List.append_assoc]
        refine List.Perm.cons a ?_
        have h1 : rest.take 1 ++ rest.tail = rest := by rw [← List.drop_one, List.take_append_drop]
        have := h.append_left (rest.take 1)
        rwa [h1] at this
      · exact (scanLine_perm opts fuel rest).cons a
    · exact List.perm_middle.trans ((scanLine_perm opts fuel rest).cons a)

theorem gnu_reach (opts : List Nat) (args : List (List Nat)) (hne : args ≠ []) (s : (gnuLibrary opts).State) (h : (gnuLibrary opts).Reach args s) :
    ((gnuLibrary opts).argv s).Perm args ∧ 1 ≤ (gnuLibrary opts).optind s ∧ (gnuLibrary opts).optind s ≤ args.length := by
  induction h with
  | start =>
    obtain ⟨a, rest, rfl⟩ := List.exists_cons_of_ne_nil hne
    have hp := scanLine_perm opts (a :: rest).length rest
    have hl := hp.length_eq
    refine ⟨hp.cons a, Nat.le_add_right 1 _, ?_⟩
    show 1 + _ ≤ _
    simp only [List.length_append, List.tail_cons, List.length_cons] at hl ⊢
    omega
  | next s _ ih =>
    have : (gnuLibrary opts).argv ((gnuLibrary opts).next s).2 = (gnuLibrary opts).argv s ∧ (gnuLibrary opts).optind ((gnuLibrary opts).next s).2 = (gnuLibrary opts).optind s := by
      simp only [gnuLibrary]
      split <;> exact ⟨rfl, rfl⟩
    rw [this.1, this.2]
    exact ih

theorem gnu_inBounds (opts : List Nat) : (gnuLibrary opts).InBounds := fun args hne s h => gnu_reach opts args hne _ (.next s h)

theorem gnu_gives_length (opts : List Nat) (s s' : (gnuLibrary opts).State) (os : List (Nat × Option (List Nat))) (h : (gnuLibrary opts).Gives s os s') : os.length ≤ (GnuState.todo s).length := by
  induction h with
  | nil s => exact Nat.zero_le _
  | cons s s1 s' c a os h ha _ ih =>
    obtain ⟨todo, arg, vector, index⟩ := s
    cases todo with
    | nil => cases h
    | cons x todo =>
      cases h
      exact Nat.succ_le_succ ih

theorem gnu_ends (opts : List Nat) : (gnuLibrary opts).Ends opts := fun args _ => ⟨(GnuState.todo ((gnuLibrary opts).start args)).length + 1, fun os s hl h => by
  have := gnu_gives_length opts _ _ _ h
  omega⟩

end Model
