import Verif.Proofs.Getopt
import Verif.Spec.DigestTypes
/-! C46: the option parser for systems without getopt. -/

namespace Props

open Model Spec

/-- C46. The options of a well-formed command line are returned in order with their arguments, then -1, and `optind` is the number of the first operand, for every option string, every list of
groups of options and all operands, in both builds of the character search. (The client needs one call more than there are options.) -/
theorem C46_parse (mc : Bool) (opts program : List Nat) (groups : List OptGroup) (hg : ∀ g ∈ groups, g.Ok opts) (h63 : optionKind opts 63 = none) (rest : List (List Nat)) (hr : Operands rest)
    (extra : Nat) :
    ∃ oa, collect mc (argVector (program :: (groups.flatMap OptGroup.args ++ rest))) opts ((groups.flatMap OptGroup.options).length + 1 + extra) optInit =
      .ok (groups.flatMap OptGroup.options, ⟨1 + (groups.flatMap OptGroup.args).length, oa, none⟩) := by
  obtain ⟨oa, h⟩ := groups_steps mc opts rest groups [program] none hg
  refine ⟨oa, ?_⟩
  have hend := getopt_operands mc opts ([program] ++ groups.flatMap OptGroup.args) rest oa hr
  rw [List.append_assoc] at hend
  have := collect_steps h hend (fun o ho => ?_) extra
  · simpa [optInit, Nat.add_comm] using this
  · obtain ⟨g, hg', ho'⟩ := List.mem_flatMap.mp ho
    have hk : optionKind opts o.1 ≠ none := by
      simp only [OptGroup.options, List.mem_append, List.mem_map] at ho'
      rcases ho' with ⟨f, hf, rfl⟩ | ⟨l, hl, rfl⟩
      · simp [((hg g hg').flags f hf).1]
      · obtain ⟨a, b, c⟩ := l
        simp [((hg g hg').last a b c (by simpa using hl)).1]
    exact ⟨fun e => hk (e ▸ h63), fun e => hk (e ▸ optionKind_colon opts)⟩

/-- C46. The same with an argument "--" (or any other that begins so), which is skipped. -/
theorem C46_parse_dashes (mc : Bool) (opts program : List Nat) (groups : List OptGroup) (hg : ∀ g ∈ groups, g.Ok opts) (h63 : optionKind opts 63 = none) (t : List Nat) (rest : List (List Nat))
    (extra : Nat) :
    ∃ oa, collect mc (argVector (program :: (groups.flatMap OptGroup.args ++ (45 :: 45 :: t) :: rest))) opts ((groups.flatMap OptGroup.options).length + 1 + extra) optInit =
      .ok (groups.flatMap OptGroup.options, ⟨1 + (groups.flatMap OptGroup.args).length + 1, oa, none⟩) := by
  obtain ⟨oa, h⟩ := groups_steps mc opts ((45 :: 45 :: t) :: rest) groups [program] none hg
  refine ⟨oa, ?_⟩
  have hend := getopt_dashes mc opts ([program] ++ groups.flatMap OptGroup.args) rest t oa
  rw [List.append_assoc] at hend
  have := collect_steps h hend (fun o ho => ?_) extra
  · simpa [optInit, Nat.add_comm] using this
  · obtain ⟨g, hg', ho'⟩ := List.mem_flatMap.mp ho
    have hk : optionKind opts o.1 ≠ none := by
      simp only [OptGroup.options, List.mem_append, List.mem_map] at ho'
      rcases ho' with ⟨f, hf, rfl⟩ | ⟨l, hl, rfl⟩
      · simp [((hg g hg').flags f hf).1]
      · obtain ⟨a, b, c⟩ := l
        simp [((hg g hg').last a b c (by simpa using hl)).1]
    exact ⟨fun e => hk (e ▸ h63), fun e => hk (e ▸ optionKind_colon opts)⟩

/-- "-v -vdsha1 -p 1M file" with the option string of hmacsum. -/
def groups0 : List OptGroup := [⟨[118], none⟩, ⟨[118], some (100, codes "sha1", true)⟩, ⟨[], some (112, codes "1M", false)⟩]

theorem groups0_ok : ∀ g ∈ groups0, g.Ok (codes "d:hp:vV") := by
  intro g hg
  simp only [groups0, List.mem_cons, List.not_mem_nil, or_false] at hg
  rcases hg with rfl | rfl | rfl
  · exact ⟨by simp, by decide, by simp⟩
  · exact ⟨by simp, by decide, fun o v a h => by cases h; decide⟩
  · exact ⟨by simp, by decide, fun o v a h => by cases h; decide⟩

example : ∃ oa, collect true (argVector [codes "hmacsum", codes "-v", codes "-vdsha1", codes "-p", codes "1M", codes "file"]) (codes "d:hp:vV") 10 optInit =
    .ok ([(118, none), (118, none), (100, some (codes "sha1")), (112, some (codes "1M"))], ⟨5, oa, none⟩) :=
  C46_parse true (codes "d:hp:vV") (codes "hmacsum") groups0 groups0_ok (by decide) [codes "file"] (fun a ha => by cases ha; decide) 5

/-- Full statement of the safety part of C46: for every argument vector the client runs without reading outside the strings and ends. -/
def C46Statement : Prop := ∀ (mc : Bool) (bodies : List (List Nat)) (opts : List Nat), bodies ≠ [] → (∀ b ∈ bodies, 0 ∉ b) →
  ∃ fuel r s', collect mc (argVector bodies) opts fuel optInit = .ok (r, s')

/-- What holds: if no argument is a single '-'. The number of calls is bounded by the size of the argument vector and `optind` ends within the arguments. Missing: the argument "-". -/
theorem C46_safe_partial (mc : Bool) (bodies : List (List Nat)) (opts : List Nat) (hne : bodies ≠ []) (h0 : ∀ b ∈ bodies, 0 ∉ b) (hdash : ∀ b ∈ bodies.drop 1, b ≠ [45]) :
    ∃ r s', collect mc (argVector bodies) opts ((bodies.map fun b => b.length + 1).sum + 1) optInit = .ok (r, s') ∧ 1 ≤ s'.optind ∧ s'.optind ≤ bodies.length := by
  obtain ⟨b, bs, rfl⟩ := List.exists_cons_of_ne_nil hne
  obtain ⟨r, s', e, hs, h1⟩ := collect_ok mc (b :: bs) opts h0 hdash (((b :: bs).map fun b => b.length + 1).sum + 1) optInit ⟨by simp [optInit], by simp [optInit], by simp [optInit]⟩ (by simp [optInit])
    (by
      simp only [OptState.work, optInit, remaining, List.drop_one, List.tail_cons, List.map_cons, List.sum_cons]
      omega)
  exact ⟨r, s', e, h1, hs.optind⟩

example := C46_safe_partial false [codes "hmacsum", codes "-vx", codes "-d"] (codes "d:hp:vV") (by simp) (by decide) (by decide)

/-- The argument "-" makes the parser read beyond a terminator: that of the argument, or with `strchr` that of the option string. -/
theorem C46_dash_ub (mc : Bool) (fuel : Nat) : collect mc (argVector [codes "hmacsum", codes "-"]) (codes "d:hp:vV") (fuel + 1) optInit = .ub := by
  have : getopt mc (argVector [codes "hmacsum", codes "-"]) (codes "d:hp:vV") optInit = .ub := by cases mc <;> decide
  rw [collect, this]
  rfl

theorem C46_statement_false : ¬ C46Statement := by
  intro h
  obtain ⟨fuel, r, s', e⟩ := h true [codes "hmacsum", codes "-"] (codes "d:hp:vV") (by simp) (by decide)
  cases fuel with
  | zero => cases e
  | succ fuel =>
    rw [C46_dash_ub] at e
    cases e

/-- After an unknown option that is not the last character of its argument the parser does not advance: a client that continues gets '?' for ever. (hmacsum stops at the first '?'.) -/
theorem C46_unknown_repeats (mc : Bool) : getopt mc (argVector [codes "hmacsum", codes "-xv", codes "file"]) (codes "d:hp:vV") optInit = .ok (some 63, optInit) := by
  cases mc <;> decide

end Props
