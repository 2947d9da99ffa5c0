import Verif.Model.Output
import Verif.Spec.Output
import Verif.Spec.Hmacsum
import Verif.Proofs.DigestString
/-! The characters on standard output. -/

namespace Model

open Spec (Line Kind codes hex unhex readLine completeLines readDigests printOrder outputText hexValue)

/-! ### Formats -/

theorem format_digest (k : Kind) (text : List Nat) : formatText (digestFormat k) [text] = .ok (k.label ++ text ++ [10]) := by
  cases k <;> simp [digestFormat, Kind.label, Kind.title, codes, formatText, Res.ok_bind, Res.pure_eq]

theorem format_version (version : List Nat) : formatText (codes "%s %s\n\n") [codes "hmacsum", version] = .ok (codes "hmacsum " ++ version ++ [10] ++ [10]) := by
  simp [codes, formatText, Res.ok_bind, Res.pure_eq]

theorem format_aborted : formatText (codes "%s: ABORTED\n") [codes "hmacsum"] = .ok (codes "hmacsum: ABORTED" ++ [10]) := by
  simp [codes, formatText, Res.ok_bind, Res.pure_eq]

/-- The texts of the lines printed for a source. -/
def lineText (version : List Nat) : Line → List Nat
  | .version => codes "hmacsum " ++ version ++ [10] ++ [10]
  | .digest k text => k.label ++ text ++ [10]
  | .aborted => codes "hmacsum: ABORTED" ++ [10]
  | _ => []

/-- A line printed for a source. -/
def Simple : Line → Prop
  | .version | .digest _ _ | .aborted => True
  | _ => False

/-- The pieces that reach the device: beginnings of the texts. -/
inductive Cut : List (List Nat) → List Nat → Prop where
  | nil : Cut [] []
  | cons {t p ts w} : p <+: t → Cut ts w → Cut (t :: ts) (p ++ w)

theorem printTexts_simple {T : Texts} (device : Nat → Option Nat) : ∀ (lines : List Line), (∀ l ∈ lines, Simple l) → ∀ s : Stream,
    ∃ s' w, printTexts device (lines.flatMap (lineCalls T)) s = .ok s' ∧ s'.written = s.written ++ w ∧ Cut (lines.map (lineText T.version)) w ∧
      ((∀ n, device n = none) → w = (lines.map (lineText T.version)).flatten) ∧ ((∀ n, device n = some 0) → w = [])
  | [], _, s => ⟨s, [], rfl, by simp, .nil, fun _ => rfl, fun _ => rfl⟩
  | l :: ls, h, s => by
    have key : ∃ format args, lineCalls T l = [(format, args)] ∧ formatText format args = .ok (lineText T.version l) := by
      have := h l (by simp)
      cases l with
      | version => exact ⟨_, _, rfl, format_version _⟩
      | digest k text => exact ⟨_, _, rfl, format_digest k text⟩
      | aborted => exact ⟨_, _, rfl, format_aborted⟩
      | usage => cases this
      | copyright => cases this
    obtain ⟨format, args, e1, e2⟩ := key
    have step : ∃ r p, printText device format args s = .ok (r, ⟨s.written ++ p, s.calls + 1⟩) ∧ p <+: lineText T.version l ∧ ((∀ n, device n = none) → p = lineText T.version l) ∧
        ((∀ n, device n = some 0) → p = []) := by
      unfold printText
      rw [e2, Res.ok_bind]
      cases hd : device s.calls with
      | none => exact ⟨_, _, rfl, List.prefix_refl _, fun _ => rfl, fun h => (by rw [h] at hd; cases hd)⟩
      | some n => exact ⟨_, _, rfl, List.take_prefix _ _, fun h => (by rw [h] at hd; cases hd), fun h => (by rw [h] at hd; cases hd; simp)⟩
    obtain ⟨r, p, e3, hp, hp1, hp2⟩ := step
    obtain ⟨s', w, e4, hw, hc, hw1, hw2⟩ := printTexts_simple (T := T) device ls (fun l hl => h l (by simp [hl])) ⟨s.written ++ p, s.calls + 1⟩
    refine ⟨s', p ++ w, ?_, by rw [hw]; simp, .cons hp hc, fun h => by rw [hp1 h, hw1 h]; rfl, fun h => by rw [hp2 h, hw2 h]; rfl⟩
    simp only [List.flatMap_cons, e1, List.singleton_append, printTexts, e3, Res.ok_bind]
    exact e4

/-! ### The reader -/

theorem unhex_digits : ∀ {t : List Nat} {d}, unhex t = some d → ∀ c ∈ t, c ≠ 58
  | [], _, _, c, hc => by cases hc
  | [_], _, h, _, _ => by simp [unhex] at h
  | a :: b :: t, d, h, c, hc => by
    have val : ∀ x v, hexValue x = some v → x ≠ 58 := fun x v h hx => by
      subst hx
      exact absurd h (by simp [hexValue])
    unfold unhex at h
    cases h1 : hexValue a with
    | none => rw [h1] at h; cases h
    | some x =>
      cases h2 : hexValue b with
      | none => rw [h1, h2] at h; cases h
      | some y =>
        cases h3 : unhex t with
        | none => rw [h1, h2, h3] at h; cases h
        | some r =>
          rcases List.mem_cons.mp hc with rfl | hc
          · exact val _ _ h1
          · rcases List.mem_cons.mp hc with rfl | hc
            · exact val _ _ h2
            · exact unhex_digits h3 c hc

/-- What `readLine` recognises. -/
theorem readLine_some {line : List Nat} {k : Kind} {d : List Byte} (h : readLine line = some (k, d)) :
    ∃ text, line = k.label ++ text ∧ text.length = 2 * k.hashSize ∧ unhex text = some d := by
  obtain ⟨k', -, h⟩ := List.exists_of_findSome?_eq_some h
  split at h
  · rename_i hc
    obtain ⟨⟨text, rfl⟩, hl⟩ := hc
    rw [List.drop_left] at h
    obtain ⟨d', h1, h2⟩ := Option.map_eq_some_iff.mp h
    cases h2
    exact ⟨text, rfl, by simpa using hl, h1⟩
  · cases h

theorem readLine_of (k : Kind) (text : List Nat) (d : List Byte) (hl : text.length = 2 * k.hashSize) (hd : unhex text = some d) : ∃ x, readLine (k.label ++ text) = some x := by
  unfold readLine
  cases hf : printOrder.findSome? fun k' : Kind => if k'.label <+: k.label ++ text ∧ (k.label ++ text).length = k'.label.length + 2 * k'.hashSize then
      (unhex ((k.label ++ text).drop k'.label.length)).map (k', ·) else none with
  | some x => exact ⟨x, rfl⟩
  | none =>
    have := List.findSome?_eq_none_iff.mp hf k (by cases k <;> decide)
    rw [if_pos ⟨List.prefix_append _ _, by simp [hl]⟩, List.drop_left, hd] at this
    cases this

theorem split_colon {a b c d : List Nat} (ha : 58 ∉ a) (hc : 58 ∉ c) (h : a ++ 58 :: b = c ++ 58 :: d) : a = c ∧ b = d := by
  induction a generalizing c with
  | nil =>
    cases c with
    | nil => exact ⟨rfl, by simpa using h⟩
    | cons y c =>
      simp only [List.nil_append, List.cons_append, List.cons.injEq] at h
      exact absurd (by simp [h.1]) hc
  | cons x a ih =>
    cases c with
    | nil =>
      simp only [List.nil_append, List.cons_append, List.cons.injEq] at h
      exact absurd (by simp [h.1]) ha
    | cons y c =>
      simp only [List.cons_append, List.cons.injEq] at h
      obtain ⟨h1, h2⟩ := ih (fun m => ha (by simp [m])) (fun m => hc (by simp [m])) h.2
      exact ⟨by rw [h.1, h1], h2⟩

theorem titles_apart : ∀ {q : List Nat} {k k' : Kind}, q ++ k.title = k'.title → k = k' ∧ q = [] := by
  intro q k k' h
  have hr := congrArg List.reverse h
  rw [List.reverse_append] at hr
  cases k <;> cases k' <;> first
    | exact ⟨rfl, by simpa using h⟩
    | (simp [Kind.title, codes] at hr)

theorem colon_title (k : Kind) : 58 ∉ k.title ++ codes " hash calculated over data" := by cases k <;> decide

/-- A digest line with something before it is recognised only if nothing is before it, and as what it is. -/
theorem readLine_digest {q text : List Nat} {k : Kind} (ht : 58 ∉ text) {k' : Kind} {d : List Byte} (h : readLine (q ++ (k.label ++ text)) = some (k', d)) : q = [] ∧ k' = k ∧ unhex text = some d := by
  obtain ⟨t, e, -, hd⟩ := readLine_some h
  have ht' : 58 ∉ t := fun m => unhex_digits hd 58 m rfl
  unfold Kind.label at e
  have hq : 58 ∉ q := by
    have hc := congrArg (List.count 58) e
    have a1 := List.count_eq_zero.mpr ht
    have a2 := List.count_eq_zero.mpr ht'
    have a3 := List.count_eq_zero.mpr (colon_title k)
    have a4 := List.count_eq_zero.mpr (colon_title k')
    have a5 : ∀ n, List.count 58 (List.replicate n 9) = 0 := fun n => List.count_eq_zero.mpr (fun m => by have := List.eq_of_mem_replicate m; omega)
    simp only [List.count_append, List.count_cons, a5, a1, a2, a3, a4] at hc a3 a4
    refine List.count_eq_zero.mp ?_
    simp at hc
    omega
  rw [show q ++ (k.title ++ codes " hash calculated over data" ++ 58 :: List.replicate (if k.title.length ≤ 4 then 2 else 1) 9 ++ text)
      = (q ++ (k.title ++ codes " hash calculated over data")) ++ 58 :: (List.replicate (if k.title.length ≤ 4 then 2 else 1) 9 ++ text) by simp,
    show k'.title ++ codes " hash calculated over data" ++ 58 :: List.replicate (if k'.title.length ≤ 4 then 2 else 1) 9 ++ t
      = (k'.title ++ codes " hash calculated over data") ++ 58 :: (List.replicate (if k'.title.length ≤ 4 then 2 else 1) 9 ++ t) by simp] at e
  obtain ⟨h1, h2⟩ := split_colon (by simp only [List.mem_append, not_or] at *; exact ⟨hq, by simpa using colon_title k⟩) (colon_title k') e
  rw [← List.append_assoc] at h1
  obtain ⟨rfl, rfl⟩ := titles_apart (List.append_cancel_right h1)
  exact ⟨rfl, rfl, by rw [List.append_cancel_left h2]; exact hd⟩

theorem readLine_aborted (q : List Nat) : readLine (q ++ codes "hmacsum: ABORTED") = none := by
  cases hr : readLine (q ++ codes "hmacsum: ABORTED") with
  | none => rfl
  | some x =>
    obtain ⟨t, e, -, hd⟩ := readLine_some (k := x.1) (d := x.2) hr
    have ht' : 58 ∉ t := fun m => unhex_digits hd 58 m rfl
    unfold Kind.label at e
    have hq : 58 ∉ q := by
      have hc := congrArg (List.count 58) e
      have a2 := List.count_eq_zero.mpr ht'
      have a4 := List.count_eq_zero.mpr (colon_title x.1)
      have a5 : ∀ n, List.count 58 (List.replicate n 9) = 0 := fun n => List.count_eq_zero.mpr (fun m => by have := List.eq_of_mem_replicate m; omega)
      have a6 : List.count 58 (codes "hmacsum: ABORTED") = 1 := by decide
      simp only [List.count_append, List.count_cons, a5, a2, a4, a6] at hc a4
      refine List.count_eq_zero.mp ?_
      simp at hc
      omega
    rw [show q ++ codes "hmacsum: ABORTED" = (q ++ codes "hmacsum") ++ 58 :: codes " ABORTED" by simp [codes],
      show x.1.title ++ codes " hash calculated over data" ++ 58 :: List.replicate (if x.1.title.length ≤ 4 then 2 else 1) 9 ++ t
      = (x.1.title ++ codes " hash calculated over data") ++ 58 :: (List.replicate (if x.1.title.length ≤ 4 then 2 else 1) 9 ++ t) by simp] at e
    obtain ⟨-, h2⟩ := split_colon (by simp only [List.mem_append, not_or]; exact ⟨hq, by decide⟩) (colon_title x.1) e
    have h3 := congrArg List.head? h2
    generalize x.1 = k at h3
    cases k <;> simp [codes, Kind.title, List.replicate] at h3

theorem readLine_version (version : List Nat) : readLine (codes "hmacsum " ++ version) = none := by
  cases hr : readLine (codes "hmacsum " ++ version) with
  | none => rfl
  | some x =>
    obtain ⟨t, e, -, -⟩ := readLine_some (k := x.1) (d := x.2) hr
    have h3 := congrArg List.head? e
    generalize x.1 = k at h3
    cases k <;> simp [codes, Kind.label, Kind.title] at h3

theorem readLine_nil : readLine [] = none := by decide

theorem completeLines_append (w : List Nat) : ∀ (p line : List Nat), 10 ∉ p → completeLines line (p ++ w) = completeLines (line ++ p) w
  | [], line, _ => by simp
  | c :: p, line, h => by
    have hc : c ≠ 10 := fun e => h (by simp [e])
    rw [List.cons_append, completeLines, if_neg hc, completeLines_append w p _ (fun m => h (by simp [m]))]
    simp

/-- A prefix of a line: a prefix of its text, or all with the newline. -/
theorem prefix_line {body p : List Nat} (hb : 10 ∉ body) (hp : p <+: body ++ [10]) : p = body ++ [10] ∨ 10 ∉ p := by
  rcases List.prefix_concat_iff.mp hp with h | h
  · exact .inl h
  · exact .inr fun m => hb (h.subset m)

theorem hex_chars (bs : List Byte) : 58 ∉ hex bs ∧ 10 ∉ hex bs :=
  ⟨fun h => absurd (mem_hex bs _ h) (by decide), fun h => absurd (mem_hex bs _ h) (by decide)⟩

theorem newline_label (k : Kind) : 10 ∉ k.label := by cases k <;> decide

/-- The texts of the lines of these digests, and of the notice of an abort. -/
def tailTexts (ds : List (Kind × List Byte)) (aborted : Bool) : List (List Nat) :=
  (ds.map fun d => d.1.label ++ hex d.2 ++ [10]) ++ if aborted then [codes "hmacsum: ABORTED" ++ [10]] else []

theorem read_tail {aborted : Bool} : ∀ (ds : List (Kind × List Byte)) {w : List Nat} (line : List Nat), Cut (tailTexts ds aborted) w → ((completeLines line w).filterMap readLine).Sublist ds
  | [], w, line, h => by
    cases aborted with
    | false =>
      cases h
      exact List.Sublist.refl _
    | true =>
      rcases h with _ | ⟨hp, ⟨⟩⟩
      rename_i p
      rcases prefix_line (by decide) hp with rfl | hp
      · rw [List.append_nil, completeLines_append [10] _ line (by decide), completeLines, if_pos rfl]
        simp [completeLines, readLine_aborted]
      · rw [completeLines_append [] p line hp]
        exact List.Sublist.refl _
  | d :: ds, _, line, h => by
    rcases h with _ | ⟨hp, h⟩
    rename_i p w
    have hb : 10 ∉ d.1.label ++ hex d.2 := by
      simp only [List.mem_append, not_or]
      exact ⟨newline_label _, (hex_chars _).2⟩
    rcases prefix_line hb hp with rfl | hp
    · rw [List.append_assoc, completeLines_append ([10] ++ w) _ line hb, List.singleton_append, completeLines, if_pos rfl, List.filterMap_cons]
      cases hr : readLine (line ++ (d.1.label ++ hex d.2)) with
      | none => exact (read_tail ds [] h).cons d
      | some x =>
        obtain ⟨-, h1, h2⟩ := readLine_digest (k' := x.1) (d := x.2) (hex_chars _).1 hr
        rw [unhex_hex] at h2
        injection h2 with h2
        have hx : x = d := Prod.ext h1 h2.symm
        subst hx
        exact (read_tail ds [] h).cons_cons x
    · rw [completeLines_append w p line hp]
      exact (read_tail ds _ h).cons d

theorem Cut.extend : ∀ {ts : List (List Nat)} {w : List Nat} (us : List (List Nat)), Cut ts w → Cut (ts ++ us) w
  | [], _, [], h => h
  | [], _, u :: us, h => by
    cases h
    exact .cons (p := []) (List.nil_prefix) (Cut.extend us Cut.nil)
  | t :: ts, _, us, h => by
    rcases h with _ | ⟨hp, h⟩
    exact .cons hp (h.extend us)

/-- Whatever the device did: the digests that a reader finds are among those printed, in their order. -/
theorem read_cut {version : List Nat} (hv : 10 ∉ version) {aborted : Bool} (ds : List (Kind × List Byte)) {w : List Nat}
    (h : Cut ((codes "hmacsum " ++ version ++ [10] ++ [10]) :: tailTexts ds aborted) w) : (readDigests w).Sublist ds := by
  rcases h with _ | ⟨hp, h⟩
  rename_i p w
  have hb : 10 ∉ codes "hmacsum " ++ version := by
    simp only [List.mem_append, not_or]
    exact ⟨by decide, hv⟩
  unfold readDigests
  rcases List.prefix_concat_iff.mp hp with rfl | hp
  · rw [show codes "hmacsum " ++ version ++ [10] ++ [10] ++ w = (codes "hmacsum " ++ version) ++ (10 :: 10 :: w) by simp, completeLines_append _ _ [] hb, completeLines, if_pos rfl, completeLines, if_pos rfl,
      List.nil_append, List.filterMap_cons, readLine_version, List.filterMap_cons, readLine_nil]
    exact read_tail ds [] h
  · rcases prefix_line hb hp with rfl | hp
    · rw [show codes "hmacsum " ++ version ++ [10] ++ w = (codes "hmacsum " ++ version) ++ (10 :: w) by simp, completeLines_append _ _ [] hb, completeLines, if_pos rfl, List.nil_append, List.filterMap_cons, readLine_version]
      exact read_tail ds [] h
    · rw [completeLines_append w p [] hp]
      exact read_tail ds _ h

theorem read_all : ∀ (ds : List (Kind × List Byte)), (∀ d ∈ ds, d.2.length = d.1.hashSize) → (completeLines [] (ds.flatMap fun d => d.1.label ++ hex d.2 ++ [10])).filterMap readLine = ds
  | [], _ => rfl
  | d :: ds, h => by
    have hb : 10 ∉ d.1.label ++ hex d.2 := by
      simp only [List.mem_append, not_or]
      exact ⟨newline_label _, (hex_chars _).2⟩
    rw [List.flatMap_cons, List.append_assoc, completeLines_append _ _ [] hb, List.singleton_append, completeLines, if_pos rfl, List.nil_append, List.filterMap_cons]
    obtain ⟨x, hr⟩ := readLine_of d.1 (hex d.2) d.2 (by rw [hex_length, h d (by simp)]) (unhex_hex _)
    obtain ⟨-, h1, h2⟩ := readLine_digest (q := []) (k' := x.1) (d := x.2) (hex_chars d.2).1 hr
    rw [unhex_hex] at h2
    injection h2 with h2
    have hx : x = d := Prod.ext h1 h2.symm
    subst hx
    rw [hr, read_all ds fun d hd => h d (by simp [hd])]

/-- The output with nothing lost is read completely. -/
theorem read_output {version : List Nat} (hv : 10 ∉ version) (ds : List (Kind × List Byte)) (h : ∀ d ∈ ds, d.2.length = d.1.hashSize) : readDigests (outputText version ds) = ds := by
  have hb : 10 ∉ codes "hmacsum " ++ version := by
    simp only [List.mem_append, not_or]
    exact ⟨by decide, hv⟩
  unfold readDigests outputText
  rw [show ∀ w, codes "hmacsum " ++ version ++ [10, 10] ++ w = (codes "hmacsum " ++ version) ++ (10 :: 10 :: w) by simp, completeLines_append _ _ [] hb, completeLines, if_pos rfl, completeLines, if_pos rfl,
    List.nil_append, List.filterMap_cons, readLine_version, List.filterMap_cons, readLine_nil]
  exact read_all ds h

end Model
