import Verif.Proofs.PyError
/-! C57: the texts of exceptions of the Python module. -/

namespace Props

open Model Spec

/-- C57. A failure of the library is raised as an exception of the class given, with the message and, if the library described the error, the description on one line. Whatever the description is (even without an end), nothing is read
outside the arrays; both texts are cut at 2047 bytes. -/
theorem C57_failure_text {cls} (c : cls) (message : List Byte) (sprint : Option (Option (List Byte))) (xs : List Byte) (hx : xs.length = 2048) (hs : ∀ s, sprint = some (some s) → s.length = 2048) :
    pyErrorRaise c (some (some message)) sprint xs = .ok (.given c (failureText message sprint.join)) := by
  obtain ⟨r, hr⟩ := vsnprintf_eq xs message hx
  unfold pyErrorRaise
  simp only
  rw [hr, Res.ok_bind]
  simp only
  rw [if_neg (by omega), byteString_eq]
  rcases sprint with _ | _ | s
  · rfl
  · rfl
  · obtain ⟨s', h1, h2⟩ := sprinted s (hs s rfl)
    simp only [h1, h2, Res.ok_bind]
    simp [failureText, kept, ascii]

/-- C57. So the text is one line if the message is, contains no zero byte, and has at most 4095 bytes. -/
theorem C57_failure_one_line {cls} (c : cls) (message : List Byte) (sprint : Option (Option (List Byte))) (xs : List Byte) (hx : xs.length = 2048) (hs : ∀ s, sprint = some (some s) → s.length = 2048)
    (hm : ∀ b ∈ message, b ≠ 10 ∧ b ≠ 13) :
    ∃ text, pyErrorRaise c (some (some message)) sprint xs = .ok (.given c text) ∧ (∀ b ∈ text, b ≠ 10 ∧ b ≠ 13 ∧ b ≠ 0) ∧ text.length ≤ 4095 := by
  refine ⟨_, C57_failure_text c message sprint xs hx hs, ?_, ?_⟩
  · have h1 : ∀ b ∈ kept message, b ≠ 10 ∧ b ≠ 13 ∧ b ≠ 0 := fun b hb =>
      have h := hm b (List.mem_of_mem_take (List.takeWhile_subset _ hb))
      ⟨h.1, h.2, kept_ne _ b hb⟩
    cases sprint.join with
    | none => exact h1
    | some d =>
      intro b hb
      rcases List.mem_append.mp hb with hb | hb
      · exact h1 b hb
      rcases List.mem_cons.mp hb with rfl | hb
      · decide
      · refine ⟨?_, ?_, oneLine_ne (kept_ne d) b hb⟩ <;>
        · obtain ⟨y, -, rfl⟩ := List.mem_map.mp hb
          by_cases hn : y = 10 ∨ y = 13
          · rw [if_pos hn]; decide
          · rw [if_neg hn]; simpa using fun h => hn (by simp [h])
  · have h2 : ∀ b : List Byte, (kept b).length ≤ 2047 := fun b => Nat.le_trans (List.Sublist.length_le (List.takeWhile_sublist _)) (by rw [List.length_take]; omega)
    cases sprint.join with
    | none => exact Nat.le_trans (h2 _) (by decide)
    | some d =>
      have := h2 message
      have := h2 d
      simp only [failureText, oneLine, List.length_append, List.length_cons, List.length_map]
      omega

/-- A message and a description of three lines that fills the array. -/
example := C57_failure_one_line () (ascii "pyhmac_md5_calculate: unable to calculate MD5 from data.") (some (some (List.replicate 1000 65 ++ [10, 13, 10] ++ List.replicate 1045 66))) (List.replicate 2048 7)
  List.length_replicate (fun s h => by
    cases h
    simp [-List.reduceReplicate]) (by decide)

/-- The lines are joined. -/
example : failureText (ascii "a.") (some (ascii "b\nc" ++ [0])) = ascii "a. b c" := by decide

/-- C57. If the message cannot be formatted, or there is none, a ValueError says so. -/
theorem C57_no_message {cls} (c : cls) (sprint : Option (Option (List Byte))) (xs : List Byte) (hx : xs.length = 2048) :
    pyErrorRaise c none sprint xs = .ok (.valueError (ascii "pyhmac_error_raise: missing format string.")) ∧
      pyErrorRaise c (some none) sprint xs = .ok (.valueError (ascii "pyhmac_error_raise: unable to format exception string.")) := by
  refine ⟨rfl, ?_⟩
  unfold pyErrorRaise vsnprintf
  simp [wr, hx, pyErrorSize]

/-- The message without its full stop. -/
theorem stripStop_eq (message r : List Byte) : ∃ es, stripStop (message.take 2047 ++ 0 :: r) = .ok es ∧ byteString es = .ok (withoutStop (kept message)) := by
  unfold stripStop
  rw [byteStrlen_eq, Res.ok_bind]
  generalize hes : message.take 2047 = m
  have hk : m.takeWhile (fun x : Byte => decide (x ≠ 0)) = kept message := by rw [kept, hes]
  have hsplit : ∃ r', m ++ 0 :: r = kept message ++ 0 :: r' := by
    have := List.takeWhile_append_dropWhile (p := fun x : Byte => decide (x ≠ 0)) (l := m)
    rw [hk] at this
    cases hd : m.dropWhile (fun x : Byte => decide (x ≠ 0)) with
    | nil => rw [hd, List.append_nil] at this; exact ⟨r, by rw [this]⟩
    | cons z t =>
      have hz : z = 0 := by
        have := List.head?_dropWhile_not (fun x : Byte => decide (x ≠ 0)) m
        rw [hd] at this
        simpa using this
      rw [hd, hz] at this
      exact ⟨t ++ 0 :: r, by rw [← this]; simp⟩
  obtain ⟨r', hr'⟩ := hsplit
  rw [hk, hr']
  have hz := kept_ne message
  generalize kept message = b at hz
  rcases List.eq_nil_or_concat b with rfl | ⟨b', x, rfl⟩
  · exact ⟨_, rfl, by rw [byteString_eq]; rfl⟩
  · rw [List.concat_eq_append] at hz ⊢
    have h1 : 1 ≤ (b' ++ [x]).length := by simp
    have h2 : rd ((b' ++ [x]) ++ 0 :: r') ((b' ++ [x]).length - 1) = .ok x := by simp [rd]
    rw [if_pos h1, h2, Res.ok_bind]
    by_cases hs : x = 46
    · have h3 : wr ((b' ++ [x]) ++ 0 :: r') ((b' ++ [x]).length - 1) 0 = .ok (b' ++ 0 :: 0 :: r') := by
        rw [wr, if_pos (by simp)]
        simp
      rw [if_pos hs, h3]
      refine ⟨_, rfl, ?_⟩
      rw [byteString_eq, takeWhile_self fun y hy => hz y (by simp [hy])]
      simp [withoutStop, hs]
    · rw [if_neg hs]
      refine ⟨_, rfl, ?_⟩
      rw [byteString_eq, takeWhile_self hz]
      rw [withoutStop, if_neg (by simpa using hs)]

/-- The fetched strings. -/
theorem pyFetch_eq (message d : List Byte) (set encodes : Bool) (es : List Byte) (hx : es.length = 2048) :
    ∃ es', pyFetch (some message) ⟨set, some d, encodes⟩ es = .ok (some (es', if encodes then some (d ++ [0]) else none,
      ⟨if set then 1 else 0, if set then 1 else 0, if set then 1 else 0, 1, if encodes then 1 else 0⟩)) ∧ byteString es' = .ok (withoutStop (kept message)) := by
  obtain ⟨r, hr⟩ := vsnprintf_eq es message hx
  obtain ⟨es', h1, h2⟩ := stripStop_eq message r
  refine ⟨es', ?_, h2⟩
  unfold pyFetch
  rw [hr, Res.ok_bind]
  simp only
  rw [if_neg (by omega), h1, Res.ok_bind]
  cases encodes <;> rfl

/-- C57 (partial: the description of the old exception must not fail, see `C57_description_undefined`; and references are lost, see `C57_references_lost`). An exception found by the module is replaced by one of the class given, whose text is
the message followed by the description of the old one (if that can be encoded). -/
theorem C57_replaced_text_partial {cls} (c : cls) (message d : List Byte) (set encodes : Bool) (es : List Byte) (hx : es.length = 2048) :
    ∃ refs, pyErrorFetchAndRaise c (some (some message)) ⟨set, some d, encodes⟩ es = .ok (.given c (replacedText message (if encodes then some d else none)), refs) ∧ refs.string = 0 := by
  obtain ⟨es', h1, h2⟩ := pyFetch_eq message d set encodes es hx
  refine ⟨⟨if set then 1 else 0, if set then 1 else 0, if set then 1 else 0, 0, if encodes then 1 else 0⟩, ?_, rfl⟩
  · unfold pyErrorFetchAndRaise
    simp only [h1, Res.ok_bind, pyFetchedText, h2]
    cases encodes
    · rfl
    · simp only [if_true, byteString_eq, Res.ok_bind, Res.pure_eq, replacedText]
      rw [List.append_assoc, List.append_assoc, List.append_assoc]
      rfl

/-- C57 (partial, as before). The same text for the function that sets an error; the encoded description is released. -/
theorem C57_fetched_text_partial {cls} (c : cls) (message d : List Byte) (set encodes : Bool) (es : List Byte) (hx : es.length = 2048) :
    ∃ refs, pyErrorFetch c (some (some message)) ⟨set, some d, encodes⟩ es = .ok (.given c (replacedText message (if encodes then some d else none)), refs) ∧ refs.string = 0 ∧ refs.utf8 = 0 := by
  obtain ⟨es', h1, h2⟩ := pyFetch_eq message d set encodes es hx
  refine ⟨⟨if set then 1 else 0, if set then 1 else 0, if set then 1 else 0, 0, 0⟩, ?_, rfl, rfl⟩
  · unfold pyErrorFetch
    simp only [h1, Res.ok_bind, pyFetchedText, h2]
    cases encodes
    · rfl
    · simp only [if_true, byteString_eq, Res.ok_bind, Res.pure_eq, replacedText]
      rw [List.append_assoc, List.append_assoc, List.append_assoc]
      rfl

example := C57_replaced_text_partial () (ascii "pyhmac_md5_calculate: unable to determine if object is of type bytes.") (ascii "RuntimeError('x')") true true (List.replicate 2048 7) List.length_replicate

example : replacedText (ascii "a.") (some (ascii "E('x')")) = ascii "a with error: E('x')." := by decide

/-- C57 is false without the restriction: if the description of the exception fails the behaviour is undefined (NULL is handed to PyUnicode_AsUTF8String). -/
theorem C57_description_undefined {cls} (c : cls) (message : List Byte) (set encodes : Bool) (es : List Byte) (hx : es.length = 2048) :
    pyErrorFetchAndRaise c (some (some message)) ⟨set, none, encodes⟩ es = .ub := by
  obtain ⟨r, hr⟩ := vsnprintf_eq es message hx
  obtain ⟨es', h1, -⟩ := stripStop_eq message r
  unfold pyErrorFetchAndRaise pyFetch
  simp only [hr, Res.ok_bind]
  rw [if_neg (by omega), h1]
  rfl

/-- C57 is false for references: each replaced exception loses one reference to its type, its value, its traceback and its encoded description, which are never released. -/
theorem C57_references_lost {cls} (c : cls) (message d : List Byte) (es : List Byte) (hx : es.length = 2048) :
    ∃ r, pyErrorFetchAndRaise c (some (some message)) ⟨true, some d, true⟩ es = .ok (r, ⟨1, 1, 1, 0, 1⟩) := by
  obtain ⟨es', h1, h2⟩ := pyFetch_eq message d true true es hx
  refine ⟨.given c (withoutStop (kept message) ++ ascii " with error: " ++ d.takeWhile (· ≠ 0) ++ ascii "."), ?_⟩
  unfold pyErrorFetchAndRaise
  simp only [h1, Res.ok_bind, pyFetchedText, h2, if_true, byteString_eq]
  rfl

/-- C57. The same for the functions that replace an exception; they then take no reference. -/
theorem C57_no_replacement {cls} (c : cls) (I : PyFetched) (es : List Byte) (hx : es.length = 2048) :
    pyErrorFetchAndRaise c none I es = .ok (.valueError (ascii "pyhmac_error_fetch_and_raise: missing format string."), ⟨0, 0, 0, 0, 0⟩) ∧
      pyErrorFetchAndRaise c (some none) I es = .ok (.valueError (ascii "pyhmac_error_fetch_and_raise: unable to format exception string."), ⟨0, 0, 0, 0, 0⟩) ∧
      pyErrorFetch c none I es = .ok (.valueError (ascii "pyhmac_error_fetch: missing format string."), ⟨0, 0, 0, 0, 0⟩) ∧
      pyErrorFetch c (some none) I es = .ok (.valueError (ascii "pyhmac_error_fetch: unable to format error string."), ⟨0, 0, 0, 0, 0⟩) := by
  refine ⟨rfl, ?_, rfl, ?_⟩ <;> simp [pyErrorFetchAndRaise, pyErrorFetch, pyFetch, vsnprintf, wr, hx, pyErrorSize]

/-- Also where the description of the exception would fail. -/
example := C57_no_replacement () ⟨true, none, false⟩ (List.replicate 2048 7) List.length_replicate

/-- C57. The references that a replacement leaves behind, in all cases: one to the type, the value and the traceback if an exception was set; `pyhmac_error_fetch_and_raise` also one to the encoded description, if it could be encoded. -/
theorem C57_references_left {cls} (c : cls) (message d : List Byte) (set encodes : Bool) (es : List Byte) (hx : es.length = 2048) :
    (∃ r, pyErrorFetchAndRaise c (some (some message)) ⟨set, some d, encodes⟩ es = .ok (r, ⟨set.toInt, set.toInt, set.toInt, 0, encodes.toInt⟩)) ∧
      ∃ r, pyErrorFetch c (some (some message)) ⟨set, some d, encodes⟩ es = .ok (r, ⟨set.toInt, set.toInt, set.toInt, 0, 0⟩) := by
  obtain ⟨es', h1, h2⟩ := pyFetch_eq message d set encodes es hx
  unfold pyErrorFetchAndRaise pyErrorFetch
  simp only [h1, Res.ok_bind, pyFetchedText, h2]
  cases set <;> cases encodes <;> simp only [if_true, Bool.false_eq_true, if_false, byteString_eq, Res.ok_bind] <;> exact ⟨⟨_, rfl⟩, ⟨_, rfl⟩⟩

example := C57_references_left () (ascii "a.") (ascii "E()") false true (List.replicate 2048 7) List.length_replicate

end Props
