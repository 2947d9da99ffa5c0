import Verif.Spec.PyError
/-! pyhmac/pyhmac_error.c: the texts of exceptions. What other libraries do is given by their outcomes: formatting (PyOS_vsnprintf), libcerror_error_backtrace_sprint, PyObject_Repr and PyUnicode_AsUTF8String (the branches for Python 3). -/

namespace Model

/-- PYHMAC_ERROR_STRING_SIZE (pyhmac/pyhmac_error.h:31). -/
def pyErrorSize : Nat := 2048

/-- What is raised: the class passed by the caller, or ValueError; and the text. (PyErr_Format at pyhmac/pyhmac_error.c:86, 109, 402, 411.) -/
inductive PyRaised (cls : Type) where
  | given (c : cls) (text : List Byte)
  | valueError (text : List Byte)
  deriving DecidableEq

/-- narrow_string_length (common/narrow_string.h:58-59), `strlen`: reading past the end of the array is undefined behaviour. -/
def byteStrlen : List Byte → Res Nat
  | [] => .ub
  | b :: t => if b = 0 then .ok 0 else do
    let n ← byteStrlen t
    pure (n + 1)

/-- The string that `%s` prints. (The formats at pyhmac/pyhmac_error.c:402-415.) -/
def byteString (a : List Byte) : Res (List Byte) := do
  let n ← byteStrlen a
  pure (a.take n)

/-- PyOS_vsnprintf into an array of `size` elements (as documented by Python): the text is cut and terminated; the last element is always zero. `none`: a negative result. (Called at pyhmac/pyhmac_error.c:98, 238, 360.) -/
def vsnprintf (buf : List Byte) (size : Nat) (text : Option (List Byte)) : Res (Int × List Byte) :=
  match text with
  | none => do
    let buf ← wr buf (size - 1) 0
    pure (-1, buf)
  | some t => do
    let out := t.take (size - 1) ++ [0]
    let buf ← memCopy buf 0 out 0 out.length
    let buf ← wr buf (size - 1) 0
    pure (t.length, buf)

/-- The loop that replaces the ends of lines (pyhmac_error.c:385-397): the array and the index at the end. -/
def replaceLines : Nat → Nat → List Byte → Res (Nat × List Byte)
  | fuel, i, s =>
    if i < pyErrorSize then
      match fuel with
      | 0 => .diverge
      | fuel + 1 => do
        let c ← rd s i
        if c = 0 then pure (i, s)
        else if c = 10 ∨ c = 13 then do
          let s ← wr s i 32
          replaceLines fuel (i + 1) s
        else replaceLines fuel (i + 1) s
    else .ok (i, s)

/-- The array with the description on one line and terminated (pyhmac_error.c:385-401). -/
def joinLines (s : List Byte) : Res (List Byte) := do
  let (i, s) ← replaceLines pyErrorSize 0 s
  if pyErrorSize ≤ i then wr s (pyErrorSize - 1) 0 else pure s

/-- `pyhmac_error_raise` (pyhmac_error.c:330-417). `format`: `none` is a NULL format string; inside, `none` is a failure to format. `sprint`: `none` is a NULL error; inside, `none` is the result -1 of libcerror_error_backtrace_sprint, otherwise
the contents of the array after it. `xs`: the array `exception_string` on entry. -/
def pyErrorRaise {cls} (c : cls) (format : Option (Option (List Byte))) (sprint : Option (Option (List Byte))) (xs : List Byte) : Res (PyRaised cls) :=
  match format with
  | none => .ok (.valueError (Spec.ascii "pyhmac_error_raise: missing format string."))
  | some text => do
    let (n, xs) ← vsnprintf xs pyErrorSize text
    if n < 0 then pure (.valueError (Spec.ascii "pyhmac_error_raise: unable to format exception string."))
    else match sprint with
      | some (some s) => do
        let s ← joinLines s
        let x ← byteString xs
        let e ← byteString s
        pure (.given c (x ++ Spec.ascii " " ++ e))
      | _ => do
        let x ← byteString xs
        pure (.given c x)

/-- References that the code holds and nobody releases any more, per object: type, value and traceback of the fetched exception, its description, and the encoded description. (pyhmac/pyhmac_error.c:124-175 and 264-304.) -/
structure PyRefs where
  type : Int
  value : Int
  traceback : Int
  string : Int
  utf8 : Int
  deriving DecidableEq

/-- What the interpreter does for the two functions that fetch the exception: is one set (PyErr_Fetch), its description (PyObject_Repr, `none`: NULL) and whether it can be encoded. (pyhmac/pyhmac_error.c:124-137 and 264-277.) -/
structure PyFetched where
  set : Bool
  repr : Option (List Byte)
  encodes : Bool

/-- Removal of the full stop (pyhmac_error.c:116-123, 256-263). -/
def stripStop (es : List Byte) : Res (List Byte) := do
  let len ← byteStrlen es
  if 1 ≤ len then do
    let b ← rd es (len - 1)
    if b = 46 then wr es (len - 1) 0 else pure es
  else pure es

/-- The common part of `pyhmac_error_fetch` (pyhmac_error.c:93-141) and `pyhmac_error_fetch_and_raise` (pyhmac_error.c:233-281): formatting, removal of the full stop, PyErr_Fetch and the description.
The result: `none` if formatting fails; otherwise both strings and the references. PyUnicode_AsUTF8String reads the type of its argument: NULL is undefined behaviour. -/
def pyFetch (text : Option (List Byte)) (I : PyFetched) (es : List Byte) : Res (Option (List Byte × Option (List Byte) × PyRefs)) := do
  let (n, es) ← vsnprintf es pyErrorSize text
  if n < 0 then pure none
  else do
    let es ← stripStop es
    let r : Int := if I.set then 1 else 0
    match I.repr with
    | none => .ub
    | some d =>
      if I.encodes then pure (some (es, some (d ++ [0]), ⟨r, r, r, 1, 1⟩))
      else pure (some (es, none, ⟨r, r, r, 1, 0⟩))

/-- The text printed from both strings (pyhmac_error.c:145-163, 285-299). -/
def pyFetchedText (es : List Byte) (exception : Option (List Byte)) : Res (List Byte) := do
  let e ← byteString es
  match exception with
  | some d => do
    let d ← byteString d
    pure (e ++ Spec.ascii " with error: " ++ d ++ Spec.ascii ".")
  | none => pure (e ++ Spec.ascii ".")

/-- `pyhmac_error_fetch` (pyhmac_error.c:59-175): the text of the error that is set, or the exception raised instead; and the references. -/
def pyErrorFetch {cls} (c : cls) (format : Option (Option (List Byte))) (I : PyFetched) (es : List Byte) : Res (PyRaised cls × PyRefs) :=
  match format with
  | none => .ok (.valueError (Spec.ascii "pyhmac_error_fetch: missing format string."), ⟨0, 0, 0, 0, 0⟩)
  | some text => do
    let f ← pyFetch text I es
    match f with
    | none => pure (.valueError (Spec.ascii "pyhmac_error_fetch: unable to format error string."), ⟨0, 0, 0, 0, 0⟩)
    | some (es, d, r) => do
      let t ← pyFetchedText es d
      let r := if d.isSome then { r with utf8 := r.utf8 - 1 } else r
      pure (.given c t, { r with string := r.string - 1 })

/-- `pyhmac_error_fetch_and_raise` (pyhmac_error.c:201-304): unlike the function above it does not release the encoded description. -/
def pyErrorFetchAndRaise {cls} (c : cls) (format : Option (Option (List Byte))) (I : PyFetched) (es : List Byte) : Res (PyRaised cls × PyRefs) :=
  match format with
  | none => .ok (.valueError (Spec.ascii "pyhmac_error_fetch_and_raise: missing format string."), ⟨0, 0, 0, 0, 0⟩)
  | some text => do
    let f ← pyFetch text I es
    match f with
    | none => pure (.valueError (Spec.ascii "pyhmac_error_fetch_and_raise: unable to format exception string."), ⟨0, 0, 0, 0, 0⟩)
    | some (es, d, r) => do
      let t ← pyFetchedText es d
      pure (.given c t, { r with string := r.string - 1 })

end Model
