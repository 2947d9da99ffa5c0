import Verif.Base
/-! The texts of exceptions of the Python module. -/

namespace Spec

/-- The part of a text that is kept: at most 2047 bytes, up to the first zero byte. -/
def kept (b : List Byte) : List Byte := (b.take 2047).takeWhile (· ≠ 0)

/-- A text on one line: line feeds and carriage returns replaced by spaces. -/
def oneLine (b : List Byte) : List Byte := b.map fun c => if c = 10 ∨ c = 13 then 32 else c

/-- A text without a full stop at its end. -/
def withoutStop (b : List Byte) : List Byte := if b.getLast? = some 46 then b.dropLast else b

/-- The bytes of a text in ASCII. -/
def ascii (s : String) : List Byte := s.toList.map fun c => BitVec.ofNat 8 c.toNat

/-- The text of the exception for a failure of the library: the message, and the description of the error if there is one. -/
def failureText (message : List Byte) (details : Option (List Byte)) : List Byte :=
  match details with
  | none => kept message
  | some d => kept message ++ 32 :: oneLine (kept d)

/-- The text that replaces an exception: the message, and the description of that exception if there is one. -/
def replacedText (message : List Byte) (description : Option (List Byte)) : List Byte :=
  withoutStop (kept message) ++
    match description with
    | none => ascii "."
    | some d => ascii " with error: " ++ d.takeWhile (· ≠ 0) ++ ascii "."

end Spec
