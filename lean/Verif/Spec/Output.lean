import Verif.Spec.Hex
import Verif.Spec.DigestTypes
/-! The output of hmacsum for a reader: another program, or a person with the output before them. Characters are their numeric values. -/

namespace Spec

/-- The name of an algorithm in the output. -/
def Kind.title : Kind → List Nat
  | .md5 => codes "MD5"
  | .sha1 => codes "SHA1"
  | .sha224 => codes "SHA224"
  | .sha256 => codes "SHA256"
  | .sha512 => codes "SHA512"

/-- What stands before a digest. The digests are aligned with tabs. -/
def Kind.label (k : Kind) : List Nat := k.title ++ codes " hash calculated over data" ++ 58 :: List.replicate (if k.title.length ≤ 4 then 2 else 1) 9

/-- The lines that are complete: those that end in a newline. `line` is what was read of the current line. -/
def completeLines (line : List Nat) : List Nat → List (List Nat)
  | [] => []
  | c :: t => if c = 10 then line :: completeLines [] t else completeLines (line ++ [c]) t

/-- A line that tells a digest: the label and the right number of digits. -/
def readLine (line : List Nat) : Option (Kind × List Byte) :=
  printOrder.findSome? fun k =>
    if k.label <+: line ∧ line.length = k.label.length + 2 * k.hashSize then (unhex (line.drop k.label.length)).map (k, ·) else none

/-- The digests that a reader finds in the output. -/
def readDigests (output : List Nat) : List (Kind × List Byte) := (completeLines [] output).filterMap readLine

/-- The output for these digests: the version line, an empty line, and a line for each. -/
def outputText (version : List Nat) (ds : List (Kind × List Byte)) : List Nat := codes "hmacsum " ++ version ++ [10, 10] ++ ds.flatMap fun d => d.1.label ++ hex d.2 ++ [10]

example : readDigests (outputText (codes "20240417") [(.md5, List.replicate 16 0xa7), (.sha1, List.replicate 20 1)]) = [(.md5, List.replicate 16 0xa7), (.sha1, List.replicate 20 1)] := by decide +kernel

end Spec
