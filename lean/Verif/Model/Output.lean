import Verif.Model.Signal
/-! The calls of `fprintf` on standard output in hmacsum, with a device that may fail: each call writes its text or, if the device is full or the write is interrupted, a beginning of it. The stream is not buffered
(`hmactools_output_initialize( _IONBF )`, hmacsum.c:158-160; the program prints nothing on standard output if this fails). The program never uses the results of the calls. -/

namespace Model

open Spec (Line Kind codes)

/-- Texts that are given by the build and the locale: `LIBHMAC_VERSION_STRING` (include/libhmac/definitions.h.in:31), `PACKAGE_BUGREPORT` (of configure.ac), and the translation of a text by `_()`
(hmactools/hmactools_i18n.h). -/
structure Texts where
  version : List Nat
  bugReport : List Nat
  translate : List Nat → List Nat

/-- The text that `fprintf` writes, for formats with the conversion `%s` only; `PRIs_SYSTEM` is "s" (common/types.h.in). Other conversions and missing arguments are undefined. (Not code of /repo: the C library. For the calls
in hmactools/hmacsum.c, hmactools/hmactools_output.c and hmactools/sum_handle.c:1659-1690.) -/
def formatText : List Nat → List (List Nat) → Res (List Nat)
  | [], _ => .ok []
  | c :: f, args =>
    if c ≠ 37 then do
      let t ← formatText f args
      pure (c :: t)
    else match f, args with
      | d :: f, a :: args =>
        if d = 115 then do
          let t ← formatText f args
          pure (a ++ t)
        else .ub
      | _, _ => .ub

/-- Standard output: what was written, and the number of calls so far. (`stdout` in hmacsum.c:169, 187, 198, 214, 226, 334, 379.) -/
structure Stream where
  written : List Nat
  calls : Nat

/-- `fprintf` on a stream without buffer. For each call the device takes all (`none`) or at most so many characters. (Not code of /repo: the C library, for hmacsum.c:158-160.) -/
def printText (device : Nat → Option Nat) (format : List Nat) (args : List (List Nat)) (s : Stream) : Res (Int × Stream) := do
  let t ← formatText format args
  match device s.calls with
  | none => pure ((t.length : Int), ⟨s.written ++ t, s.calls + 1⟩)
  | some n => pure (if n < t.length then -1 else (t.length : Int), ⟨s.written ++ t.take n, s.calls + 1⟩)

/-- A sequence of calls whose results are not used (hmacsum.c:66-80). -/
def printTexts (device : Nat → Option Nat) : List (List Nat × List (List Nat)) → Stream → Res Stream
  | [], s => .ok s
  | (format, args) :: rest, s => do
    let (_, s) ← printText device format args s
    printTexts device rest s

/-- The calls of `hmactools_output_version_fprint` (hmactools/hmactools_output.c:138-155) with `program` of hmacsum.c:136. -/
def versionCalls (T : Texts) : List (List Nat × List (List Nat)) := [(codes "%s %s\n\n", [codes "hmacsum", T.version])]

/-- The calls of `usage_fprint` (hmacsum.c:59-81). -/
def usageCalls : List (List Nat × List (List Nat)) := [
  (codes "Use hmacsum to calculate a Hash-based Message Authentication Code (HMAC)\nof the data in a file.\n\n", []),
  (codes "Usage: hmacsum [ -d digest_type ] [ -p process_buffer_size ] [ -hvV ]\n               source\n\n", []),
  (codes "\tsource: the source file\n\n", []),
  (codes "\t-d:     calculate digest (hash) types option: md5 (default), sha1,\n\t        sha224, sha256, sha512 (multiple types can be combined\n\t        with a ,)\n", []),
  (codes "\t-p:     specify the process buffer size (default is 32768 bytes)\n", []),
  (codes "\t-h:     shows this help\n", []),
  (codes "\t-v:     verbose output to stderr\n", []),
  (codes "\t-V:     print version\n", [])]

/-- The calls of `hmactools_output_copyright_fprint` (hmactools/hmactools_output.c:106-134). -/
def copyrightCalls (T : Texts) : List (List Nat × List (List Nat)) := [
  (T.translate (codes "Copyright (C) 2011-2024, %s.\n"), [T.translate (codes "Joachim Metz")]),
  (T.translate (codes "This is free software; see the source for copying conditions. There is NO\nwarranty; not even for MERCHANTABILITY or FITNESS FOR A PARTICULAR PURPOSE.\n"), []),
  (T.translate (codes "Report bugs to <%s>.\n"), [T.bugReport])]

/-- The format of the line of a digest (sum_handle.c:1661, 1668, 1675, 1682, 1689). -/
def digestFormat : Kind → List Nat
  | .md5 => codes "MD5 hash calculated over data:\t\t%s\n"
  | .sha1 => codes "SHA1 hash calculated over data:\t\t%s\n"
  | .sha224 => codes "SHA224 hash calculated over data:\t%s\n"
  | .sha256 => codes "SHA256 hash calculated over data:\t%s\n"
  | .sha512 => codes "SHA512 hash calculated over data:\t%s\n"

/-- The calls of `fprintf` for what `Model.mHmacsum` has as one line of output (hmacsum.c:168-170, 186, 197, 213, 225, 332-335 with sum_handle.c:1657-1691, 378-381). -/
def lineCalls (T : Texts) : Line → List (List Nat × List (List Nat))
  | .version => versionCalls T
  | .usage => usageCalls
  | .copyright => copyrightCalls T
  | .digest k text => [(digestFormat k, [text])]
  | .aborted => [(codes "%s: ABORTED\n", [codes "hmacsum"])]

/-- What is written on standard output. (hmacsum.c:128-402; the calls are made here at the end. In between nothing reads the stream.) -/
def standardOutput (T : Texts) (device : Nat → Option Nat) (lines : List Line) : Res Stream := printTexts device (lines.flatMap (lineCalls T)) ⟨[], 0⟩

/-- The main program with the characters it writes on standard output (hmacsum.c:128-402). -/
def bHmacsum (E : Environment) (C : SystemCalls) (T : Texts) (device : Nat → Option Nat) (args : List (List Nat)) (W : World) : Res (ExitM × Stream × World) := do
  let (x, W) ← mHmacsum E C args W
  let s ← standardOutput T device x.exit.out
  pure (x, s, W)

/-- The lines that a process printed, when it exits or is killed (hmacsum.c:128-402). -/
def Fate.lines : Fate → List Line
  | .exited x _ => x.exit.out
  | .killed p => p.out

/-- The main program with signals (`Model.sHmacsum`) and with the characters it writes. (hmacsum.c:85-402.) -/
def bsHmacsum (E : Environment) (C : SystemCalls) (S : Signals) (T : Texts) (device : Nat → Option Nat) (args : List (List Nat)) (W : World) : Res (Fate × Stream) := do
  let f ← sHmacsum E C S args W
  let s ← standardOutput T device f.lines
  pure (f, s)

end Model
