import Verif.Base
/-! hmactools/hmactools_getopt.c: the option parser for systems without getopt. -/

namespace Model

/-- The global variables (hmactools_getopt.c:40-52) without `optopt`. Pointers into the argument strings are pairs of argument number and offset. -/
structure OptState where
  optind : Nat
  optarg : Option (Nat × Nat)
  next : Option (Nat × Nat)
  deriving DecidableEq

/-- Their initial values (hmactools_getopt.c:40-52). -/
def optInit : OptState := ⟨1, none, none⟩

/-- `*p`; the argument strings contain their terminators. (hmactools/hmactools_getopt.c:68-172.) -/
def readChar (args : List (List Nat)) (p : Nat × Nat) : Res Nat := do
  let a ← rd args p.1
  rd a p.2

/-- Position of the first occurrence of a character. (`memchr`, `strchr`; for hmactools/hmactools_getopt.c:109-112.) -/
def findChar (c : Nat) : List Nat → Option Nat
  | [] => none
  | x :: t => if x = c then some 0 else (findChar c t).map (· + 1)

/-- `system_string_search_character( string, c, length )` (common/narrow_string.h:109-116, common/wide_string.h:106-114): `memchr` or `wmemchr` if the system has it (`mc`), otherwise `strchr` or `wcschr`,
which also find the terminator. The string is given without terminator. -/
def searchChar (mc : Bool) (string : List Nat) (c : Nat) : Option Nat := if mc then findChar c string else findChar c (string ++ [0])

/-- hmactools_getopt.c:105-186: one option character at `p`. The results are `some` character. The test of `*option_value` in line 171 repeats that of line 140. -/
def getoptChar (mc : Bool) (args : List (List Nat)) (opts : List Nat) (p : Nat × Nat) (s : OptState) : Res (Option Nat × OptState) := do
  let optopt ← readChar args p
  match if optopt = 58 then none else searchChar mc opts optopt with
  | none => do
    let c ← readChar args (p.1, p.2 + 1)
    pure (some 63, if c = 0 then { s with optind := s.optind + 1 } else s)
  | some i => do
    let v ← rd (opts ++ [0]) (i + 1)
    let c ← readChar args (p.1, p.2 + 1)
    if v ≠ 58 then
      pure (some optopt, if c = 0 then { s with optarg := none, optind := s.optind + 1 } else { s with optarg := none, next := some (p.1, p.2 + 1) })
    else if c ≠ 0 then pure (some optopt, { s with optarg := some (p.1, p.2 + 1), optind := s.optind + 1 })
    else if args.length ≤ s.optind + 1 then pure (some 58, { s with optind := s.optind + 1 })
    else pure (some optopt, { s with optarg := some (s.optind + 1, 0), optind := s.optind + 2 })

/-- `hmactools_getopt` (hmactools_getopt.c:59-187); `none` is -1. -/
def getopt (mc : Bool) (args : List (List Nat)) (opts : List Nat) (s : OptState) : Res (Option Nat × OptState) :=
  match s.next with
  | some p => getoptChar mc args opts p { s with next := none }
  | none =>
    if args.length ≤ s.optind then .ok (none, s)
    else do
      let c ← readChar args (s.optind, 0)
      if c ≠ 45 then pure (none, s)
      else do
        let c ← readChar args (s.optind, 1)
        if c = 45 then pure (none, { s with optind := s.optind + 1 })
        else getoptChar mc args opts (s.optind, 1) s

/-- The string `optarg` points to, without its terminator. (Read by hmactools/hmacsum.c:192 and 203.) -/
def argString (args : List (List Nat)) (p : Option (Nat × Nat)) : Res (Option (List Nat)) :=
  match p with
  | none => .ok none
  | some p => do
    let a ← rd args p.1
    if p.2 < a.length then pure (some ((a.drop p.2).takeWhile (· ≠ 0))) else .ub

/-- A client that collects the options with their arguments until the parser returns -1, '?' or ':'. (A client of hmactools/hmactools_getopt.c:59-187; for the loop of the tool see hmacsum.c:172-219.) -/
def collect (mc : Bool) (args : List (List Nat)) (opts : List Nat) : Nat → OptState → Res (List (Nat × Option (List Nat)) × OptState)
  | 0, _ => .diverge
  | fuel + 1, s => do
    let (c, s) ← getopt mc args opts s
    match c with
    | none => pure ([], s)
    | some c =>
      if c = 63 ∨ c = 58 then pure ([(c, none)], s)
      else do
        let a ← argString args s.optarg
        let (r, s) ← collect mc args opts fuel s
        pure ((c, a) :: r, s)

end Model
