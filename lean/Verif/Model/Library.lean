import Verif.Model.Hmacsum
import Verif.Spec.Library
/-! hmactools/hmacsum.c in a build that uses the getopt of the C library (`HAVE_GETOPT`, hmactools/hmactools_getopt.h:38-40). -/

namespace Model

open Spec (Line Library)

/-- The option loop and the test for the source (hmacsum.c:172-230). `argv[ optind - 1 ]` is read for the message about an invalid option (184). Reading the vector outside, and printing the NULL at its end, are undefined
behaviour. `count` is `argc`. -/
def parseLibrary (L : Library) (count : Nat) : Nat → Options → L.State → Res Parsed
  | 0, _, _ => .diverge
  | fuel + 1, o, s =>
    match L.next s with
    | (none, s) =>
      if L.optind s = count then .ok .missing
      else match (L.argv s)[L.optind s]? with
        | none => .ub
        | some source => .ok (.run o source)
    | (some c, s) =>
      if c = 100 then parseLibrary L count fuel { o with digests := L.optarg s } s
      else if c = 104 then .ok .help
      else if c = 112 then parseLibrary L count fuel { o with bufferSize := L.optarg s } s
      else if c = 118 then parseLibrary L count fuel { o with verbose := true } s
      else if c = 86 then .ok .version
      else if L.optind s = 0 then .ub
      else match (L.argv s)[L.optind s - 1]? with
        | none => .ub
        | some _ => .ok .invalid

/-- `main` (hmacsum.c:127-402), as `hmacsum`, with the getopt of the C library and arguments given without terminators. `fuel` bounds the calls of getopt. -/
def hmacsumLibrary (E : Environment) (L : Library) (fuel : Nat) (args : List (List Nat)) (W : World) : Res (Exit × World) :=
  if !E.localeOk then onError E [] none W
  else if !E.outputOk then onError E [] none W
  else do
    let p ← parseLibrary L args.length fuel ⟨none, none, false⟩ (L.start args)
    match p with
    | .invalid => onError E [.version, .usage] none W
    | .help => pure (⟨true, [.version, .usage]⟩, W)
    | .version => pure (⟨true, [.version, .copyright]⟩, W)
    | .missing => onError E [.version, .usage] none W
    | .run o source => runSource E o source [.version] W

end Model
