import Verif.Model.Calculate
import Verif.Model.Api
import Verif.Spec.Kinds
/-! The five implementations as a family. -/

namespace Model

open Spec (Kind)

/-- The implementation of each hash function: libhmac/libhmac_{md5,sha1,sha224,sha256,sha512}_context.c. -/
def algOf : (k : Kind) → Alg k.width
  | .md5 => md5
  | .sha1 => sha1
  | .sha224 => sha224
  | .sha256 => sha256
  | .sha512 => sha512

/-- The stack arrays of the block transform have their declared sizes (libhmac/libhmac_md5_context.c:250-260, libhmac_sha1_context.c:250-256,
libhmac_sha256_context.c:232-241, libhmac_sha512_context.c:240-248): chaining value and message schedule. The contents are arbitrary. -/
def Kind.Junk (k : Kind) (scr : Scr k.width) : Prop :=
  scr.hv.length = k.words ∧ scr.vals.length = match k with | .md5 => 16 | .sha1 => 80 | .sha224 => 64 | .sha256 => 64 | .sha512 => 80

end Model
