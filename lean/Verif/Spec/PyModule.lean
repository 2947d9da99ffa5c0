import Verif.Spec.Kinds
/-! The names of the Python module. -/

namespace Spec

/-- What a name of the module stands for. -/
inductive PyMember where
  | version
  | calculate (k : Kind)
  | calculateHmac (k : Kind)
  | context (k : Kind)
  deriving DecidableEq

/-- The name of an algorithm in Python. -/
def pyKindName : Kind → String
  | .md5 => "md5"
  | .sha1 => "sha1"
  | .sha224 => "sha224"
  | .sha256 => "sha256"
  | .sha512 => "sha512"

/-- The name of a member. -/
def PyMember.name : PyMember → String
  | .version => "get_version"
  | .calculate k => pyKindName k ++ "_calculate"
  | .calculateHmac k => pyKindName k ++ "_calculate_hmac"
  | .context k => pyKindName k ++ "_context"

end Spec
