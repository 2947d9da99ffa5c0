import Verif.Base
/-! What hmacsum prints on standard error. -/

namespace Spec

/-- Messages on standard error, in the order of the source. -/
inductive Message where
  | locale
  | output
  | invalidArgument (arg : List Nat)
  | missingSource
  | createHandle
  | bufferSize
  | bufferSizeDefault
  | digestTypes
  | attach
  | openInput
  | processInput
  | printHashes
  | closeHandle
  | detach
  | freeHandle
  deriving DecidableEq

/-- Messages after which the program goes on. -/
def Message.isWarning : Message → Bool
  | .bufferSizeDefault | .attach | .detach => true
  | _ => false

end Spec
