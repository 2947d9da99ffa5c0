import Verif.Model.HostBackend
/-! The functions of hmactools/sum_handle.h on a handle variable, over any implementation of the contexts and any host width. -/

namespace Model

namespace Builds

variable {M : Type}

/-- What a call does, as in `Model.handleStep`, with the functions of Model/Builds. (hmactools/sum_handle.c:49-1693.) -/
def handleStep (T : Tool) (C : Contexts M) : HandleOp → Option Handle → WorldOf M → Res (Int × Option Handle × WorldOf M)
  | .init, slot, W => sumInitialize T C slot W
  | .free closeOk, slot, W => sumFree C closeOk slot W
  | _, none, W => .ok (-1, none, W)
  | .abort, some h, W => .ok ((signalAbort h).1, some (signalAbort h).2, W)
  | .open ok, some h, W => .ok ((openInput ok h).1, some (openInput ok h).2, W)
  | .close ok, some h, W => .ok (closeInput ok, some h, W)
  | .process inp aborted, some h, W => do
    let (r, h, W) ← processInput T C inp aborted h W
    pure (r, some h, W)
  | .digests mc splitOk splitFreeOk string, some h, W => do
    let (r, h, W) ← setDigestTypes T C mc splitOk splitFreeOk string h W
    pure (r, some h, W)
  | .bufferSize verbose dp string, some h, W => do
    let (r, h) ← setBufferSize C verbose dp string h
    pure (r, some h, W)
  | .print, some h, W => do
    let _ ← printHashes digestOrder h
    pure (1, some h, W)

/-- A sequence of calls, as in `Model.handleRun`. (A client of hmactools/sum_handle.h:133-192.) -/
def handleRun (T : Tool) (C : Contexts M) : List HandleOp → Option Handle → WorldOf M → Res (List Int × Option Handle × WorldOf M)
  | [], slot, W => .ok ([], slot, W)
  | op :: ops, slot, W => do
    let (r, slot, W) ← handleStep T C op slot W
    let (rs, slot, W) ← handleRun T C ops slot W
    pure (r :: rs, slot, W)

end Builds

end Model
