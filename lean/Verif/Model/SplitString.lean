import Verif.Model.HandleBuilds
/-! `sum_handle_set_digest_types` with the calls of libcsplit one by one, and the split string they hand out. -/

namespace Model

open Spec (Kind)

/-- What `system_split_string_get_segment_by_index` does: it fails; it succeeds with a NULL pointer; it succeeds with the segment. (Called at hmactools/sum_handle.c:1220-1225.) -/
inductive SegmentCall where
  | fails
  | null
  | found
  deriving DecidableEq

/-- What `system_split_string_free` does: it returns 1, with the object released and the pointer set to NULL; it fails and the object stays; it fails after the object was released and the pointer set to NULL.
(Called at hmactools/sum_handle.c:1542-1544 and 1560-1562.) -/
inductive FreeCall where
  | done
  | kept
  | lost
  deriving DecidableEq

/-- The outcomes of the calls of libcsplit: `system_string_split` succeeds (a failed split leaves the pointer NULL), `system_split_string_get_number_of_segments` succeeds, the retrieval of each segment, each call to free.
libcsplit is not in /repo; the segments are those of `splitAt`. (Called at hmactools/sum_handle.c:1186-1562.) -/
structure SplitCalls where
  split : Bool
  number : Bool
  segment : Nat → SegmentCall
  free : Nat → FreeCall

/-- How the loop over the segments ends: with the algorithms named; by `goto on_error`, line 1235; by `return( -1 )`, line 1247. (hmactools/sum_handle.c:1216-1446.) -/
inductive SegmentsEnd where
  | all (f : Kind → Bool)
  | failed
  | returned

/-- The loop over the segments from the `i`-th on (hmactools/sum_handle.c:1216-1446). -/
def segmentsWith (mc : Bool) (call : Nat → SegmentCall) : Nat → List (List Nat) → (Kind → Bool) → Res SegmentsEnd
  | _, [], f => .ok (.all f)
  | i, seg :: segs, f =>
    match call i with
    | .fails => .ok .failed
    | .null => .ok .returned
    | .found => do
      let k ← segmentKind mc (seg ++ [0])
      segmentsWith mc call (i + 1) segs (match k with | none => f | some k => Function.update f k true)

/-- `on_error` of `sum_handle_set_digest_types` (hmactools/sum_handle.c:1557-1564): is the split string still there afterwards? `there` says if it was before. -/
def splitOnError (there : Bool) (call : FreeCall) : Bool :=
  if there then (match call with | .kept => true | _ => false) else false

namespace Builds

variable {M : Type}

/-- `sum_handle_set_digest_types` (hmactools/sum_handle.c:1153-1565) with a valid handle and string. The last component says if a split string that was created is still allocated when the function has returned: nobody has a
pointer to it then. -/
def setDigestTypesWith (T : Tool) (C : Contexts M) (mc : Bool) (c : SplitCalls) (string : List Nat) (h : Handle) (W : WorldOf M) : Res (Int × Handle × WorldOf M × Bool) :=
  if !c.split then .ok (-1, h, W, splitOnError false (c.free 0))
  else if !c.number then .ok (-1, h, W, true)
  else do
    match ← segmentsWith mc c.segment 0 (splitAt 44 string) (fun _ => false) with
    | .failed => pure (-1, h, W, splitOnError true (c.free 0))
    | .returned => pure (-1, h, W, true)
    | .all f =>
      let (ok, h, W) := enableDigests T C f digestOrder h W
      if !ok then pure (-1, h, W, splitOnError true (c.free 0))
      else match c.free 0 with
        | .done => pure (0, h, W, false)
        | .kept => pure (-1, h, W, splitOnError true (c.free 1))
        | .lost => pure (-1, h, W, splitOnError false (c.free 1))

/-- A call on a handle variable, as `handleStep`, with the calls of libcsplit one by one; the last component is the number of split strings that were created and not released. The two Booleans of the call that selects digests are
not used. (hmactools/sum_handle.c:49-1693.) -/
def splitStep (T : Tool) (C : Contexts M) (op : HandleOp) (c : SplitCalls) (slot : Option Handle) (W : WorldOf M) : Res (Int × Option Handle × WorldOf M × Nat) :=
  match op, slot with
  | .digests mc _ _ string, some h => do
    let (r, h, W, there) ← setDigestTypesWith T C mc c string h W
    pure (r, some h, W, if there then 1 else 0)
  | op, slot => do
    let (r, slot, W) ← handleStep T C op slot W
    pure (r, slot, W, 0)

/-- A sequence of such calls. (A client of hmactools/sum_handle.h:133-192.) -/
def splitRun (T : Tool) (C : Contexts M) : List (HandleOp × SplitCalls) → Option Handle → WorldOf M → Res (List Int × Option Handle × WorldOf M × Nat)
  | [], slot, W => .ok ([], slot, W, 0)
  | (op, c) :: ops, slot, W => do
    let (r, slot, W, n) ← splitStep T C op c slot W
    let (rs, slot, W, m) ← splitRun T C ops slot W
    pure (r :: rs, slot, W, n + m)

end Builds

end Model
