import Verif.Model.HostBackend
import Verif.Model.FuzzBuilds
import Verif.Model.MultiBuilds
import Verif.Model.PyBuilds
/-! The Python module and the fuzz targets in every build on a host whose `size_t` has `hb` bits. (Programs with many contexts: `Builds.multi` with `Contexts.mixedHost`.) -/

namespace Model

open Spec (Kind ApiCall Reply)

/-- The built-in functions that the Python module uses, on a host whose `size_t` has `hb` bits, as `PyLibrary.builtin`. (libhmac/libhmac_sha256_context.c, branches without HAVE_LIBCRYPTO; libhmac/libhmac_sha256.c:143-219 and 225-714.) -/
def PyLibrary.host (hb : Nat) (u : Kind → Bool) (al : Nat → Bool) : PyLibrary Mem where
  call e k c slot m := do
    let (r, slot, s) ← hostStep hb (algOf k) (u k) { e.env k with allocOk := al } c (e.env k).scr slot (m.view k.width)
    pure (r, slot, m.put k.width s)
  calculate e k b m := do
    let (r, s) ← hostCalculate hb (algOf k) (u k) { e.env k with allocOk := al } (some 0) b.length (some b.length) (algOf k).hashSize { m.view k.width with caller := b ++ e.hash k }
    pure (r, s.caller.drop b.length, m.put k.width { s with caller := m.caller })
  calculateHmac e k kb b m := do
    let (r, _, s) ← hostCalculateHmac hb (algOf k) (u k) { e.env k with allocOk := al } (e.keyHash k) (some 0) kb.length (some kb.length) b.length (some (kb.length + b.length)) (algOf k).hashSize
      { m.view k.width with caller := kb ++ (b ++ e.hash k) }
    pure (r, s.caller.drop (kb.length + b.length), m.put k.width { s with caller := m.caller })

/-- The functions that the Python module uses, in a build that makes the choice `ch k` for algorithm `k` and uses the crypto library `L`, on such a host, as `PyLibrary.mixed`. (libhmac/libhmac_sha224_context.h:43-52 and the like; the functions
of Model/Host and Model/HostBackend.) -/
def PyLibrary.mixedHost (hb : Nat) (ch : Kind → Choice) (L : Kind → Library) (u : Kind → Bool) (al : Nat → Bool) : PyLibrary (MixedMem L) where
  call e k c slot m :=
    match ch k with
    | .builtin => do
      let (r, slot, mem) ← (PyLibrary.host hb u al).call e k c slot m.mem
      pure (r, slot, { m with mem := mem })
    | .crypto B => do
      let (r, slot, s) ← hostBStep hb B (L k) k.hashSize al c slot ⟨m.mem.count, m.calls, m.live k⟩
      pure (r, slot, { mem := { m.mem with count := s.count }, calls := s.calls, live := Function.update m.live k s.live })
  calculate e k b m :=
    match ch k with
    | .builtin => do
      let (r, h, mem) ← (PyLibrary.host hb u al).calculate e k b m.mem
      pure (r, h, { m with mem := mem })
    | .crypto B => do
      let (r, s) ← hostOCalculate hb B (L k) k.hashSize ⟨al, (e.env k).junkByte⟩ (some 0) b.length (some b.length) k.hashSize ⟨b ++ e.hash k, ⟨m.mem.count, m.calls, m.live k⟩, [], []⟩
      pure (r, s.caller.drop b.length, { mem := { m.mem with count := s.ctxs.count }, calls := s.ctxs.calls, live := Function.update m.live k s.ctxs.live })
  calculateHmac e k kb b m :=
    match ch k with
    | .builtin => do
      let (r, h, mem) ← (PyLibrary.host hb u al).calculateHmac e k kb b m.mem
      pure (r, h, { m with mem := mem })
    | .crypto B => do
      let (r, s) ← hostOCalculateHmac hb B (L k) k.hashSize k.blockSize ⟨al, (e.env k).junkByte⟩ (e.keyHash k) (some 0) kb.length (some kb.length) b.length (some (kb.length + b.length)) k.hashSize
        ⟨kb ++ (b ++ e.hash k), ⟨m.mem.count, m.calls, m.live k⟩, [], []⟩
      pure (r, s.caller.drop (kb.length + b.length), { mem := { m.mem with count := s.ctxs.count }, calls := s.ctxs.calls, live := Function.update m.live k s.ctxs.live })

/-- `LLVMFuzzerTestOneInput` (ossfuzz/*_context_fuzzer.cc:31-45) in a build over a crypto library on such a host, as in `bFuzzOne`. -/
def hostBFuzzOne (hb : Nat) (B : Backend) (k : Kind) (L : Library) (env : OEnv) (hash : List Byte) (data : Option Nat) (size : Nat) (s : OSt L.State) : Res (Int × OSt L.State) := do
  let (_, s') ← hostOCalculate hb B L k.hashSize env data size (some s.caller.length) k.hashSize { s with caller := s.caller ++ hash }
  pure (0, { s' with caller := s'.caller.take s.caller.length })

/-- A fuzzing engine in a build over a crypto library on such a host, as in `bFuzzRun`. (The caller of `LLVMFuzzerTestOneInput`, ossfuzz/sha256_context_fuzzer.cc:31; not code of /repo.) -/
def hostBFuzzRun (hb : Nat) (B : Backend) (k : Kind) (L : Library) : List ((Option Nat × Nat) × OEnv × List Byte) → OSt L.State → Res (List Int × OSt L.State)
  | [], s => .ok ([], s)
  | ((data, size), env, hash) :: t, s => do
    let (r, s) ← hostBFuzzOne hb B k L env hash data size s
    let (rs, s) ← hostBFuzzRun hb B k L t s
    pure (r :: rs, s)

end Model
