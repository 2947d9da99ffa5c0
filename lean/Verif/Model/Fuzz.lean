import Verif.Model.Kinds
/-! The fuzz targets: ossfuzz/{md5,sha1,sha224,sha256,sha512}_context_fuzzer.cc. The five files have the same text up to the name of the algorithm. -/

namespace Model

open Spec (Kind)

/-- `LLVMFuzzerTestOneInput` (ossfuzz/*_context_fuzzer.cc:31-45). `data`: the address of the input in the memory of the caller, or NULL. The local array of line 35 has the contents `hash` at first; it lies behind the memory of the
caller for the time of the call. The result code of `libhmac_*_calculate` is not used. -/
def fuzzOne (k : Kind) (u : Bool) (env : Env k.width) (hash : List Byte) (data : Option Nat) (size : Nat) (s : St k.width) : Res (Int × St k.width) := do
  let (_, s') ← calculate (algOf k) u env data size (some s.caller.length) (algOf k).hashSize { s with caller := s.caller ++ hash }
  pure (0, { s' with caller := s'.caller.take s.caller.length })

/-- A fuzzing engine that gives one input after the other: address and size of the input, what the code does not control, and the first contents of the local array. (The caller of `LLVMFuzzerTestOneInput`, ossfuzz/sha256_context_fuzzer.cc:31; not code of /repo.) -/
def fuzzRun (k : Kind) (u : Bool) : List ((Option Nat × Nat) × Env k.width × List Byte) → St k.width → Res (List Int × St k.width)
  | [], s => .ok ([], s)
  | ((data, size), env, hash) :: t, s => do
    let (r, s) ← fuzzOne k u env hash data size s
    let (rs, s) ← fuzzRun k u t s
    pure (r :: rs, s)

end Model
