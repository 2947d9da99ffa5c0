import Verif.Model.Fuzz
import Verif.Model.Host
import Verif.Model.BackendOneShot
/-! The fuzz targets (ossfuzz/*_context_fuzzer.cc) in the builds over a crypto library and on hosts of other widths. -/

namespace Model

open Spec (Kind)

/-- `LLVMFuzzerTestOneInput` (ossfuzz/*_context_fuzzer.cc:31-45) in a build over a crypto library, as in `fuzzOne`. -/
def bFuzzOne (B : Backend) (k : Kind) (L : Library) (env : OEnv) (hash : List Byte) (data : Option Nat) (size : Nat) (s : OSt L.State) : Res (Int × OSt L.State) := do
  let (_, s') ← oCalculate B L k.hashSize env data size (some s.caller.length) k.hashSize { s with caller := s.caller ++ hash }
  pure (0, { s' with caller := s'.caller.take s.caller.length })

/-- A fuzzing engine in a build over a crypto library, as in `fuzzRun`. (The caller of `LLVMFuzzerTestOneInput`, ossfuzz/sha256_context_fuzzer.cc:31; not code of /repo.) -/
def bFuzzRun (B : Backend) (k : Kind) (L : Library) : List ((Option Nat × Nat) × OEnv × List Byte) → OSt L.State → Res (List Int × OSt L.State)
  | [], s => .ok ([], s)
  | ((data, size), env, hash) :: t, s => do
    let (r, s) ← bFuzzOne B k L env hash data size s
    let (rs, s) ← bFuzzRun B k L t s
    pure (r :: rs, s)

/-- `LLVMFuzzerTestOneInput` (ossfuzz/*_context_fuzzer.cc:31-45) on a host whose `size_t` has `hb` bits, as in `fuzzOne`. -/
def hostFuzzOne (hb : Nat) (k : Kind) (u : Bool) (env : Env k.width) (hash : List Byte) (data : Option Nat) (size : Nat) (s : St k.width) : Res (Int × St k.width) := do
  let (_, s') ← hostCalculate hb (algOf k) u env data size (some s.caller.length) (algOf k).hashSize { s with caller := s.caller ++ hash }
  pure (0, { s' with caller := s'.caller.take s.caller.length })

/-- A fuzzing engine on such a host, as in `fuzzRun`. (The caller of `LLVMFuzzerTestOneInput`, ossfuzz/sha256_context_fuzzer.cc:31; not code of /repo.) -/
def hostFuzzRun (hb : Nat) (k : Kind) (u : Bool) : List ((Option Nat × Nat) × Env k.width × List Byte) → St k.width → Res (List Int × St k.width)
  | [], s => .ok ([], s)
  | ((data, size), env, hash) :: t, s => do
    let (r, s) ← hostFuzzOne hb k u env hash data size s
    let (rs, s) ← hostFuzzRun hb k u t s
    pure (r :: rs, s)

end Model
