import Verif.Props.Histories
/-! Known answers. These are tests, not proofs of the properties: they show that the specifications in `Verif/Spec` are the intended functions (the
answers are those of FIPS 180 and RFC 1321 for "abc" and for a two-block message), by evaluating the model in the kernel and transporting
the result through the refinement. The last theorem belongs to C16. -/

namespace Props

open Model Spec

/-- The replies of a run. -/
def repliesOf {w} (r : Res (List Reply × Option Nat × St w)) : List Reply :=
  match r with
  | .ok (rs, _) => rs
  | _ => []

/-- Replies of the client that hashes `m` in one update. -/
def oneUpdate (k : Kind) (u : Bool) (m : List Byte) : List Reply :=
  repliesOf (run (algOf k) u (env0 k) (hashCalls [(m, junk0 k)] (junk0 k) (List.replicate k.hashSize 0) k.hashSize) none (st0 k.width))

theorem oneUpdate_eq (k : Kind) (u : Bool) (m : List Byte) (h : m.length < 1000) :
    oneUpdate k u m = goodReplies 1 (k.std.digest m) := by
  have hv : ValidStream k [(m, junk0 k)] (junk0 k) (List.replicate k.hashSize 0) k.hashSize := by
    refine ⟨?_, junk0_ok k, ⟨Nat.le_refl _, by cases k <;> decide⟩, by simp⟩
    intro c hc
    simp only [List.mem_singleton] at hc
    subst hc
    exact ⟨by simp only [maxSize]; omega, junk0_ok k⟩
  have hm : message [(m, junk0 k)] = m := by simp [message]
  obtain ⟨slot, s', e⟩ := stream_std k u (env0 k) (st0 k.width) _ _ _ _ rfl hv (by rw [hm]; cases k <;> simp only [Kind.LengthOk]; omega)
  rw [oneUpdate, e, hm]
  simp [repliesOf, List.drop_replicate]

theorem digest_of_eval {k : Kind} {u : Bool} {m d : List Byte} (h : m.length < 1000) (e : oneUpdate k u m = goodReplies 1 d) : k.std.digest m = d := by
  rw [oneUpdate_eq k u m h] at e
  simpa [goodReplies] using e

theorem vector_md5_abc : Spec.md5.digest [0x61, 0x62, 0x63] =
    [0x90, 0x01, 0x50, 0x98, 0x3c, 0xd2, 0x4f, 0xb0, 0xd6, 0x96, 0x3f, 0x7d, 0x28, 0xe1, 0x7f, 0x72] :=
  digest_of_eval (k := .md5) (u := true) (by decide) (by decide +kernel)

theorem vector_md5_two : Spec.md5.digest [0x61, 0x62, 0x63, 0x64, 0x62, 0x63, 0x64, 0x65, 0x63, 0x64, 0x65, 0x66, 0x64, 0x65, 0x66, 0x67, 0x65, 0x66, 0x67, 0x68, 0x66, 0x67, 0x68, 0x69, 0x67, 0x68, 0x69, 0x6a, 0x68, 0x69, 0x6a, 0x6b, 0x69, 0x6a, 0x6b, 0x6c, 0x6a, 0x6b, 0x6c, 0x6d, 0x6b, 0x6c, 0x6d, 0x6e, 0x6c, 0x6d, 0x6e, 0x6f, 0x6d, 0x6e, 0x6f, 0x70, 0x6e, 0x6f, 0x70, 0x71] =
    [0x82, 0x15, 0xef, 0x07, 0x96, 0xa2, 0x0b, 0xca, 0xaa, 0xe1, 0x16, 0xd3, 0x87, 0x6c, 0x66, 0x4a] :=
  digest_of_eval (k := .md5) (u := false) (by decide) (by decide +kernel)

theorem vector_sha1_abc : Spec.sha1.digest [0x61, 0x62, 0x63] =
    [0xa9, 0x99, 0x3e, 0x36, 0x47, 0x06, 0x81, 0x6a, 0xba, 0x3e, 0x25, 0x71, 0x78, 0x50, 0xc2, 0x6c, 0x9c, 0xd0, 0xd8, 0x9d] :=
  digest_of_eval (k := .sha1) (u := true) (by decide) (by decide +kernel)

theorem vector_sha1_two : Spec.sha1.digest [0x61, 0x62, 0x63, 0x64, 0x62, 0x63, 0x64, 0x65, 0x63, 0x64, 0x65, 0x66, 0x64, 0x65, 0x66, 0x67, 0x65, 0x66, 0x67, 0x68, 0x66, 0x67, 0x68, 0x69, 0x67, 0x68, 0x69, 0x6a, 0x68, 0x69, 0x6a, 0x6b, 0x69, 0x6a, 0x6b, 0x6c, 0x6a, 0x6b, 0x6c, 0x6d, 0x6b, 0x6c, 0x6d, 0x6e, 0x6c, 0x6d, 0x6e, 0x6f, 0x6d, 0x6e, 0x6f, 0x70, 0x6e, 0x6f, 0x70, 0x71] =
    [0x84, 0x98, 0x3e, 0x44, 0x1c, 0x3b, 0xd2, 0x6e, 0xba, 0xae, 0x4a, 0xa1, 0xf9, 0x51, 0x29, 0xe5, 0xe5, 0x46, 0x70, 0xf1] :=
  digest_of_eval (k := .sha1) (u := false) (by decide) (by decide +kernel)

theorem vector_sha224_abc : Spec.sha224.digest [0x61, 0x62, 0x63] =
    [0x23, 0x09, 0x7d, 0x22, 0x34, 0x05, 0xd8, 0x22, 0x86, 0x42, 0xa4, 0x77, 0xbd, 0xa2, 0x55, 0xb3, 0x2a, 0xad, 0xbc, 0xe4, 0xbd, 0xa0, 0xb3, 0xf7, 0xe3, 0x6c, 0x9d, 0xa7] :=
  digest_of_eval (k := .sha224) (u := true) (by decide) (by decide +kernel)

theorem vector_sha224_two : Spec.sha224.digest [0x61, 0x62, 0x63, 0x64, 0x62, 0x63, 0x64, 0x65, 0x63, 0x64, 0x65, 0x66, 0x64, 0x65, 0x66, 0x67, 0x65, 0x66, 0x67, 0x68, 0x66, 0x67, 0x68, 0x69, 0x67, 0x68, 0x69, 0x6a, 0x68, 0x69, 0x6a, 0x6b, 0x69, 0x6a, 0x6b, 0x6c, 0x6a, 0x6b, 0x6c, 0x6d, 0x6b, 0x6c, 0x6d, 0x6e, 0x6c, 0x6d, 0x6e, 0x6f, 0x6d, 0x6e, 0x6f, 0x70, 0x6e, 0x6f, 0x70, 0x71] =
    [0x75, 0x38, 0x8b, 0x16, 0x51, 0x27, 0x76, 0xcc, 0x5d, 0xba, 0x5d, 0xa1, 0xfd, 0x89, 0x01, 0x50, 0xb0, 0xc6, 0x45, 0x5c, 0xb4, 0xf5, 0x8b, 0x19, 0x52, 0x52, 0x25, 0x25] :=
  digest_of_eval (k := .sha224) (u := false) (by decide) (by decide +kernel)

theorem vector_sha256_abc : Spec.sha256.digest [0x61, 0x62, 0x63] =
    [0xba, 0x78, 0x16, 0xbf, 0x8f, 0x01, 0xcf, 0xea, 0x41, 0x41, 0x40, 0xde, 0x5d, 0xae, 0x22, 0x23, 0xb0, 0x03, 0x61, 0xa3, 0x96, 0x17, 0x7a, 0x9c, 0xb4, 0x10, 0xff, 0x61, 0xf2, 0x00, 0x15, 0xad] :=
  digest_of_eval (k := .sha256) (u := true) (by decide) (by decide +kernel)

theorem vector_sha256_two : Spec.sha256.digest [0x61, 0x62, 0x63, 0x64, 0x62, 0x63, 0x64, 0x65, 0x63, 0x64, 0x65, 0x66, 0x64, 0x65, 0x66, 0x67, 0x65, 0x66, 0x67, 0x68, 0x66, 0x67, 0x68, 0x69, 0x67, 0x68, 0x69, 0x6a, 0x68, 0x69, 0x6a, 0x6b, 0x69, 0x6a, 0x6b, 0x6c, 0x6a, 0x6b, 0x6c, 0x6d, 0x6b, 0x6c, 0x6d, 0x6e, 0x6c, 0x6d, 0x6e, 0x6f, 0x6d, 0x6e, 0x6f, 0x70, 0x6e, 0x6f, 0x70, 0x71] =
    [0x24, 0x8d, 0x6a, 0x61, 0xd2, 0x06, 0x38, 0xb8, 0xe5, 0xc0, 0x26, 0x93, 0x0c, 0x3e, 0x60, 0x39, 0xa3, 0x3c, 0xe4, 0x59, 0x64, 0xff, 0x21, 0x67, 0xf6, 0xec, 0xed, 0xd4, 0x19, 0xdb, 0x06, 0xc1] :=
  digest_of_eval (k := .sha256) (u := false) (by decide) (by decide +kernel)

theorem vector_sha512_abc : Spec.sha512.digest [0x61, 0x62, 0x63] =
    [0xdd, 0xaf, 0x35, 0xa1, 0x93, 0x61, 0x7a, 0xba, 0xcc, 0x41, 0x73, 0x49, 0xae, 0x20, 0x41, 0x31, 0x12, 0xe6, 0xfa, 0x4e, 0x89, 0xa9, 0x7e, 0xa2, 0x0a, 0x9e, 0xee, 0xe6, 0x4b, 0x55, 0xd3, 0x9a, 0x21, 0x92, 0x99, 0x2a, 0x27, 0x4f, 0xc1, 0xa8, 0x36, 0xba, 0x3c, 0x23, 0xa3, 0xfe, 0xeb, 0xbd, 0x45, 0x4d, 0x44, 0x23, 0x64, 0x3c, 0xe8, 0x0e, 0x2a, 0x9a, 0xc9, 0x4f, 0xa5, 0x4c, 0xa4, 0x9f] :=
  digest_of_eval (k := .sha512) (u := true) (by decide) (by decide +kernel)

theorem vector_sha512_two : Spec.sha512.digest [0x61, 0x62, 0x63, 0x64, 0x65, 0x66, 0x67, 0x68, 0x62, 0x63, 0x64, 0x65, 0x66, 0x67, 0x68, 0x69, 0x63, 0x64, 0x65, 0x66, 0x67, 0x68, 0x69, 0x6a, 0x64, 0x65, 0x66, 0x67, 0x68, 0x69, 0x6a, 0x6b, 0x65, 0x66, 0x67, 0x68, 0x69, 0x6a, 0x6b, 0x6c, 0x66, 0x67, 0x68, 0x69, 0x6a, 0x6b, 0x6c, 0x6d, 0x67, 0x68, 0x69, 0x6a, 0x6b, 0x6c, 0x6d, 0x6e, 0x68, 0x69, 0x6a, 0x6b, 0x6c, 0x6d, 0x6e, 0x6f, 0x69, 0x6a, 0x6b, 0x6c, 0x6d, 0x6e, 0x6f, 0x70, 0x6a, 0x6b, 0x6c, 0x6d, 0x6e, 0x6f, 0x70, 0x71, 0x6b, 0x6c, 0x6d, 0x6e, 0x6f, 0x70, 0x71, 0x72, 0x6c, 0x6d, 0x6e, 0x6f, 0x70, 0x71, 0x72, 0x73, 0x6d, 0x6e, 0x6f, 0x70, 0x71, 0x72, 0x73, 0x74, 0x6e, 0x6f, 0x70, 0x71, 0x72, 0x73, 0x74, 0x75] =
    [0x8e, 0x95, 0x9b, 0x75, 0xda, 0xe3, 0x13, 0xda, 0x8c, 0xf4, 0xf7, 0x28, 0x14, 0xfc, 0x14, 0x3f, 0x8f, 0x77, 0x79, 0xc6, 0xeb, 0x9f, 0x7f, 0xa1, 0x72, 0x99, 0xae, 0xad, 0xb6, 0x88, 0x90, 0x18, 0x50, 0x1d, 0x28, 0x9e, 0x49, 0x00, 0xf7, 0xe4, 0x33, 0x1b, 0x99, 0xde, 0xc4, 0xb5, 0x43, 0x3a, 0xc7, 0xd3, 0x29, 0xee, 0xb6, 0xdd, 0x26, 0x54, 0x5e, 0x96, 0xe5, 0x5b, 0x87, 0x4b, 0xe9, 0x09] :=
  digest_of_eval (k := .sha512) (u := false) (by decide) (by decide +kernel)

/-- Replies of the client that hashes two empty messages with one context, without creating it again. -/
def reuseEmpty (k : Kind) : List Reply :=
  repliesOf (run (algOf k) false (env0 k) (hashCalls [] (junk0 k) (List.replicate k.hashSize 0) k.hashSize ++
    (hashCalls [] (junk0 k) (List.replicate k.hashSize 0) k.hashSize).tail) none (st0 k.width))

/-- C16. The hash computed by a reused context is not the standard one: already for the empty message, for all five algorithms. -/
theorem C16_reuse_not_standard (k : Kind) : k.std.digestFrom (List.replicate k.words 0) [] ≠ k.std.digest [] := by
  have hv : ValidStream k [] (junk0 k) (List.replicate k.hashSize 0) k.hashSize :=
    ⟨by simp, junk0_ok k, ⟨Nat.le_refl _, by cases k <;> decide⟩, by simp⟩
  have hl : k.LengthOk (message ([] : List (List Byte × Scr k.width))).length := by cases k <;> simp [Kind.LengthOk, message]
  obtain ⟨slot, s', e⟩ := C16_reuse_after_finalize k false (env0 k) (st0 k.width) [] [] _ _ _ _ _ _ rfl hv hv hl hl
  have e' : reuseEmpty k = [⟨1, none⟩, ⟨1, some (k.std.digest [])⟩, ⟨1, some (k.std.digestFrom (List.replicate k.words 0) [])⟩] := by
    rw [reuseEmpty, e]
    simp [repliesOf, goodReplies, message, List.drop_replicate]
  have hne : (reuseEmpty k)[1]? ≠ (reuseEmpty k)[2]? := by cases k <;> decide +kernel
  rw [e'] at hne
  intro h
  exact hne (by simp; exact h.symm)

end Props
