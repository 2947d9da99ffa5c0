import Verif.Spec.PyText
import Verif.Proofs.PyError
/-! The bytes of the texts of exceptions. -/

namespace Model

open Spec (Kind PyFn PyWhy pyText ascii failureText replacedText kept withoutStop)

/-- Bytes from character codes. -/
def ofCodes (l : List Nat) : List Byte := l.map fun n => BitVec.ofNat 8 n

theorem ascii_append (a b : String) : ascii (a ++ b) = ascii a ++ ascii b := by simp [ascii, String.toList_append]
theorem ascii_ofList (l : List Char) : ascii (String.ofList l) = ofCodes (l.map Char.toNat) := by simp [ascii, ofCodes]
theorem ofCodes_append (a b : List Nat) : ofCodes a ++ ofCodes b = ofCodes (a ++ b) := by simp [ofCodes]

theorem ofCodes_inj : ∀ {a b : List Nat}, (∀ n ∈ a, n < 256) → (∀ n ∈ b, n < 256) → ofCodes a = ofCodes b → a = b
  | [], [], _, _, _ => rfl
  | [], _ :: _, _, _, h => by simp [ofCodes] at h
  | _ :: _, [], _, _, h => by simp [ofCodes] at h
  | x :: a, y :: b, ha, hb, h => by
    simp only [ofCodes, List.map_cons, List.cons.injEq] at h
    have hx := ha x (by simp)
    have hy := hb y (by simp)
    have h1 := congrArg BitVec.toNat h.1
    rw [BitVec.toNat_ofNat, BitVec.toNat_ofNat, Nat.mod_eq_of_lt (by omega), Nat.mod_eq_of_lt (by omega)] at h1
    rw [h1, ofCodes_inj (fun n hn => ha n (by simp [hn])) (fun n hn => hb n (by simp [hn])) h.2]

theorem ofCodes_ne {a : List Nat} {c : Nat} (hc : c < 256) (h : ∀ n ∈ a, n < 256 ∧ n ≠ c) : ∀ b ∈ ofCodes a, b ≠ BitVec.ofNat 8 c := by
  intro b hb
  obtain ⟨n, hn, rfl⟩ := List.mem_map.1 hb
  intro he
  have h1 := congrArg BitVec.toNat he
  rw [BitVec.toNat_ofNat, BitVec.toNat_ofNat, Nat.mod_eq_of_lt (by have := (h n hn).1; omega), Nat.mod_eq_of_lt (by omega)] at h1
  exact (h n hn).2 h1

theorem lit0 : ascii "pyhmac_" = ofCodes [112, 121, 104, 109, 97, 99, 95] := ascii_ofList _
theorem lit1 : ascii ": " = ofCodes [58, 32] := ascii_ofList _
theorem lit2 : ascii "md5" = ofCodes [109, 100, 53] := ascii_ofList _
theorem lit3 : ascii "sha1" = ofCodes [115, 104, 97, 49] := ascii_ofList _
theorem lit4 : ascii "sha224" = ofCodes [115, 104, 97, 50, 50, 52] := ascii_ofList _
theorem lit5 : ascii "sha256" = ofCodes [115, 104, 97, 50, 53, 54] := ascii_ofList _
theorem lit6 : ascii "sha512" = ofCodes [115, 104, 97, 53, 49, 50] := ascii_ofList _
theorem lit7 : ascii "MD5" = ofCodes [77, 68, 53] := ascii_ofList _
theorem lit8 : ascii "SHA1" = ofCodes [83, 72, 65, 49] := ascii_ofList _
theorem lit9 : ascii "SHA224" = ofCodes [83, 72, 65, 50, 50, 52] := ascii_ofList _
theorem lit10 : ascii "SHA256" = ofCodes [83, 72, 65, 50, 53, 54] := ascii_ofList _
theorem lit11 : ascii "SHA512" = ofCodes [83, 72, 65, 53, 49, 50] := ascii_ofList _
theorem lit12 : ascii "_context_init" = ofCodes [95, 99, 111, 110, 116, 101, 120, 116, 95, 105, 110, 105, 116] := ascii_ofList _
theorem lit13 : ascii "_context_free" = ofCodes [95, 99, 111, 110, 116, 101, 120, 116, 95, 102, 114, 101, 101] := ascii_ofList _
theorem lit14 : ascii "_context_update" = ofCodes [95, 99, 111, 110, 116, 101, 120, 116, 95, 117, 112, 100, 97, 116, 101] := ascii_ofList _
theorem lit15 : ascii "_context_finalize" = ofCodes [95, 99, 111, 110, 116, 101, 120, 116, 95, 102, 105, 110, 97, 108, 105, 122, 101] := ascii_ofList _
theorem lit16 : ascii "_calculate" = ofCodes [95, 99, 97, 108, 99, 117, 108, 97, 116, 101] := ascii_ofList _
theorem lit17 : ascii "_calculate_hmac" = ofCodes [95, 99, 97, 108, 99, 117, 108, 97, 116, 101, 95, 104, 109, 97, 99] := ascii_ofList _
theorem lit18 : ascii "unsupported bytes object type" = ofCodes [117, 110, 115, 117, 112, 112, 111, 114, 116, 101, 100, 32, 98, 121, 116, 101, 115, 32, 111, 98, 106, 101, 99, 116, 32, 116, 121, 112, 101] := ascii_ofList _
theorem lit19 : ascii "unable to determine if object is of type bytes." = ofCodes [117, 110, 97, 98, 108, 101, 32, 116, 111, 32, 100, 101, 116, 101, 114, 109, 105, 110, 101, 32, 105, 102, 32, 111, 98, 106, 101, 99, 116, 32, 105, 115, 32, 111, 102, 32, 116, 121, 112, 101, 32, 98, 121, 116, 101, 115, 46] := ascii_ofList _
theorem lit20 : ascii "invalid data size value out of bounds." = ofCodes [105, 110, 118, 97, 108, 105, 100, 32, 100, 97, 116, 97, 32, 115, 105, 122, 101, 32, 118, 97, 108, 117, 101, 32, 111, 117, 116, 32, 111, 102, 32, 98, 111, 117, 110, 100, 115, 46] := ascii_ofList _
theorem lit21 : ascii "invalid argument key data size value out of bounds." = ofCodes [105, 110, 118, 97, 108, 105, 100, 32, 97, 114, 103, 117, 109, 101, 110, 116, 32, 107, 101, 121, 32, 100, 97, 116, 97, 32, 115, 105, 122, 101, 32, 118, 97, 108, 117, 101, 32, 111, 117, 116, 32, 111, 102, 32, 98, 111, 117, 110, 100, 115, 46] := ascii_ofList _
theorem lit22 : ascii "invalid " = ofCodes [105, 110, 118, 97, 108, 105, 100, 32] := ascii_ofList _
theorem lit23 : ascii " context - missing libhmac " = ofCodes [32, 99, 111, 110, 116, 101, 120, 116, 32, 45, 32, 109, 105, 115, 115, 105, 110, 103, 32, 108, 105, 98, 104, 109, 97, 99, 32] := ascii_ofList _
theorem lit24 : ascii " context." = ofCodes [32, 99, 111, 110, 116, 101, 120, 116, 46] := ascii_ofList _
theorem lit25 : ascii "unable to convert " = ofCodes [117, 110, 97, 98, 108, 101, 32, 116, 111, 32, 99, 111, 110, 118, 101, 114, 116, 32] := ascii_ofList _
theorem lit26 : ascii " HMAC" = ofCodes [32, 72, 77, 65, 67] := ascii_ofList _
theorem lit27 : ascii " hash" = ofCodes [32, 104, 97, 115, 104] := ascii_ofList _
theorem lit28 : ascii " into bytes object." = ofCodes [32, 105, 110, 116, 111, 32, 98, 121, 116, 101, 115, 32, 111, 98, 106, 101, 99, 116, 46] := ascii_ofList _
theorem lit29 : ascii "unable to initialize " = ofCodes [117, 110, 97, 98, 108, 101, 32, 116, 111, 32, 105, 110, 105, 116, 105, 97, 108, 105, 122, 101, 32] := ascii_ofList _
theorem lit30 : ascii "unable to free libhmac " = ofCodes [117, 110, 97, 98, 108, 101, 32, 116, 111, 32, 102, 114, 101, 101, 32, 108, 105, 98, 104, 109, 97, 99, 32] := ascii_ofList _
theorem lit31 : ascii "unable to update " = ofCodes [117, 110, 97, 98, 108, 101, 32, 116, 111, 32, 117, 112, 100, 97, 116, 101, 32] := ascii_ofList _
theorem lit32 : ascii " context from data." = ofCodes [32, 99, 111, 110, 116, 101, 120, 116, 32, 102, 114, 111, 109, 32, 100, 97, 116, 97, 46] := ascii_ofList _
theorem lit33 : ascii "unable to finalize " = ofCodes [117, 110, 97, 98, 108, 101, 32, 116, 111, 32, 102, 105, 110, 97, 108, 105, 122, 101, 32] := ascii_ofList _
theorem lit34 : ascii "unable to calculate " = ofCodes [117, 110, 97, 98, 108, 101, 32, 116, 111, 32, 99, 97, 108, 99, 117, 108, 97, 116, 101, 32] := ascii_ofList _
theorem lit35 : ascii " from data." = ofCodes [32, 102, 114, 111, 109, 32, 100, 97, 116, 97, 46] := ascii_ofList _
theorem lit36 : ascii " HMAC from data." = ofCodes [32, 72, 77, 65, 67, 32, 102, 114, 111, 109, 32, 100, 97, 116, 97, 46] := ascii_ofList _

/-- An algorithm's name in identifiers. -/
def kindCodes : Kind → List Nat
  | .md5 => [109, 100, 53]
  | .sha1 => [115, 104, 97, 49]
  | .sha224 => [115, 104, 97, 50, 50, 52]
  | .sha256 => [115, 104, 97, 50, 53, 54]
  | .sha512 => [115, 104, 97, 53, 49, 50]

/-- An algorithm's name in messages. -/
def titleCodes : Kind → List Nat
  | .md5 => [77, 68, 53]
  | .sha1 => [83, 72, 65, 49]
  | .sha224 => [83, 72, 65, 50, 50, 52]
  | .sha256 => [83, 72, 65, 50, 53, 54]
  | .sha512 => [83, 72, 65, 53, 49, 50]

/-- The end of a function's name. -/
def fnCodes : PyFn → List Nat
  | .init => [95, 99, 111, 110, 116, 101, 120, 116, 95, 105, 110, 105, 116]
  | .free => [95, 99, 111, 110, 116, 101, 120, 116, 95, 102, 114, 101, 101]
  | .update => [95, 99, 111, 110, 116, 101, 120, 116, 95, 117, 112, 100, 97, 116, 101]
  | .finalize => [95, 99, 111, 110, 116, 101, 120, 116, 95, 102, 105, 110, 97, 108, 105, 122, 101]
  | .calculate => [95, 99, 97, 108, 99, 117, 108, 97, 116, 101]
  | .calculateHmac => [95, 99, 97, 108, 99, 117, 108, 97, 116, 101, 95, 104, 109, 97, 99]

theorem kind_codes (k : Kind) : ascii (Spec.pyKindName k) = ofCodes (kindCodes k) := by
  cases k
  exacts [lit2, lit3, lit4, lit5, lit6]

theorem title_codes (k : Kind) : ascii (Spec.pyKindText k) = ofCodes (titleCodes k) := by
  cases k
  exacts [lit7, lit8, lit9, lit10, lit11]

/-- A function's name. -/
def nameCodes (k : Kind) (f : PyFn) : List Nat := [112, 121, 104, 109, 97, 99, 95] ++ kindCodes k ++ fnCodes f

theorem name_codes (k : Kind) (f : PyFn) : ascii (f.name k) = ofCodes (nameCodes k f) := by
  cases f <;> simp only [PyFn.name, ascii_append, kind_codes, lit0, lit12, lit13, lit14, lit15, lit16, lit17, ofCodes_append] <;> rfl

/-- A reason that depends on the function. -/
def libraryCodes (k : Kind) : PyFn → List Nat
  | .init => [117, 110, 97, 98, 108, 101, 32, 116, 111, 32, 105, 110, 105, 116, 105, 97, 108, 105, 122, 101, 32] ++ titleCodes k ++ [32, 99, 111, 110, 116, 101, 120, 116, 46]
  | .free => [117, 110, 97, 98, 108, 101, 32, 116, 111, 32, 102, 114, 101, 101, 32, 108, 105, 98, 104, 109, 97, 99, 32] ++ titleCodes k ++ [32, 99, 111, 110, 116, 101, 120, 116, 46]
  | .update => [117, 110, 97, 98, 108, 101, 32, 116, 111, 32, 117, 112, 100, 97, 116, 101, 32] ++ titleCodes k ++ [32, 99, 111, 110, 116, 101, 120, 116, 32, 102, 114, 111, 109, 32, 100, 97, 116, 97, 46]
  | .finalize => [117, 110, 97, 98, 108, 101, 32, 116, 111, 32, 102, 105, 110, 97, 108, 105, 122, 101, 32] ++ titleCodes k ++ [32, 99, 111, 110, 116, 101, 120, 116, 46]
  | .calculate => [117, 110, 97, 98, 108, 101, 32, 116, 111, 32, 99, 97, 108, 99, 117, 108, 97, 116, 101, 32] ++ titleCodes k ++ [32, 102, 114, 111, 109, 32, 100, 97, 116, 97, 46]
  | .calculateHmac => [117, 110, 97, 98, 108, 101, 32, 116, 111, 32, 99, 97, 108, 99, 117, 108, 97, 116, 101, 32] ++ titleCodes k ++ [32, 72, 77, 65, 67, 32, 102, 114, 111, 109, 32, 100, 97, 116, 97, 46]

/-- A reason. -/
def whyCodes (k : Kind) (f : PyFn) : PyWhy → List Nat
  | .type => [117, 110, 115, 117, 112, 112, 111, 114, 116, 101, 100, 32, 98, 121, 116, 101, 115, 32, 111, 98, 106, 101, 99, 116, 32, 116, 121, 112, 101]
  | .instance => [117, 110, 97, 98, 108, 101, 32, 116, 111, 32, 100, 101, 116, 101, 114, 109, 105, 110, 101, 32, 105, 102, 32, 111, 98, 106, 101, 99, 116, 32, 105, 115, 32, 111, 102, 32, 116, 121, 112, 101, 32, 98, 121, 116, 101, 115, 46]
  | .size => [105, 110, 118, 97, 108, 105, 100, 32, 100, 97, 116, 97, 32, 115, 105, 122, 101, 32, 118, 97, 108, 117, 101, 32, 111, 117, 116, 32, 111, 102, 32, 98, 111, 117, 110, 100, 115, 46]
  | .keySize => [105, 110, 118, 97, 108, 105, 100, 32, 97, 114, 103, 117, 109, 101, 110, 116, 32, 107, 101, 121, 32, 100, 97, 116, 97, 32, 115, 105, 122, 101, 32, 118, 97, 108, 117, 101, 32, 111, 117, 116, 32, 111, 102, 32, 98, 111, 117, 110, 100, 115, 46]
  | .context => [105, 110, 118, 97, 108, 105, 100, 32] ++ titleCodes k ++ [32, 99, 111, 110, 116, 101, 120, 116, 32, 45, 32, 109, 105, 115, 115, 105, 110, 103, 32, 108, 105, 98, 104, 109, 97, 99, 32] ++ titleCodes k ++ [32, 99, 111, 110, 116, 101, 120, 116, 46]
  | .convert => [117, 110, 97, 98, 108, 101, 32, 116, 111, 32, 99, 111, 110, 118, 101, 114, 116, 32] ++ titleCodes k ++ (if f = .calculateHmac then [32, 72, 77, 65, 67] else [32, 104, 97, 115, 104]) ++ [32, 105, 110, 116, 111, 32, 98, 121, 116, 101, 115, 32, 111, 98, 106, 101, 99, 116, 46]
  | .library => libraryCodes k f

theorem why_codes (k : Kind) (f : PyFn) (why : PyWhy) : ascii (why.text k f) = ofCodes (whyCodes k f why) := by
  cases why with
  | type =>
    show ascii "unsupported bytes object type" = _
    rw [lit18]
    rfl
  | «instance» =>
    show ascii "unable to determine if object is of type bytes." = _
    rw [lit19]
    rfl
  | size =>
    show ascii "invalid data size value out of bounds." = _
    rw [lit20]
    rfl
  | keySize =>
    show ascii "invalid argument key data size value out of bounds." = _
    rw [lit21]
    rfl
  | context =>
    show ascii ("invalid " ++ Spec.pyKindText k ++ " context - missing libhmac " ++ Spec.pyKindText k ++ " context.") = _
    rw [ascii_append, ascii_append, ascii_append, ascii_append, title_codes, lit22, lit23, lit24, ofCodes_append, ofCodes_append, ofCodes_append, ofCodes_append]
    rfl
  | convert =>
    show ascii ("unable to convert " ++ Spec.pyKindText k ++ (if f = .calculateHmac then " HMAC" else " hash") ++ " into bytes object.") = _
    by_cases hf : f = .calculateHmac
    · rw [whyCodes, if_pos hf, if_pos hf, ascii_append, ascii_append, ascii_append, title_codes, lit25, lit28, lit26, ofCodes_append, ofCodes_append, ofCodes_append]
    · rw [whyCodes, if_neg hf, if_neg hf, ascii_append, ascii_append, ascii_append, title_codes, lit25, lit28, lit27, ofCodes_append, ofCodes_append, ofCodes_append]
  | library =>
    cases f with
    | init =>
      show ascii ("unable to initialize " ++ Spec.pyKindText k ++ " context.") = _
      rw [ascii_append, ascii_append, title_codes, lit29, lit24, ofCodes_append, ofCodes_append]
      rfl
    | free =>
      show ascii ("unable to free libhmac " ++ Spec.pyKindText k ++ " context.") = _
      rw [ascii_append, ascii_append, title_codes, lit30, lit24, ofCodes_append, ofCodes_append]
      rfl
    | update =>
      show ascii ("unable to update " ++ Spec.pyKindText k ++ " context from data.") = _
      rw [ascii_append, ascii_append, title_codes, lit31, lit32, ofCodes_append, ofCodes_append]
      rfl
    | finalize =>
      show ascii ("unable to finalize " ++ Spec.pyKindText k ++ " context.") = _
      rw [ascii_append, ascii_append, title_codes, lit33, lit24, ofCodes_append, ofCodes_append]
      rfl
    | calculate =>
      show ascii ("unable to calculate " ++ Spec.pyKindText k ++ " from data.") = _
      rw [ascii_append, ascii_append, title_codes, lit34, lit35, ofCodes_append, ofCodes_append]
      rfl
    | calculateHmac =>
      show ascii ("unable to calculate " ++ Spec.pyKindText k ++ " HMAC from data.") = _
      rw [ascii_append, ascii_append, title_codes, lit34, lit36, ofCodes_append, ofCodes_append]
      rfl

/-- A message. -/
def messageCodes (k : Kind) (f g : PyFn) (why : PyWhy) : List Nat := nameCodes k f ++ ([58, 32] ++ whyCodes k g why)

theorem message_codes (k : Kind) (f g : PyFn) (why : PyWhy) : ascii (f.name k ++ ": " ++ why.text k g) = ofCodes (messageCodes k f g why) := by
  rw [ascii_append, ascii_append, name_codes, why_codes, lit1, ofCodes_append, ofCodes_append, messageCodes, List.append_assoc]

theorem nameCodes_facts (k : Kind) (f : PyFn) : (∀ n ∈ nameCodes k f, n < 256 ∧ n ≠ 0 ∧ n ≠ 58) ∧ (nameCodes k f).length ≤ 40 := by
  have all : ∀ k ∈ [Kind.md5, .sha1, .sha224, .sha256, .sha512], ∀ f ∈ [PyFn.init, .free, .update, .finalize, .calculate, .calculateHmac], (∀ n ∈ nameCodes k f, n < 256 ∧ n ≠ 0 ∧ n ≠ 58) ∧ (nameCodes k f).length ≤ 40 := by decide +kernel
  exact all k (by cases k <;> simp) f (by cases f <;> simp)

theorem whyCodes_facts (k : Kind) (f : PyFn) (why : PyWhy) : (∀ n ∈ whyCodes k f why, n < 256 ∧ n ≠ 0) ∧ (whyCodes k f why).length ≤ 100 ∧ 12 < (whyCodes k f why).length := by
  have all : ∀ w ∈ [PyWhy.type, .instance, .size, .keySize, .library, .convert, .context], ∀ k ∈ [Kind.md5, .sha1, .sha224, .sha256, .sha512], ∀ f ∈ [PyFn.init, .free, .update, .finalize, .calculate, .calculateHmac],
      (∀ n ∈ whyCodes k f w, n < 256 ∧ n ≠ 0) ∧ (whyCodes k f w).length ≤ 100 ∧ 12 < (whyCodes k f w).length := by decide +kernel
  exact all why (by cases why <;> simp) k (by cases k <;> simp) f (by cases f <;> simp)

theorem nameCodes_inj {k k' : Kind} {f f' : PyFn} (h : nameCodes k f = nameCodes k' f') : k = k' ∧ f = f' := by
  have all : ∀ k ∈ [Kind.md5, .sha1, .sha224, .sha256, .sha512], ∀ f ∈ [PyFn.init, .free, .update, .finalize, .calculate, .calculateHmac], ∀ k' ∈ [Kind.md5, .sha1, .sha224, .sha256, .sha512], ∀ f' ∈ [PyFn.init, .free, .update, .finalize, .calculate, .calculateHmac],
      nameCodes k f = nameCodes k' f' → k = k' ∧ f = f' := by decide +kernel
  exact all k (by cases k <;> simp) f (by cases f <;> simp) k' (by cases k' <;> simp) f' (by cases f' <;> simp) h

theorem whyCodes_inj {k : Kind} {f : PyFn} {why why' : PyWhy} (h : (whyCodes k f why).take 12 = (whyCodes k f why').take 12) : why = why' := by
  have all : ∀ k ∈ [Kind.md5, .sha1, .sha224, .sha256, .sha512], ∀ f ∈ [PyFn.init, .free, .update, .finalize, .calculate, .calculateHmac], ∀ w ∈ [PyWhy.type, .instance, .size, .keySize, .library, .convert, .context],
      ∀ w' ∈ [PyWhy.type, .instance, .size, .keySize, .library, .convert, .context], (whyCodes k f w).take 12 = (whyCodes k f w').take 12 → w = w' := by decide +kernel
  exact all k (by cases k <;> simp) f (by cases f <;> simp) why (by cases why <;> simp) why' (by cases why' <;> simp) h

theorem kept_self {b : List Byte} (hz : ∀ x ∈ b, x ≠ 0) (hl : b.length ≤ 2047) : kept b = b := by
  rw [kept, List.take_of_length_le hl, takeWhile_self hz]

theorem messageCodes_facts (k : Kind) (f g : PyFn) (why : PyWhy) : (∀ b ∈ ofCodes (messageCodes k f g why), b ≠ 0) ∧ (ofCodes (messageCodes k f g why)).length ≤ 2047 := by
  obtain ⟨h1, h2⟩ := nameCodes_facts k f
  obtain ⟨h3, h4, -⟩ := whyCodes_facts k g why
  refine ⟨ofCodes_ne (c := 0) (by omega) fun n hn => ?_, ?_⟩
  · simp only [messageCodes, List.mem_append, List.mem_cons, List.not_mem_nil, or_false] at hn
    rcases hn with hn | (rfl | rfl) | hn
    · exact ⟨(h1 n hn).1, (h1 n hn).2.1⟩
    · omega
    · omega
    · exact h3 n hn
  · simp only [ofCodes, messageCodes, List.length_map, List.length_append, List.length_cons, List.length_nil]
    omega

/-- A text is the name of a function, a colon, a space, the reason, and what follows. -/
theorem pyText_codes (k : Kind) (f g : PyFn) (why : PyWhy) (d : Option (List Byte)) : ∃ r, pyText k f g why d = ofCodes (nameCodes k f) ++ 58 :: 32 :: (ofCodes ((whyCodes k g why).take 12) ++ r) := by
  obtain ⟨h1, h2⟩ := messageCodes_facts k f g why
  have split : ofCodes (messageCodes k f g why) = ofCodes (nameCodes k f) ++ 58 :: 32 :: (ofCodes ((whyCodes k g why).take 12) ++ ofCodes ((whyCodes k g why).drop 12)) := by
    rw [ofCodes_append, List.take_append_drop, messageCodes, ← ofCodes_append, ← ofCodes_append]
    rfl
  have plain : ∀ r, ∃ r', ofCodes (messageCodes k f g why) ++ r = ofCodes (nameCodes k f) ++ 58 :: 32 :: (ofCodes ((whyCodes k g why).take 12) ++ r') := fun r =>
    ⟨ofCodes ((whyCodes k g why).drop 12) ++ r, by rw [split]; simp only [List.append_assoc, List.cons_append]⟩
  cases why with
  | library =>
    show ∃ r, failureText (ascii (f.name k ++ ": " ++ PyWhy.library.text k g)) d = _
    rw [message_codes]
    cases d with
    | none =>
      show ∃ r, kept _ = _
      rw [kept_self h1 h2]
      simpa using plain []
    | some d =>
      show ∃ r, kept _ ++ _ = _
      rw [kept_self h1 h2]
      exact plain _
  | «instance» =>
    have hne : ofCodes ((whyCodes k g .instance).drop 12) ≠ [] := by
      rw [ofCodes, ne_eq, List.map_eq_nil_iff]
      exact List.cons_ne_nil _ _
    have hw : ∃ r, withoutStop (ofCodes (messageCodes k f g .instance)) = ofCodes (nameCodes k f) ++ 58 :: 32 :: (ofCodes ((whyCodes k g .instance).take 12) ++ r) := by
      unfold withoutStop
      split
      · rw [split, ← List.cons_append, ← List.cons_append, ← List.append_assoc, List.dropLast_append_of_ne_nil hne]
        refine ⟨(ofCodes ((whyCodes k g .instance).drop 12)).dropLast, ?_⟩
        simp only [List.append_assoc, List.cons_append]
      · exact ⟨_, split⟩
    obtain ⟨r, hw⟩ := hw
    show ∃ r, withoutStop (kept (ascii (f.name k ++ ": " ++ PyWhy.instance.text k g))) ++ _ = _
    rw [message_codes, kept_self h1 h2, hw, List.append_assoc, List.cons_append, List.cons_append, List.append_assoc]
    exact ⟨_, rfl⟩
  | type =>
    show ∃ r, ascii (f.name k ++ ": " ++ PyWhy.type.text k g) = _
    rw [message_codes]
    simpa using plain []
  | size =>
    show ∃ r, ascii (f.name k ++ ": " ++ PyWhy.size.text k g) = _
    rw [message_codes]
    simpa using plain []
  | keySize =>
    show ∃ r, ascii (f.name k ++ ": " ++ PyWhy.keySize.text k g) = _
    rw [message_codes]
    simpa using plain []
  | convert =>
    show ∃ r, ascii (f.name k ++ ": " ++ PyWhy.convert.text k g) = _
    rw [message_codes]
    simpa using plain []
  | context =>
    show ∃ r, ascii (f.name k ++ ": " ++ PyWhy.context.text k g) = _
    rw [message_codes]
    simpa using plain []

theorem lt_of_take {l : List Nat} (h : ∀ n ∈ l, n < 256 ∧ n ≠ 0) : ∀ n ∈ l.take 12, n < 256 := fun n hn => (h n (List.mem_of_mem_take hn)).1

/-- The function named in a text. -/
theorem pyText_named (k : Kind) (f g : PyFn) (why : PyWhy) (d : Option (List Byte)) : (pyText k f g why d).takeWhile (fun b => b ≠ 58) = ascii (f.name k) := by
  obtain ⟨r, hr⟩ := pyText_codes k f g why d
  have hn : ∀ b ∈ ofCodes (nameCodes k f), b ≠ 58 := ofCodes_ne (c := 58) (by omega) (fun n hn => ⟨((nameCodes_facts k f).1 n hn).1, ((nameCodes_facts k f).1 n hn).2.2⟩)
  rw [hr, List.takeWhile_append_of_pos (fun b hb => decide_eq_true (hn b hb)), List.takeWhile_cons_of_neg (by simp), List.append_nil, name_codes]

theorem pyName_inj {k k' : Kind} {f f' : PyFn} (h : ascii (f.name k) = ascii (f'.name k')) : k = k' ∧ f = f' := by
  rw [name_codes, name_codes] at h
  exact nameCodes_inj (ofCodes_inj (fun n hn => ((nameCodes_facts k f).1 n hn).1) (fun n hn => ((nameCodes_facts k' f').1 n hn).1) h)

/-- A text tells the function, the algorithm and the reason. -/
theorem pyText_inj {k k' : Kind} {f f' : PyFn} {why why' : PyWhy} {d d' : Option (List Byte)} (h : pyText k f f why d = pyText k' f' f' why' d') : k = k' ∧ f = f' ∧ why = why' := by
  have h1 : ascii (f.name k) = ascii (f'.name k') := by rw [← pyText_named k f f why d, ← pyText_named k' f' f' why' d', h]
  obtain ⟨rfl, rfl⟩ := pyName_inj h1
  refine ⟨rfl, rfl, ?_⟩
  obtain ⟨r, hr⟩ := pyText_codes k f f why d
  obtain ⟨r', hr'⟩ := pyText_codes k f f why' d'
  rw [hr, hr'] at h
  have h2 := List.append_cancel_left h
  simp only [List.cons.injEq, true_and] at h2
  obtain ⟨c1, -, l1⟩ := whyCodes_facts k f why
  obtain ⟨c2, -, l2⟩ := whyCodes_facts k f why'
  have h3 := (List.append_inj h2 (by simp only [ofCodes, List.length_map, List.length_take]; omega)).1
  exact whyCodes_inj (ofCodes_inj (lt_of_take c1) (lt_of_take c2) h3)

end Model
