import Verif.Proofs.DigestString
/-! C35: the hex digest string. -/

namespace Props

open Model Spec

/-- C35. With enough room the string buffer gets two lowercase hexadecimal digits per digest byte and a terminator; what follows is unchanged. -/
theorem C35_hex_string (digest : List Byte) (n : Nat) (string : List Nat) (size : Nat) (hn : n ≤ digest.length) (hsize : 2 * n + 1 ≤ size)
    (hmax : size ≤ 2 ^ 63 - 1) (hroom : size ≤ string.length) :
    digestToString (some digest) n (some string) size = .ok (1, some (hex (digest.take n) ++ 0 :: string.drop (2 * n + 1))) :=
  digestToString_ok digest n string size hn hsize hmax hroom

example := C35_hex_string [0x12, 0xef, 0x00] 2 [1, 2, 3, 4, 5, 6] 5 (by decide) (by decide) (by decide) (by decide)

/-- C35. All other calls return -1 and write nothing (in particular for NULL arguments and a string too small), with no condition on the buffers. -/
theorem C35_rejects (digest : Option (List Byte)) (n : Nat) (string : Option (List Nat)) (size : Nat)
    (h : digest = none ∨ string = none ∨ 2 ^ 63 - 1 < n ∨ 2 ^ 63 - 1 < size ∨ size < 2 * n + 1) :
    digestToString digest n string size = .ok (-1, string) := by
  have hs : ssizeMax = 2 ^ 63 - 1 := rfl
  unfold digestToString
  rcases digest with _ | d
  · rfl
  · simp only
    split
    · rfl
    · rcases string with _ | s
      · rfl
      · simp only [reduceCtorEq, false_or] at h ⊢
        split
        · rfl
        · rw [if_pos (by rw [Nat.mod_eq_of_lt (by omega)]; omega)]

example : digestToString (some [1, 2]) 2 (some [7, 7, 7, 7, 7]) 4 = .ok (-1, some [7, 7, 7, 7, 7]) := C35_rejects _ _ _ _ (by decide)

/-- C35. The string has 2n characters, all lowercase hexadecimal digits, and reading it gives the digest back. -/
theorem C35_readable (digest : List Byte) :
    (hex digest).length = 2 * digest.length ∧ (∀ c ∈ hex digest, 48 ≤ c ∧ c ≤ 57 ∨ 97 ≤ c ∧ c ≤ 102) ∧ unhex (hex digest) = some digest := by
  refine ⟨hex_length _, fun c hc => ?_, unhex_hex _⟩
  have h : ∀ c ∈ hexDigits, 48 ≤ c ∧ c ≤ 57 ∨ 97 ≤ c ∧ c ≤ 102 := by decide
  exact h c (mem_hex _ c hc)

end Props
