import Verif.Base
/-! hmactools/digest_hash.c. Characters (`system_character_t`) are their numeric values; the same code is compiled for narrow and wide characters. -/

namespace Model

/-- The character for a digit (hmactools/digest_hash.c:101-109 and 112-120). `digest_digit` is a `uint8_t` below 16. -/
def digitChar (d : Nat) : Nat := if d ≤ 9 then 48 + d else 97 + (d - 10)

/-- `digest_hash_copy_to_string` (hmactools/digest_hash.c:31-125). Returns the result and the contents of the string buffer; the error object is
not modelled. `string_size < 2 * digest_hash_size + 1` is computed in 64 bits as in C. -/
def digestToString (digest : Option (List Byte)) (digestSize : Nat) (string : Option (List Nat)) (stringSize : Nat) : Res (Int × Option (List Nat)) :=
  match digest with
  | none => .ok (-1, string)
  | some d =>
    if ssizeMax < digestSize then .ok (-1, string)
    else match string with
      | none => .ok (-1, none)
      | some s =>
        if ssizeMax < stringSize then .ok (-1, some s)
        else if stringSize < (2 * digestSize + 1) % 2 ^ 64 then .ok (-1, some s)
        else do
          let (s, it) ← forLoop 0 digestSize (fun i (st : List Nat × Nat) => do
            let b ← rd d i
            let s ← wr st.1 st.2 (digitChar (b.toNat / 16))
            let s ← wr s (st.2 + 1) (digitChar (b.toNat % 16))
            pure (s, st.2 + 2)) (s, 0)
          let s ← wr s it 0
          pure (1, some s)

end Model
