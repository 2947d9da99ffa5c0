import Verif.Proofs.Hmac
import Verif.Proofs.Stream
/-! The one-shot functions for all hash functions, and facts about memory areas. -/

namespace Model

open Spec

theorem overwrite_getElem? {mem b : List Byte} {o : Nat} (h : o + b.length ≤ mem.length) (j : Nat) :
    (overwrite mem o b)[j]? = if o ≤ j ∧ j < o + b.length then b[j - o]? else mem[j]? := by
  unfold overwrite
  have ht : (mem.take o).length = o := by simp; omega
  by_cases h1 : j < o
  · rw [List.getElem?_append_left (by omega), List.getElem?_take, if_pos h1, if_neg (by omega)]
  · rw [List.getElem?_append_right (by omega), ht]
    by_cases h2 : j < o + b.length
    · rw [List.getElem?_append_left (by omega), if_pos (by omega)]
    · rw [List.getElem?_append_right (by omega), List.getElem?_drop, if_neg (by omega)]
      congr 1
      omega

theorem algOf_hmacBs (k : Kind) : (algOf k).hmacBlockSize = k.blockSize := by cases k <;> rfl

theorem hmacOf_paddedKey (B : Nat) (h : List Byte → List Byte) (key msg : List Byte) :
    h ((paddedKey B h key).map (· ^^^ 0x5c#8) ++ h ((paddedKey B h key).map (· ^^^ 0x36#8) ++ msg)) = Spec.hmac B h key msg := rfl

theorem hmac_len64 (k : Kind) (key msg : List Byte) (hk : k.LengthOk key.length) (hm : k.LengthOk (k.blockSize + msg.length)) :
    Spec.hmac k.blockSize k.len64.digest key msg = Spec.hmac k.blockSize k.std.digest key msg := by
  have hd : ∀ m, (k.len64.digest m).length = k.hashSize := digest_length k
  have h0 : paddedKey k.blockSize k.len64.digest key = paddedKey k.blockSize k.std.digest key := by
    unfold paddedKey
    rw [len64_digest k key hk]
  have hlen : ∀ x : Byte, ((paddedKey k.blockSize k.len64.digest key).map (· ^^^ x)).length = k.blockSize := by
    intro x
    obtain ⟨enc, L⟩ := lawful k
    have := paddedKey_length L key
    rw [algOf_hmacBs] at this
    simpa using this
  rw [← hmacOf_paddedKey, ← hmacOf_paddedKey, ← h0]
  rw [← len64_digest k (_ ++ msg) (by rw [List.length_append, hlen]; exact hm)]
  rw [← len64_digest k (_ ++ k.len64.digest _) (by
    rw [List.length_append, hlen, hd]
    cases k <;> simp [Kind.LengthOk, Kind.blockSize, Kind.hashSize])]

theorem hmac_length (k : Kind) (key msg : List Byte) : (Spec.hmac k.blockSize k.len64.digest key msg).length = k.hashSize := digest_length k _

end Model
