import Verif.Base
/-! Areas of a flat memory. -/

namespace Spec

/-- The `n` bytes at offset `o`. -/
def slice (mem : List Byte) (o n : Nat) : List Byte := (mem.drop o).take n

/-- The memory with the bytes at offset `o` replaced by `b`. -/
def overwrite (mem : List Byte) (o : Nat) (b : List Byte) : List Byte := mem.take o ++ (b ++ mem.drop (o + b.length))

/-- An area of `n` bytes at `p` lies in the memory (NULL, and areas with a size above SSIZE_MAX which are never accessed, count as such). -/
def AreaOk (mem : List Byte) (p : Option Nat) (n : Nat) : Prop := ∀ o, p = some o → n ≤ 2 ^ 63 - 1 → o + n ≤ mem.length

end Spec
