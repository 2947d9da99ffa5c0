import Verif.Base
import Verif.Model.Tables
/-! Byte order conversions and bit rotations. -/

namespace Model

/-- One statement of a load macro on a `w`-bit unsigned `value` with `byte_stream = &bs[off]`
(common/byte_stream.h:54-154, libhmac/libhmac_byte_stream.h:32-118). C's integer promotions do not change the
stored `w`-bit result. -/
def loadStep {w} (bs : List Byte) (off : Nat) : LoadStep → BitVec w → Res (BitVec w)
  | .set i, _ => do let b ← rd bs (off + i); pure (b.setWidth w)
  | .or i, v => do let b ← rd bs (off + i); pure (v ||| b.setWidth w)
  | .shl8, v => pure (v <<< 8)

/-- A load macro: its statements in order, from the previous contents `v0` of the variable
(common/byte_stream.h:54-154, libhmac/libhmac_byte_stream.h:32-118). -/
def runLoad {w} (prog : List LoadStep) (bs : List Byte) (off : Nat) (v0 : BitVec w) : Res (BitVec w) :=
  runTable (loadStep bs off) prog v0

/-- A store macro on `byte_stream = &bs[off]` (common/byte_stream.h:156-220): for each row `(i, s)`,
`byte_stream[i] = (uint8_t)( ( value >> s ) & 0x0ff )`. A shift by the (promoted) width or more is undefined. -/
def runStore {w} (prog : List (Nat × Nat)) (bs : List Byte) (off : Nat) (v : BitVec w) : Res (List Byte) :=
  runTable (fun r bs => if r.2 < max w 32 then wr bs (off + r.1) (((v >>> r.2) &&& 0xff#w).setWidth 8) else .ub) prog bs

/-- `byte_stream_bit_rotate_left_32bit` / `_64bit` (common/byte_stream.h:234-235, 240-241) on a `w`-bit operand that is not
promoted (`w ≥ 32`): both shift counts must be smaller than the width. -/
def cRotl {w} (x : BitVec w) (n : Nat) : Res (BitVec w) :=
  if n < w ∧ n ≤ w ∧ w - n < w then .ok ((x <<< n) ||| (x >>> (w - n))) else .ub

/-- `byte_stream_bit_rotate_right_32bit` / `_64bit` (common/byte_stream.h:237-238, 243-244), as `cRotl`. -/
def cRotr {w} (x : BitVec w) (n : Nat) : Res (BitVec w) :=
  if n < w ∧ n ≤ w ∧ w - n < w then .ok ((x >>> n) ||| (x <<< (w - n))) else .ub

/-- The C operator `>>` on an unpromoted unsigned operand (for example libhmac/libhmac_sha256_context.c:76, 79):
undefined for counts of the width or more. -/
def cShr {w} (x : BitVec w) (n : Nat) : Res (BitVec w) := if n < w then .ok (x >>> n) else .ub

/-- `values[ i - k ]` (for example libhmac/libhmac_sha256_context.c:74-84): a negative index is undefined behaviour. -/
def rdSub {α} (a : List α) (i k : Nat) : Res α := if k ≤ i then rd a (i - k) else .ub

/-- Subtraction of `size_t` values (64-bit, wrapping; for example libhmac/libhmac_sha256_context.c:902, 928, 1247). -/
def szSub (a b : Nat) : Nat := (a + (2 ^ 64 - b % 2 ^ 64)) % 2 ^ 64

/-- Forming the pointer `&( buffer[ off ] )` (for example libhmac/libhmac_sha256_context.c:954): must stay within, or one past the
end of, the array. -/
def ptrAt {α} (buf : List α) (off : Nat) : Res (List α) := if off ≤ buf.length then .ok (buf.drop off) else .ub

end Model
