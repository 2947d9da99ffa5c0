import Verif.Spec.Common
/-! MD5 as in RFC 1321. Independent of the model. -/

namespace Spec

/-- RFC 1321 §3.4: the auxiliary functions F, G, H, I, one per group of 16 operations. -/
def md5F (t : Nat) (x y z : BitVec 32) : BitVec 32 :=
  if t < 16 then (x &&& y) ||| (~~~x &&& z)
  else if t < 32 then (x &&& z) ||| (y &&& ~~~z)
  else if t < 48 then x ^^^ y ^^^ z
  else y ^^^ (x ||| ~~~z)

/-- RFC 1321 §3.4: index of the message word used by operation `t`. -/
def md5Idx (t : Nat) : Nat :=
  if t < 16 then t
  else if t < 32 then (5 * t + 1) % 16
  else if t < 48 then (3 * t + 5) % 16
  else (7 * t) % 16

/-- RFC 1321 §3.4: rotation amount of operation `t`. -/
def md5S (t : Nat) : Nat :=
  if t < 16 then [7, 12, 17, 22].getD (t % 4) 0
  else if t < 32 then [5, 9, 14, 20].getD (t % 4) 0
  else if t < 48 then [4, 11, 16, 23].getD (t % 4) 0
  else [6, 10, 15, 21].getD (t % 4) 0

/-- RFC 1321 §3.4: the table T (`T[i+1]` = entry `i`); `C29` ties it to `floor(2^32 |sin (i+1)|)`. -/
def md5T : List (BitVec 32) := [
  0xd76aa478, 0xe8c7b756, 0x242070db, 0xc1bdceee, 0xf57c0faf, 0x4787c62a, 0xa8304613, 0xfd469501,
  0x698098d8, 0x8b44f7af, 0xffff5bb1, 0x895cd7be, 0x6b901122, 0xfd987193, 0xa679438e, 0x49b40821,
  0xf61e2562, 0xc040b340, 0x265e5a51, 0xe9b6c7aa, 0xd62f105d, 0x02441453, 0xd8a1e681, 0xe7d3fbc8,
  0x21e1cde6, 0xc33707d6, 0xf4d50d87, 0x455a14ed, 0xa9e3e905, 0xfcefa3f8, 0x676f02d9, 0x8d2a4c8a,
  0xfffa3942, 0x8771f681, 0x6d9d6122, 0xfde5380c, 0xa4beea44, 0x4bdecfa9, 0xf6bb4b60, 0xbebfbc70,
  0x289b7ec6, 0xeaa127fa, 0xd4ef3085, 0x04881d05, 0xd9d4d039, 0xe6db99e5, 0x1fa27cf8, 0xc4ac5665,
  0xf4292244, 0x432aff97, 0xab9423a7, 0xfc93a039, 0x655b59c3, 0x8f0ccc92, 0xffeff47d, 0x85845dd1,
  0x6fa87e4f, 0xfe2ce6e0, 0xa3014314, 0x4e0811a1, 0xf7537e82, 0xbd3af235, 0x2ad7d2bb, 0xeb86d391]

/-- Message word `k` of a block: 4 bytes, little-endian. -/
def leWord (blk : List Byte) (k : Nat) : BitVec 32 :=
  BitVec.ofNat 32 (leNat ((blk.drop (k * 4)).take 4))

/-- The variables A, B, C, D. -/
structure Vars4 where
  (a b c d : BitVec 32)

/-- One operation `a = b + ((a + f(b,c,d) + X[k] + T[i]) <<< s)` followed by the renaming (A,B,C,D) := (D,A',B,C). -/
def md5Step (blk : List Byte) (t : Nat) (v : Vars4) : Vars4 :=
  { a := v.d
    b := v.b + (v.a + md5F t v.b v.c v.d + leWord blk (md5Idx t) + md5T.getD t 0).rotateLeft (md5S t)
    c := v.b, d := v.c }

/-- The first `t` operations. -/
def md5Steps (blk : List Byte) (v0 : Vars4) : Nat → Vars4
  | 0 => v0
  | t + 1 => md5Step blk t (md5Steps blk v0 t)

/-- Compression: 64 operations, then addition of the old values (RFC 1321 §3.4). -/
def md5Compress (H : List (BitVec 32)) (blk : List Byte) : List (BitVec 32) :=
  match H with
  | [h0, h1, h2, h3] =>
    let v := md5Steps blk ⟨h0, h1, h2, h3⟩ 64
    [v.a + h0, v.b + h1, v.c + h2, v.d + h3]
  | _ => H

/-- MD5 (RFC 1321 §3): little-endian throughout, low 64 bits of the length. -/
def md5 : IterHash 32 where
  blockBytes := 64
  lenBytes := 8
  lenField := leBytes 8
  iv := [0x67452301, 0xefcdab89, 0x98badcfe, 0x10325476]
  compress := md5Compress
  output h := h.flatMap fun x => leBytes 4 x.toNat

end Spec
