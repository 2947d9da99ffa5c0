/-! Tables transcribed from the C sources: constant arrays, and the argument lists of the unrolled macro invocations
(generated by a script that extracts them textually; each carries the lines it was taken from). -/

namespace Model

/-- The three statement forms occurring in the load macros (common/byte_stream.h:54-154, libhmac/libhmac_byte_stream.h:32-139):
`value = byte_stream[i]`, `value |= byte_stream[i]`, `value <<= 8`. -/
inductive LoadStep where
  | set (i : Nat)
  | or (i : Nat)
  | shl8
  deriving DecidableEq, Repr

/-- Initial hash values: `libhmac_sha224_context_prime_square_roots` (libhmac/libhmac_sha224_context.c:47-50). -/
def sha224Iv : List (BitVec 32) := [
  0xc1059ed8, 0x367cd507, 0x3070dd17, 0xf70e5939,
  0xffc00b31, 0x68581511, 0x64f98fa7, 0xbefa4fa4]

/-- Round constants: `libhmac_sha224_context_prime_cube_roots` (libhmac/libhmac_sha224_context.c:54-71). -/
def sha224K : List (BitVec 32) := [
  0x428a2f98, 0x71374491, 0xb5c0fbcf, 0xe9b5dba5,
  0x3956c25b, 0x59f111f1, 0x923f82a4, 0xab1c5ed5,
  0xd807aa98, 0x12835b01, 0x243185be, 0x550c7dc3,
  0x72be5d74, 0x80deb1fe, 0x9bdc06a7, 0xc19bf174,
  0xe49b69c1, 0xefbe4786, 0x0fc19dc6, 0x240ca1cc,
  0x2de92c6f, 0x4a7484aa, 0x5cb0a9dc, 0x76f988da,
  0x983e5152, 0xa831c66d, 0xb00327c8, 0xbf597fc7,
  0xc6e00bf3, 0xd5a79147, 0x06ca6351, 0x14292967,
  0x27b70a85, 0x2e1b2138, 0x4d2c6dfc, 0x53380d13,
  0x650a7354, 0x766a0abb, 0x81c2c92e, 0x92722c85,
  0xa2bfe8a1, 0xa81a664b, 0xc24b8b70, 0xc76c51a3,
  0xd192e819, 0xd6990624, 0xf40e3585, 0x106aa070,
  0x19a4c116, 0x1e376c08, 0x2748774c, 0x34b0bcb5,
  0x391c0cb3, 0x4ed8aa4a, 0x5b9cca4f, 0x682e6ff3,
  0x748f82ee, 0x78a5636f, 0x84c87814, 0x8cc70208,
  0x90befffa, 0xa4506ceb, 0xbef9a3f7, 0xc67178f2]

/-- Index arguments of the unrolled message schedule macro invocations (libhmac/libhmac_sha224_context.c:86-134). -/
def sha224ExtendRows : List Nat := [
  16, 17, 18, 19, 20, 21, 22, 23, 24, 25, 26, 27, 28, 29, 30, 31,
  32, 33, 34, 35, 36, 37, 38, 39, 40, 41, 42, 43, 44, 45, 46, 47,
  48, 49, 50, 51, 52, 53, 54, 55, 56, 57, 58, 59, 60, 61, 62, 63]

/-- Arguments (value index, hash value indexes 0..7) of the unrolled round macro invocations (libhmac/libhmac_sha224_context.c:158-222). -/
def sha224RoundRows : List (Nat × Nat × Nat × Nat × Nat × Nat × Nat × Nat × Nat) := [
  (0, 0, 1, 2, 3, 4, 5, 6, 7), (1, 7, 0, 1, 2, 3, 4, 5, 6), (2, 6, 7, 0, 1, 2, 3, 4, 5), (3, 5, 6, 7, 0, 1, 2, 3, 4),
  (4, 4, 5, 6, 7, 0, 1, 2, 3), (5, 3, 4, 5, 6, 7, 0, 1, 2), (6, 2, 3, 4, 5, 6, 7, 0, 1), (7, 1, 2, 3, 4, 5, 6, 7, 0),
  (8, 0, 1, 2, 3, 4, 5, 6, 7), (9, 7, 0, 1, 2, 3, 4, 5, 6), (10, 6, 7, 0, 1, 2, 3, 4, 5), (11, 5, 6, 7, 0, 1, 2, 3, 4),
  (12, 4, 5, 6, 7, 0, 1, 2, 3), (13, 3, 4, 5, 6, 7, 0, 1, 2), (14, 2, 3, 4, 5, 6, 7, 0, 1), (15, 1, 2, 3, 4, 5, 6, 7, 0),
  (16, 0, 1, 2, 3, 4, 5, 6, 7), (17, 7, 0, 1, 2, 3, 4, 5, 6), (18, 6, 7, 0, 1, 2, 3, 4, 5), (19, 5, 6, 7, 0, 1, 2, 3, 4),
  (20, 4, 5, 6, 7, 0, 1, 2, 3), (21, 3, 4, 5, 6, 7, 0, 1, 2), (22, 2, 3, 4, 5, 6, 7, 0, 1), (23, 1, 2, 3, 4, 5, 6, 7, 0),
  (24, 0, 1, 2, 3, 4, 5, 6, 7), (25, 7, 0, 1, 2, 3, 4, 5, 6), (26, 6, 7, 0, 1, 2, 3, 4, 5), (27, 5, 6, 7, 0, 1, 2, 3, 4),
  (28, 4, 5, 6, 7, 0, 1, 2, 3), (29, 3, 4, 5, 6, 7, 0, 1, 2), (30, 2, 3, 4, 5, 6, 7, 0, 1), (31, 1, 2, 3, 4, 5, 6, 7, 0),
  (32, 0, 1, 2, 3, 4, 5, 6, 7), (33, 7, 0, 1, 2, 3, 4, 5, 6), (34, 6, 7, 0, 1, 2, 3, 4, 5), (35, 5, 6, 7, 0, 1, 2, 3, 4),
  (36, 4, 5, 6, 7, 0, 1, 2, 3), (37, 3, 4, 5, 6, 7, 0, 1, 2), (38, 2, 3, 4, 5, 6, 7, 0, 1), (39, 1, 2, 3, 4, 5, 6, 7, 0),
  (40, 0, 1, 2, 3, 4, 5, 6, 7), (41, 7, 0, 1, 2, 3, 4, 5, 6), (42, 6, 7, 0, 1, 2, 3, 4, 5), (43, 5, 6, 7, 0, 1, 2, 3, 4),
  (44, 4, 5, 6, 7, 0, 1, 2, 3), (45, 3, 4, 5, 6, 7, 0, 1, 2), (46, 2, 3, 4, 5, 6, 7, 0, 1), (47, 1, 2, 3, 4, 5, 6, 7, 0),
  (48, 0, 1, 2, 3, 4, 5, 6, 7), (49, 7, 0, 1, 2, 3, 4, 5, 6), (50, 6, 7, 0, 1, 2, 3, 4, 5), (51, 5, 6, 7, 0, 1, 2, 3, 4),
  (52, 4, 5, 6, 7, 0, 1, 2, 3), (53, 3, 4, 5, 6, 7, 0, 1, 2), (54, 2, 3, 4, 5, 6, 7, 0, 1), (55, 1, 2, 3, 4, 5, 6, 7, 0),
  (56, 0, 1, 2, 3, 4, 5, 6, 7), (57, 7, 0, 1, 2, 3, 4, 5, 6), (58, 6, 7, 0, 1, 2, 3, 4, 5), (59, 5, 6, 7, 0, 1, 2, 3, 4),
  (60, 4, 5, 6, 7, 0, 1, 2, 3), (61, 3, 4, 5, 6, 7, 0, 1, 2), (62, 2, 3, 4, 5, 6, 7, 0, 1), (63, 1, 2, 3, 4, 5, 6, 7, 0)]

/-- Initial hash values: `libhmac_sha256_context_prime_square_roots` (libhmac/libhmac_sha256_context.c:47-50). -/
def sha256Iv : List (BitVec 32) := [
  0x6a09e667, 0xbb67ae85, 0x3c6ef372, 0xa54ff53a,
  0x510e527f, 0x9b05688c, 0x1f83d9ab, 0x5be0cd19]

/-- Round constants: `libhmac_sha256_context_prime_cube_roots` (libhmac/libhmac_sha256_context.c:54-71). -/
def sha256K : List (BitVec 32) := [
  0x428a2f98, 0x71374491, 0xb5c0fbcf, 0xe9b5dba5,
  0x3956c25b, 0x59f111f1, 0x923f82a4, 0xab1c5ed5,
  0xd807aa98, 0x12835b01, 0x243185be, 0x550c7dc3,
  0x72be5d74, 0x80deb1fe, 0x9bdc06a7, 0xc19bf174,
  0xe49b69c1, 0xefbe4786, 0x0fc19dc6, 0x240ca1cc,
  0x2de92c6f, 0x4a7484aa, 0x5cb0a9dc, 0x76f988da,
  0x983e5152, 0xa831c66d, 0xb00327c8, 0xbf597fc7,
  0xc6e00bf3, 0xd5a79147, 0x06ca6351, 0x14292967,
  0x27b70a85, 0x2e1b2138, 0x4d2c6dfc, 0x53380d13,
  0x650a7354, 0x766a0abb, 0x81c2c92e, 0x92722c85,
  0xa2bfe8a1, 0xa81a664b, 0xc24b8b70, 0xc76c51a3,
  0xd192e819, 0xd6990624, 0xf40e3585, 0x106aa070,
  0x19a4c116, 0x1e376c08, 0x2748774c, 0x34b0bcb5,
  0x391c0cb3, 0x4ed8aa4a, 0x5b9cca4f, 0x682e6ff3,
  0x748f82ee, 0x78a5636f, 0x84c87814, 0x8cc70208,
  0x90befffa, 0xa4506ceb, 0xbef9a3f7, 0xc67178f2]

/-- Index arguments of the unrolled message schedule macro invocations (libhmac/libhmac_sha256_context.c:86-134). -/
def sha256ExtendRows : List Nat := [
  16, 17, 18, 19, 20, 21, 22, 23, 24, 25, 26, 27, 28, 29, 30, 31,
  32, 33, 34, 35, 36, 37, 38, 39, 40, 41, 42, 43, 44, 45, 46, 47,
  48, 49, 50, 51, 52, 53, 54, 55, 56, 57, 58, 59, 60, 61, 62, 63]

/-- Arguments (value index, hash value indexes 0..7) of the unrolled round macro invocations (libhmac/libhmac_sha256_context.c:158-222). -/
def sha256RoundRows : List (Nat × Nat × Nat × Nat × Nat × Nat × Nat × Nat × Nat) := [
  (0, 0, 1, 2, 3, 4, 5, 6, 7), (1, 7, 0, 1, 2, 3, 4, 5, 6), (2, 6, 7, 0, 1, 2, 3, 4, 5), (3, 5, 6, 7, 0, 1, 2, 3, 4),
  (4, 4, 5, 6, 7, 0, 1, 2, 3), (5, 3, 4, 5, 6, 7, 0, 1, 2), (6, 2, 3, 4, 5, 6, 7, 0, 1), (7, 1, 2, 3, 4, 5, 6, 7, 0),
  (8, 0, 1, 2, 3, 4, 5, 6, 7), (9, 7, 0, 1, 2, 3, 4, 5, 6), (10, 6, 7, 0, 1, 2, 3, 4, 5), (11, 5, 6, 7, 0, 1, 2, 3, 4),
  (12, 4, 5, 6, 7, 0, 1, 2, 3), (13, 3, 4, 5, 6, 7, 0, 1, 2), (14, 2, 3, 4, 5, 6, 7, 0, 1), (15, 1, 2, 3, 4, 5, 6, 7, 0),
  (16, 0, 1, 2, 3, 4, 5, 6, 7), (17, 7, 0, 1, 2, 3, 4, 5, 6), (18, 6, 7, 0, 1, 2, 3, 4, 5), (19, 5, 6, 7, 0, 1, 2, 3, 4),
  (20, 4, 5, 6, 7, 0, 1, 2, 3), (21, 3, 4, 5, 6, 7, 0, 1, 2), (22, 2, 3, 4, 5, 6, 7, 0, 1), (23, 1, 2, 3, 4, 5, 6, 7, 0),
  (24, 0, 1, 2, 3, 4, 5, 6, 7), (25, 7, 0, 1, 2, 3, 4, 5, 6), (26, 6, 7, 0, 1, 2, 3, 4, 5), (27, 5, 6, 7, 0, 1, 2, 3, 4),
  (28, 4, 5, 6, 7, 0, 1, 2, 3), (29, 3, 4, 5, 6, 7, 0, 1, 2), (30, 2, 3, 4, 5, 6, 7, 0, 1), (31, 1, 2, 3, 4, 5, 6, 7, 0),
  (32, 0, 1, 2, 3, 4, 5, 6, 7), (33, 7, 0, 1, 2, 3, 4, 5, 6), (34, 6, 7, 0, 1, 2, 3, 4, 5), (35, 5, 6, 7, 0, 1, 2, 3, 4),
  (36, 4, 5, 6, 7, 0, 1, 2, 3), (37, 3, 4, 5, 6, 7, 0, 1, 2), (38, 2, 3, 4, 5, 6, 7, 0, 1), (39, 1, 2, 3, 4, 5, 6, 7, 0),
  (40, 0, 1, 2, 3, 4, 5, 6, 7), (41, 7, 0, 1, 2, 3, 4, 5, 6), (42, 6, 7, 0, 1, 2, 3, 4, 5), (43, 5, 6, 7, 0, 1, 2, 3, 4),
  (44, 4, 5, 6, 7, 0, 1, 2, 3), (45, 3, 4, 5, 6, 7, 0, 1, 2), (46, 2, 3, 4, 5, 6, 7, 0, 1), (47, 1, 2, 3, 4, 5, 6, 7, 0),
  (48, 0, 1, 2, 3, 4, 5, 6, 7), (49, 7, 0, 1, 2, 3, 4, 5, 6), (50, 6, 7, 0, 1, 2, 3, 4, 5), (51, 5, 6, 7, 0, 1, 2, 3, 4),
  (52, 4, 5, 6, 7, 0, 1, 2, 3), (53, 3, 4, 5, 6, 7, 0, 1, 2), (54, 2, 3, 4, 5, 6, 7, 0, 1), (55, 1, 2, 3, 4, 5, 6, 7, 0),
  (56, 0, 1, 2, 3, 4, 5, 6, 7), (57, 7, 0, 1, 2, 3, 4, 5, 6), (58, 6, 7, 0, 1, 2, 3, 4, 5), (59, 5, 6, 7, 0, 1, 2, 3, 4),
  (60, 4, 5, 6, 7, 0, 1, 2, 3), (61, 3, 4, 5, 6, 7, 0, 1, 2), (62, 2, 3, 4, 5, 6, 7, 0, 1), (63, 1, 2, 3, 4, 5, 6, 7, 0)]

/-- Initial hash values: `libhmac_sha512_context_prime_square_roots` (libhmac/libhmac_sha512_context.c:47-50). -/
def sha512Iv : List (BitVec 64) := [
  0x6a09e667f3bcc908, 0xbb67ae8584caa73b, 0x3c6ef372fe94f82b, 0xa54ff53a5f1d36f1,
  0x510e527fade682d1, 0x9b05688c2b3e6c1f, 0x1f83d9abfb41bd6b, 0x5be0cd19137e2179]

/-- Round constants: `libhmac_sha512_context_prime_cube_roots` (libhmac/libhmac_sha512_context.c:54-75). -/
def sha512K : List (BitVec 64) := [
  0x428a2f98d728ae22, 0x7137449123ef65cd, 0xb5c0fbcfec4d3b2f, 0xe9b5dba58189dbbc,
  0x3956c25bf348b538, 0x59f111f1b605d019, 0x923f82a4af194f9b, 0xab1c5ed5da6d8118,
  0xd807aa98a3030242, 0x12835b0145706fbe, 0x243185be4ee4b28c, 0x550c7dc3d5ffb4e2,
  0x72be5d74f27b896f, 0x80deb1fe3b1696b1, 0x9bdc06a725c71235, 0xc19bf174cf692694,
  0xe49b69c19ef14ad2, 0xefbe4786384f25e3, 0x0fc19dc68b8cd5b5, 0x240ca1cc77ac9c65,
  0x2de92c6f592b0275, 0x4a7484aa6ea6e483, 0x5cb0a9dcbd41fbd4, 0x76f988da831153b5,
  0x983e5152ee66dfab, 0xa831c66d2db43210, 0xb00327c898fb213f, 0xbf597fc7beef0ee4,
  0xc6e00bf33da88fc2, 0xd5a79147930aa725, 0x06ca6351e003826f, 0x142929670a0e6e70,
  0x27b70a8546d22ffc, 0x2e1b21385c26c926, 0x4d2c6dfc5ac42aed, 0x53380d139d95b3df,
  0x650a73548baf63de, 0x766a0abb3c77b2a8, 0x81c2c92e47edaee6, 0x92722c851482353b,
  0xa2bfe8a14cf10364, 0xa81a664bbc423001, 0xc24b8b70d0f89791, 0xc76c51a30654be30,
  0xd192e819d6ef5218, 0xd69906245565a910, 0xf40e35855771202a, 0x106aa07032bbd1b8,
  0x19a4c116b8d2d0c8, 0x1e376c085141ab53, 0x2748774cdf8eeb99, 0x34b0bcb5e19b48a8,
  0x391c0cb3c5c95a63, 0x4ed8aa4ae3418acb, 0x5b9cca4f7763e373, 0x682e6ff3d6b2b8a3,
  0x748f82ee5defb2fc, 0x78a5636f43172f60, 0x84c87814a1f0ab72, 0x8cc702081a6439ec,
  0x90befffa23631e28, 0xa4506cebde82bde9, 0xbef9a3f7b2c67915, 0xc67178f2e372532b,
  0xca273eceea26619c, 0xd186b8c721c0c207, 0xeada7dd6cde0eb1e, 0xf57d4f7fee6ed178,
  0x06f067aa72176fba, 0x0a637dc5a2c898a6, 0x113f9804bef90dae, 0x1b710b35131c471b,
  0x28db77f523047d84, 0x32caab7b40c72493, 0x3c9ebe0a15c9bebc, 0x431d67c49c100d4c,
  0x4cc5d4becb3e42b6, 0x597f299cfc657e2a, 0x5fcb6fab3ad6faec, 0x6c44198c4a475817]

/-- Index arguments of the unrolled message schedule macro invocations (libhmac/libhmac_sha512_context.c:90-154). -/
def sha512ExtendRows : List Nat := [
  16, 17, 18, 19, 20, 21, 22, 23, 24, 25, 26, 27, 28, 29, 30, 31,
  32, 33, 34, 35, 36, 37, 38, 39, 40, 41, 42, 43, 44, 45, 46, 47,
  48, 49, 50, 51, 52, 53, 54, 55, 56, 57, 58, 59, 60, 61, 62, 63,
  64, 65, 66, 67, 68, 69, 70, 71, 72, 73, 74, 75, 76, 77, 78, 79]

/-- Arguments (value index, hash value indexes 0..7) of the unrolled round macro invocations (libhmac/libhmac_sha512_context.c:178-258). -/
def sha512RoundRows : List (Nat × Nat × Nat × Nat × Nat × Nat × Nat × Nat × Nat) := [
  (0, 0, 1, 2, 3, 4, 5, 6, 7), (1, 7, 0, 1, 2, 3, 4, 5, 6), (2, 6, 7, 0, 1, 2, 3, 4, 5), (3, 5, 6, 7, 0, 1, 2, 3, 4),
  (4, 4, 5, 6, 7, 0, 1, 2, 3), (5, 3, 4, 5, 6, 7, 0, 1, 2), (6, 2, 3, 4, 5, 6, 7, 0, 1), (7, 1, 2, 3, 4, 5, 6, 7, 0),
  (8, 0, 1, 2, 3, 4, 5, 6, 7), (9, 7, 0, 1, 2, 3, 4, 5, 6), (10, 6, 7, 0, 1, 2, 3, 4, 5), (11, 5, 6, 7, 0, 1, 2, 3, 4),
  (12, 4, 5, 6, 7, 0, 1, 2, 3), (13, 3, 4, 5, 6, 7, 0, 1, 2), (14, 2, 3, 4, 5, 6, 7, 0, 1), (15, 1, 2, 3, 4, 5, 6, 7, 0),
  (16, 0, 1, 2, 3, 4, 5, 6, 7), (17, 7, 0, 1, 2, 3, 4, 5, 6), (18, 6, 7, 0, 1, 2, 3, 4, 5), (19, 5, 6, 7, 0, 1, 2, 3, 4),
  (20, 4, 5, 6, 7, 0, 1, 2, 3), (21, 3, 4, 5, 6, 7, 0, 1, 2), (22, 2, 3, 4, 5, 6, 7, 0, 1), (23, 1, 2, 3, 4, 5, 6, 7, 0),
  (24, 0, 1, 2, 3, 4, 5, 6, 7), (25, 7, 0, 1, 2, 3, 4, 5, 6), (26, 6, 7, 0, 1, 2, 3, 4, 5), (27, 5, 6, 7, 0, 1, 2, 3, 4),
  (28, 4, 5, 6, 7, 0, 1, 2, 3), (29, 3, 4, 5, 6, 7, 0, 1, 2), (30, 2, 3, 4, 5, 6, 7, 0, 1), (31, 1, 2, 3, 4, 5, 6, 7, 0),
  (32, 0, 1, 2, 3, 4, 5, 6, 7), (33, 7, 0, 1, 2, 3, 4, 5, 6), (34, 6, 7, 0, 1, 2, 3, 4, 5), (35, 5, 6, 7, 0, 1, 2, 3, 4),
  (36, 4, 5, 6, 7, 0, 1, 2, 3), (37, 3, 4, 5, 6, 7, 0, 1, 2), (38, 2, 3, 4, 5, 6, 7, 0, 1), (39, 1, 2, 3, 4, 5, 6, 7, 0),
  (40, 0, 1, 2, 3, 4, 5, 6, 7), (41, 7, 0, 1, 2, 3, 4, 5, 6), (42, 6, 7, 0, 1, 2, 3, 4, 5), (43, 5, 6, 7, 0, 1, 2, 3, 4),
  (44, 4, 5, 6, 7, 0, 1, 2, 3), (45, 3, 4, 5, 6, 7, 0, 1, 2), (46, 2, 3, 4, 5, 6, 7, 0, 1), (47, 1, 2, 3, 4, 5, 6, 7, 0),
  (48, 0, 1, 2, 3, 4, 5, 6, 7), (49, 7, 0, 1, 2, 3, 4, 5, 6), (50, 6, 7, 0, 1, 2, 3, 4, 5), (51, 5, 6, 7, 0, 1, 2, 3, 4),
  (52, 4, 5, 6, 7, 0, 1, 2, 3), (53, 3, 4, 5, 6, 7, 0, 1, 2), (54, 2, 3, 4, 5, 6, 7, 0, 1), (55, 1, 2, 3, 4, 5, 6, 7, 0),
  (56, 0, 1, 2, 3, 4, 5, 6, 7), (57, 7, 0, 1, 2, 3, 4, 5, 6), (58, 6, 7, 0, 1, 2, 3, 4, 5), (59, 5, 6, 7, 0, 1, 2, 3, 4),
  (60, 4, 5, 6, 7, 0, 1, 2, 3), (61, 3, 4, 5, 6, 7, 0, 1, 2), (62, 2, 3, 4, 5, 6, 7, 0, 1), (63, 1, 2, 3, 4, 5, 6, 7, 0),
  (64, 0, 1, 2, 3, 4, 5, 6, 7), (65, 7, 0, 1, 2, 3, 4, 5, 6), (66, 6, 7, 0, 1, 2, 3, 4, 5), (67, 5, 6, 7, 0, 1, 2, 3, 4),
  (68, 4, 5, 6, 7, 0, 1, 2, 3), (69, 3, 4, 5, 6, 7, 0, 1, 2), (70, 2, 3, 4, 5, 6, 7, 0, 1), (71, 1, 2, 3, 4, 5, 6, 7, 0),
  (72, 0, 1, 2, 3, 4, 5, 6, 7), (73, 7, 0, 1, 2, 3, 4, 5, 6), (74, 6, 7, 0, 1, 2, 3, 4, 5), (75, 5, 6, 7, 0, 1, 2, 3, 4),
  (76, 4, 5, 6, 7, 0, 1, 2, 3), (77, 3, 4, 5, 6, 7, 0, 1, 2), (78, 2, 3, 4, 5, 6, 7, 0, 1), (79, 1, 2, 3, 4, 5, 6, 7, 0)]

/-- Initial hash values: `libhmac_sha1_context_fixed_constants` (libhmac/libhmac_sha1_context.c:47-49). -/
def sha1Iv : List (BitVec 32) := [
  0x67452301, 0xefcdab89, 0x98badcfe, 0x10325476,
  0xc3d2e1f0]

/-- Index arguments of the unrolled message schedule macro invocations (libhmac/libhmac_sha1_context.c:60-124). -/
def sha1ExtendRows : List Nat := [
  16, 17, 18, 19, 20, 21, 22, 23, 24, 25, 26, 27, 28, 29, 30, 31,
  32, 33, 34, 35, 36, 37, 38, 39, 40, 41, 42, 43, 44, 45, 46, 47,
  48, 49, 50, 51, 52, 53, 54, 55, 56, 57, 58, 59, 60, 61, 62, 63,
  64, 65, 66, 67, 68, 69, 70, 71, 72, 73, 74, 75, 76, 77, 78, 79]

/-- Arguments (round macro number, value index, hash value indexes 0..4) of the unrolled round macro invocations (libhmac/libhmac_sha1_context.c:181-264). -/
def sha1RoundRows : List (Nat × Nat × Nat × Nat × Nat × Nat × Nat) := [
  (1, 0, 0, 1, 2, 3, 4), (1, 1, 4, 0, 1, 2, 3), (1, 2, 3, 4, 0, 1, 2), (1, 3, 2, 3, 4, 0, 1), (1, 4, 1, 2, 3, 4, 0),
  (1, 5, 0, 1, 2, 3, 4), (1, 6, 4, 0, 1, 2, 3), (1, 7, 3, 4, 0, 1, 2), (1, 8, 2, 3, 4, 0, 1), (1, 9, 1, 2, 3, 4, 0),
  (1, 10, 0, 1, 2, 3, 4), (1, 11, 4, 0, 1, 2, 3), (1, 12, 3, 4, 0, 1, 2), (1, 13, 2, 3, 4, 0, 1), (1, 14, 1, 2, 3, 4, 0),
  (1, 15, 0, 1, 2, 3, 4), (1, 16, 4, 0, 1, 2, 3), (1, 17, 3, 4, 0, 1, 2), (1, 18, 2, 3, 4, 0, 1), (1, 19, 1, 2, 3, 4, 0),
  (2, 20, 0, 1, 2, 3, 4), (2, 21, 4, 0, 1, 2, 3), (2, 22, 3, 4, 0, 1, 2), (2, 23, 2, 3, 4, 0, 1), (2, 24, 1, 2, 3, 4, 0),
  (2, 25, 0, 1, 2, 3, 4), (2, 26, 4, 0, 1, 2, 3), (2, 27, 3, 4, 0, 1, 2), (2, 28, 2, 3, 4, 0, 1), (2, 29, 1, 2, 3, 4, 0),
  (2, 30, 0, 1, 2, 3, 4), (2, 31, 4, 0, 1, 2, 3), (2, 32, 3, 4, 0, 1, 2), (2, 33, 2, 3, 4, 0, 1), (2, 34, 1, 2, 3, 4, 0),
  (2, 35, 0, 1, 2, 3, 4), (2, 36, 4, 0, 1, 2, 3), (2, 37, 3, 4, 0, 1, 2), (2, 38, 2, 3, 4, 0, 1), (2, 39, 1, 2, 3, 4, 0),
  (3, 40, 0, 1, 2, 3, 4), (3, 41, 4, 0, 1, 2, 3), (3, 42, 3, 4, 0, 1, 2), (3, 43, 2, 3, 4, 0, 1), (3, 44, 1, 2, 3, 4, 0),
  (3, 45, 0, 1, 2, 3, 4), (3, 46, 4, 0, 1, 2, 3), (3, 47, 3, 4, 0, 1, 2), (3, 48, 2, 3, 4, 0, 1), (3, 49, 1, 2, 3, 4, 0),
  (3, 50, 0, 1, 2, 3, 4), (3, 51, 4, 0, 1, 2, 3), (3, 52, 3, 4, 0, 1, 2), (3, 53, 2, 3, 4, 0, 1), (3, 54, 1, 2, 3, 4, 0),
  (3, 55, 0, 1, 2, 3, 4), (3, 56, 4, 0, 1, 2, 3), (3, 57, 3, 4, 0, 1, 2), (3, 58, 2, 3, 4, 0, 1), (3, 59, 1, 2, 3, 4, 0),
  (4, 60, 0, 1, 2, 3, 4), (4, 61, 4, 0, 1, 2, 3), (4, 62, 3, 4, 0, 1, 2), (4, 63, 2, 3, 4, 0, 1), (4, 64, 1, 2, 3, 4, 0),
  (4, 65, 0, 1, 2, 3, 4), (4, 66, 4, 0, 1, 2, 3), (4, 67, 3, 4, 0, 1, 2), (4, 68, 2, 3, 4, 0, 1), (4, 69, 1, 2, 3, 4, 0),
  (4, 70, 0, 1, 2, 3, 4), (4, 71, 4, 0, 1, 2, 3), (4, 72, 3, 4, 0, 1, 2), (4, 73, 2, 3, 4, 0, 1), (4, 74, 1, 2, 3, 4, 0),
  (4, 75, 0, 1, 2, 3, 4), (4, 76, 4, 0, 1, 2, 3), (4, 77, 3, 4, 0, 1, 2), (4, 78, 2, 3, 4, 0, 1), (4, 79, 1, 2, 3, 4, 0)]

/-- Initial hash values: `libhmac_md5_context_fixed_constants` (libhmac/libhmac_md5_context.c:48-50). -/
def md5Iv : List (BitVec 32) := [
  0x67452301, 0xefcdab89, 0x98badcfe, 0x10325476]

/-- Additive constants: `libhmac_md5_context_sines` (libhmac/libhmac_md5_context.c:54-71). -/
def md5Sines : List (BitVec 32) := [
  0xd76aa478, 0xe8c7b756, 0x242070db, 0xc1bdceee,
  0xf57c0faf, 0x4787c62a, 0xa8304613, 0xfd469501,
  0x698098d8, 0x8b44f7af, 0xffff5bb1, 0x895cd7be,
  0x6b901122, 0xfd987193, 0xa679438e, 0x49b40821,
  0xf61e2562, 0xc040b340, 0x265e5a51, 0xe9b6c7aa,
  0xd62f105d, 0x02441453, 0xd8a1e681, 0xe7d3fbc8,
  0x21e1cde6, 0xc33707d6, 0xf4d50d87, 0x455a14ed,
  0xa9e3e905, 0xfcefa3f8, 0x676f02d9, 0x8d2a4c8a,
  0xfffa3942, 0x8771f681, 0x6d9d6122, 0xfde5380c,
  0xa4beea44, 0x4bdecfa9, 0xf6bb4b60, 0xbebfbc70,
  0x289b7ec6, 0xeaa127fa, 0xd4ef3085, 0x04881d05,
  0xd9d4d039, 0xe6db99e5, 0x1fa27cf8, 0xc4ac5665,
  0xf4292244, 0x432aff97, 0xab9423a7, 0xfc93a039,
  0x655b59c3, 0x8f0ccc92, 0xffeff47d, 0x85845dd1,
  0x6fa87e4f, 0xfe2ce6e0, 0xa3014314, 0x4e0811a1,
  0xf7537e82, 0xbd3af235, 0x2ad7d2bb, 0xeb86d391]

/-- Rotation amounts: `libhmac_md5_context_bit_shifts` (libhmac/libhmac_md5_context.c:75-80). -/
def md5Shifts : List (Nat) := [
  7, 12, 17, 22, 7, 12, 17, 22, 7, 12, 17, 22, 7, 12, 17, 22,
  5, 9, 14, 20, 5, 9, 14, 20, 5, 9, 14, 20, 5, 9, 14, 20,
  4, 11, 16, 23, 4, 11, 16, 23, 4, 11, 16, 23, 4, 11, 16, 23,
  6, 10, 15, 21, 6, 10, 15, 21, 6, 10, 15, 21, 6, 10, 15, 21]

/-- Message word indexes: `libhmac_md5_context_values_32bit_index` (libhmac/libhmac_md5_context.c:88-93). -/
def md5Index : List (Nat) := [
  0, 1, 2, 3, 4, 5, 6, 7, 8, 9, 10, 11, 12, 13, 14, 15,
  1, 6, 11, 0, 5, 10, 15, 4, 9, 14, 3, 8, 13, 2, 7, 12,
  5, 8, 11, 14, 1, 4, 7, 10, 13, 0, 3, 6, 9, 12, 15, 2,
  0, 7, 14, 5, 12, 3, 10, 1, 8, 15, 6, 13, 4, 11, 2, 9]

/-- Arguments (round macro number, value index, hash value indexes 0..3, block index) of the unrolled round macro invocations (libhmac/libhmac_md5_context.c:144-211). -/
def md5RoundRows : List (Nat × Nat × Nat × Nat × Nat × Nat × Nat) := [
  (1, 0, 0, 1, 2, 3, 0), (1, 1, 3, 0, 1, 2, 1), (1, 2, 2, 3, 0, 1, 2), (1, 3, 1, 2, 3, 0, 3), (1, 4, 0, 1, 2, 3, 4),
  (1, 5, 3, 0, 1, 2, 5), (1, 6, 2, 3, 0, 1, 6), (1, 7, 1, 2, 3, 0, 7), (1, 8, 0, 1, 2, 3, 8), (1, 9, 3, 0, 1, 2, 9),
  (1, 10, 2, 3, 0, 1, 10), (1, 11, 1, 2, 3, 0, 11), (1, 12, 0, 1, 2, 3, 12), (1, 13, 3, 0, 1, 2, 13), (1, 14, 2, 3, 0, 1, 14),
  (1, 15, 1, 2, 3, 0, 15), (2, 1, 0, 1, 2, 3, 16), (2, 6, 3, 0, 1, 2, 17), (2, 11, 2, 3, 0, 1, 18), (2, 0, 1, 2, 3, 0, 19),
  (2, 5, 0, 1, 2, 3, 20), (2, 10, 3, 0, 1, 2, 21), (2, 15, 2, 3, 0, 1, 22), (2, 4, 1, 2, 3, 0, 23), (2, 9, 0, 1, 2, 3, 24),
  (2, 14, 3, 0, 1, 2, 25), (2, 3, 2, 3, 0, 1, 26), (2, 8, 1, 2, 3, 0, 27), (2, 13, 0, 1, 2, 3, 28), (2, 2, 3, 0, 1, 2, 29),
  (2, 7, 2, 3, 0, 1, 30), (2, 12, 1, 2, 3, 0, 31), (3, 5, 0, 1, 2, 3, 32), (3, 8, 3, 0, 1, 2, 33), (3, 11, 2, 3, 0, 1, 34),
  (3, 14, 1, 2, 3, 0, 35), (3, 1, 0, 1, 2, 3, 36), (3, 4, 3, 0, 1, 2, 37), (3, 7, 2, 3, 0, 1, 38), (3, 10, 1, 2, 3, 0, 39),
  (3, 13, 0, 1, 2, 3, 40), (3, 0, 3, 0, 1, 2, 41), (3, 3, 2, 3, 0, 1, 42), (3, 6, 1, 2, 3, 0, 43), (3, 9, 0, 1, 2, 3, 44),
  (3, 12, 3, 0, 1, 2, 45), (3, 15, 2, 3, 0, 1, 46), (3, 2, 1, 2, 3, 0, 47), (4, 0, 0, 1, 2, 3, 48), (4, 7, 3, 0, 1, 2, 49),
  (4, 14, 2, 3, 0, 1, 50), (4, 5, 1, 2, 3, 0, 51), (4, 12, 0, 1, 2, 3, 52), (4, 3, 3, 0, 1, 2, 53), (4, 10, 2, 3, 0, 1, 54),
  (4, 1, 1, 2, 3, 0, 55), (4, 8, 0, 1, 2, 3, 56), (4, 15, 3, 0, 1, 2, 57), (4, 6, 2, 3, 0, 1, 58), (4, 13, 1, 2, 3, 0, 59),
  (4, 4, 0, 1, 2, 3, 60), (4, 11, 3, 0, 1, 2, 61), (4, 2, 2, 3, 0, 1, 62), (4, 9, 1, 2, 3, 0, 63)]

/-- Index pairs (context word, working word) of the unrolled additions to the context (libhmac/libhmac_md5_context.c:301-304). -/
def md5AddRows : List (Nat × Nat) := [(0, 0), (1, 1), (2, 2), (3, 3)]

/-- Pairs (hash offset, context word) of the unrolled output stores (libhmac/libhmac_md5_context.c:1254-1268). -/
def md5StoreRows : List (Nat × Nat) := [(0, 0), (4, 1), (8, 2), (12, 3)]

/-- Index pairs (context word, working word) of the unrolled additions to the context (libhmac/libhmac_sha1_context.c:358-362). -/
def sha1AddRows : List (Nat × Nat) := [(0, 0), (1, 1), (2, 2), (3, 3), (4, 4)]

/-- Pairs (hash offset, context word) of the unrolled output stores (libhmac/libhmac_sha1_context.c:1338-1356). -/
def sha1StoreRows : List (Nat × Nat) := [(0, 0), (4, 1), (8, 2), (12, 3), (16, 4)]

/-- Index pairs (context word, working word) of the unrolled additions to the context (libhmac/libhmac_sha224_context.c:325-332). -/
def sha224AddRows : List (Nat × Nat) := [(0, 0), (1, 1), (2, 2), (3, 3), (4, 4), (5, 5), (6, 6), (7, 7)]

/-- Pairs (hash offset, context word) of the unrolled output stores (libhmac/libhmac_sha224_context.c:1298-1324). -/
def sha224StoreRows : List (Nat × Nat) := [(0, 0), (4, 1), (8, 2), (12, 3), (16, 4), (20, 5), (24, 6)]

/-- Index pairs (context word, working word) of the unrolled additions to the context (libhmac/libhmac_sha256_context.c:325-332). -/
def sha256AddRows : List (Nat × Nat) := [(0, 0), (1, 1), (2, 2), (3, 3), (4, 4), (5, 5), (6, 6), (7, 7)]

/-- Pairs (hash offset, context word) of the unrolled output stores (libhmac/libhmac_sha256_context.c:1297-1327). -/
def sha256StoreRows : List (Nat × Nat) := [(0, 0), (4, 1), (8, 2), (12, 3), (16, 4), (20, 5), (24, 6), (28, 7)]

/-- Index pairs (context word, working word) of the unrolled additions to the context (libhmac/libhmac_sha512_context.c:361-368). -/
def sha512AddRows : List (Nat × Nat) := [(0, 0), (1, 1), (2, 2), (3, 3), (4, 4), (5, 5), (6, 6), (7, 7)]

/-- Pairs (hash offset, context word) of the unrolled output stores (libhmac/libhmac_sha512_context.c:1333-1363). -/
def sha512StoreRows : List (Nat × Nat) := [(0, 0), (8, 1), (16, 2), (24, 3), (32, 4), (40, 5), (48, 6), (56, 7)]

/-- Index arguments of the unrolled load macro `libhmac_byte_stream_copy_to_16x_uint32_big_endian` (libhmac/libhmac_byte_stream.h:50-66). -/
def load16x32beRows : List Nat := [0, 1, 2, 3, 4, 5, 6, 7, 8, 9, 10, 11, 12, 13, 14, 15]

/-- Index arguments of the unrolled load macro `libhmac_byte_stream_copy_to_16x_uint32_little_endian` (libhmac/libhmac_byte_stream.h:68-84). -/
def load16x32leRows : List Nat := [0, 1, 2, 3, 4, 5, 6, 7, 8, 9, 10, 11, 12, 13, 14, 15]

/-- Index arguments of the unrolled load macro `libhmac_byte_stream_copy_to_16x_uint64_big_endian` (libhmac/libhmac_byte_stream.h:120-136). -/
def load16x64beRows : List Nat := [0, 1, 2, 3, 4, 5, 6, 7, 8, 9, 10, 11, 12, 13, 14, 15]

/-- Index arguments of the unrolled load macro `libhmac_byte_stream_copy_to_16x_uint64_little_endian` (libhmac/libhmac_byte_stream.h:138-154). -/
def load16x64leRows : List Nat := [0, 1, 2, 3, 4, 5, 6, 7, 8, 9, 10, 11, 12, 13, 14, 15]

/-- Statements of the macro `byte_stream_copy_to_uint16_big_endian` (common/byte_stream.h:54-57). -/
def ld16be : List LoadStep := [.set 0, .shl8, .or 1]

/-- Statements of the macro `byte_stream_copy_to_uint16_little_endian` (common/byte_stream.h:59-62). -/
def ld16le : List LoadStep := [.set 1, .shl8, .or 0]

/-- Statements of the macro `byte_stream_copy_to_uint24_big_endian` (common/byte_stream.h:64-69). -/
def ld24be : List LoadStep := [.set 0, .shl8, .or 1, .shl8, .or 2]

/-- Statements of the macro `byte_stream_copy_to_uint24_little_endian` (common/byte_stream.h:71-76). -/
def ld24le : List LoadStep := [.set 2, .shl8, .or 1, .shl8, .or 0]

/-- Statements of the macro `byte_stream_copy_to_uint32_big_endian` (common/byte_stream.h:78-85). -/
def ld32be : List LoadStep := [.set 0, .shl8, .or 1, .shl8, .or 2, .shl8, .or 3]

/-- Statements of the macro `byte_stream_copy_to_uint32_little_endian` (common/byte_stream.h:87-94). -/
def ld32le : List LoadStep := [.set 3, .shl8, .or 2, .shl8, .or 1, .shl8, .or 0]

/-- Statements of the macro `byte_stream_copy_to_uint48_big_endian` (common/byte_stream.h:96-107). -/
def ld48be : List LoadStep := [.set 0, .shl8, .or 1, .shl8, .or 2, .shl8, .or 3, .shl8, .or 4, .shl8, .or 5]

/-- Statements of the macro `byte_stream_copy_to_uint48_little_endian` (common/byte_stream.h:109-120). -/
def ld48le : List LoadStep := [.or 5, .shl8, .or 4, .shl8, .or 3, .shl8, .or 2, .shl8, .or 1, .shl8, .or 0]

/-- Statements of the macro `byte_stream_copy_to_uint64_big_endian` (common/byte_stream.h:122-137). -/
def ld64be : List LoadStep := [.set 0, .shl8, .or 1, .shl8, .or 2, .shl8, .or 3, .shl8, .or 4, .shl8, .or 5, .shl8, .or 6, .shl8, .or 7]

/-- Statements of the macro `byte_stream_copy_to_uint64_little_endian` (common/byte_stream.h:139-154). -/
def ld64le : List LoadStep := [.set 7, .shl8, .or 6, .shl8, .or 5, .shl8, .or 4, .shl8, .or 3, .shl8, .or 2, .shl8, .or 1, .shl8, .or 0]

/-- Statements of the macro `libhmac_byte_stream_copy_to_1x_uint32_big_endian` (libhmac/libhmac_byte_stream.h:32-39); byte indexes are relative to `values_index << 2`. -/
def ld1x32be : List LoadStep := [.set 0, .shl8, .or 1, .shl8, .or 2, .shl8, .or 3]

/-- Statements of the macro `libhmac_byte_stream_copy_to_1x_uint32_little_endian` (libhmac/libhmac_byte_stream.h:41-48); byte indexes are relative to `values_index << 2`. -/
def ld1x32le : List LoadStep := [.set 3, .shl8, .or 2, .shl8, .or 1, .shl8, .or 0]

/-- Statements of the macro `libhmac_byte_stream_copy_to_1x_uint64_big_endian` (libhmac/libhmac_byte_stream.h:86-101); byte indexes are relative to `values_index << 3`. -/
def ld1x64be : List LoadStep := [.set 0, .shl8, .or 1, .shl8, .or 2, .shl8, .or 3, .shl8, .or 4, .shl8, .or 5, .shl8, .or 6, .shl8, .or 7]

/-- Statements of the macro `libhmac_byte_stream_copy_to_1x_uint64_little_endian` (libhmac/libhmac_byte_stream.h:103-118); byte indexes are relative to `values_index << 3`. -/
def ld1x64le : List LoadStep := [.set 7, .shl8, .or 6, .shl8, .or 5, .shl8, .or 4, .shl8, .set 3, .shl8, .or 2, .shl8, .or 1, .shl8, .or 0]

/-- Statements of the macro `byte_stream_copy_from_uint16_big_endian` (common/byte_stream.h:156-158): pairs (byte index, right shift). -/
def st16be : List (Nat × Nat) := [(0, 8), (1, 0)]

/-- Statements of the macro `byte_stream_copy_from_uint16_little_endian` (common/byte_stream.h:160-162): pairs (byte index, right shift). -/
def st16le : List (Nat × Nat) := [(1, 8), (0, 0)]

/-- Statements of the macro `byte_stream_copy_from_uint24_big_endian` (common/byte_stream.h:164-167): pairs (byte index, right shift). -/
def st24be : List (Nat × Nat) := [(0, 16), (1, 8), (2, 0)]

/-- Statements of the macro `byte_stream_copy_from_uint24_little_endian` (common/byte_stream.h:169-172): pairs (byte index, right shift). -/
def st24le : List (Nat × Nat) := [(2, 16), (1, 8), (0, 0)]

/-- Statements of the macro `byte_stream_copy_from_uint32_big_endian` (common/byte_stream.h:174-178): pairs (byte index, right shift). -/
def st32be : List (Nat × Nat) := [(0, 24), (1, 16), (2, 8), (3, 0)]

/-- Statements of the macro `byte_stream_copy_from_uint32_little_endian` (common/byte_stream.h:180-184): pairs (byte index, right shift). -/
def st32le : List (Nat × Nat) := [(3, 24), (2, 16), (1, 8), (0, 0)]

/-- Statements of the macro `byte_stream_copy_from_uint48_big_endian` (common/byte_stream.h:186-192): pairs (byte index, right shift). -/
def st48be : List (Nat × Nat) := [(0, 40), (1, 32), (2, 24), (3, 16), (4, 8), (5, 0)]

/-- Statements of the macro `byte_stream_copy_from_uint48_little_endian` (common/byte_stream.h:194-200): pairs (byte index, right shift). -/
def st48le : List (Nat × Nat) := [(5, 40), (4, 32), (3, 24), (2, 16), (1, 8), (0, 0)]

/-- Statements of the macro `byte_stream_copy_from_uint64_big_endian` (common/byte_stream.h:202-210): pairs (byte index, right shift). -/
def st64be : List (Nat × Nat) := [(0, 56), (1, 48), (2, 40), (3, 32), (4, 24), (5, 16), (6, 8), (7, 0)]

/-- Statements of the macro `byte_stream_copy_from_uint64_little_endian` (common/byte_stream.h:212-220): pairs (byte index, right shift). -/
def st64le : List (Nat × Nat) := [(7, 56), (6, 48), (5, 40), (4, 32), (3, 24), (2, 16), (1, 8), (0, 0)]

end Model
