import Verif.Model.Basic
/-!
# SHA-256

FIPS 180-4: functions (section 4.1.2), constants (4.2.2), padding (5.1.1), initial value (5.3.3), computation (6.2).
-/

namespace Mammon.Spec.SHA256

/-- A 32-bit word. -/
abbrev Word := BitVec 32

/-- `Ch`. -/
def ch (x y z : Word) : Word := (x &&& y) ^^^ (~~~x &&& z)
/-- `Maj`. -/
def maj (x y z : Word) : Word := (x &&& y) ^^^ (x &&& z) ^^^ (y &&& z)
/-- The upper case sigma 0. -/
def bsig0 (x : Word) : Word := x.rotateRight 2 ^^^ x.rotateRight 13 ^^^ x.rotateRight 22
/-- The upper case sigma 1. -/
def bsig1 (x : Word) : Word := x.rotateRight 6 ^^^ x.rotateRight 11 ^^^ x.rotateRight 25
/-- The lower case sigma 0. -/
def ssig0 (x : Word) : Word := x.rotateRight 7 ^^^ x.rotateRight 18 ^^^ (x >>> 3)
/-- The lower case sigma 1. -/
def ssig1 (x : Word) : Word := x.rotateRight 17 ^^^ x.rotateRight 19 ^^^ (x >>> 10)

/-- The 64 round constants. -/
def kList : List Word :=
  [0x428a2f98, 0x71374491, 0xb5c0fbcf, 0xe9b5dba5, 0x3956c25b, 0x59f111f1, 0x923f82a4, 0xab1c5ed5,
   0xd807aa98, 0x12835b01, 0x243185be, 0x550c7dc3, 0x72be5d74, 0x80deb1fe, 0x9bdc06a7, 0xc19bf174,
   0xe49b69c1, 0xefbe4786, 0x0fc19dc6, 0x240ca1cc, 0x2de92c6f, 0x4a7484aa, 0x5cb0a9dc, 0x76f988da,
   0x983e5152, 0xa831c66d, 0xb00327c8, 0xbf597fc7, 0xc6e00bf3, 0xd5a79147, 0x06ca6351, 0x14292967,
   0x27b70a85, 0x2e1b2138, 0x4d2c6dfc, 0x53380d13, 0x650a7354, 0x766a0abb, 0x81c2c92e, 0x92722c85,
   0xa2bfe8a1, 0xa81a664b, 0xc24b8b70, 0xc76c51a3, 0xd192e819, 0xd6990624, 0xf40e3585, 0x106aa070,
   0x19a4c116, 0x1e376c08, 0x2748774c, 0x34b0bcb5, 0x391c0cb3, 0x4ed8aa4a, 0x5b9cca4f, 0x682e6ff3,
   0x748f82ee, 0x78a5636f, 0x84c87814, 0x8cc70208, 0x90befffa, 0xa4506ceb, 0xbef9a3f7, 0xc67178f2]

/-- Round constant number `t`. -/
def K (t : Nat) : Word := kList.getD t 0

/-- The eight working variables, also the eight words of a hash value. -/
@[ext] structure HV where
  a : Word
  b : Word
  c : Word
  d : Word
  e : Word
  f : Word
  g : Word
  h : Word
  deriving DecidableEq

/-- The initial hash value. -/
def H0 : HV :=
  ⟨0x6a09e667, 0xbb67ae85, 0x3c6ef372, 0xa54ff53a, 0x510e527f, 0x9b05688c, 0x1f83d9ab, 0x5be0cd19⟩

/-- The message schedule of the block whose words are `m 0, ..., m 15`. -/
def W (m : Nat → Word) (t : Nat) : Word :=
  if t < 16 then m t else ssig1 (W m (t - 2)) + W m (t - 7) + ssig0 (W m (t - 15)) + W m (t - 16)

/-- One round with constant `k` and schedule word `w`. -/
def round (k w : Word) (s : HV) : HV :=
  let t1 := s.h + bsig1 s.e + ch s.e s.f s.g + k + w
  let t2 := bsig0 s.a + maj s.a s.b s.c
  ⟨t1 + t2, s.a, s.b, s.c, s.d + t1, s.e, s.f, s.g⟩

/-- The first `n` rounds on the block `m`. -/
def rounds (m : Nat → Word) : Nat → HV → HV
  | 0, s => s
  | n + 1, s => round (K n) (W m n) (rounds m n s)

/-- Word-wise addition modulo 2^32. -/
def HV.add (x y : HV) : HV :=
  ⟨x.a + y.a, x.b + y.b, x.c + y.c, x.d + y.d, x.e + y.e, x.f + y.f, x.g + y.g, x.h + y.h⟩

/-- The intermediate hash value after the block `m`. -/
def compress (s : HV) (m : Nat → Word) : HV := (rounds m 64 s).add s

/-- The `k` bytes of a number, most significant first. -/
def beBytes (k n : Nat) : List Byte := (List.range k).map fun i => BitVec.ofNat 8 (n / 256 ^ (k - 1 - i))

/-- Padding: a one bit, zero bits up to 448 modulo 512, the length in bits as a 64-bit number. -/
def pad (msg : List Byte) : List Byte :=
  msg ++ [0x80#8] ++ List.replicate ((119 - msg.length % 64) % 64) 0#8 ++ beBytes 8 (8 * msg.length)

/-- The word whose four bytes, most significant first, are at position `i`. -/
def wordAt (bs : List Byte) (i : Nat) : Word :=
  bs.getD i 0 ++ bs.getD (i + 1) 0 ++ bs.getD (i + 2) 0 ++ bs.getD (i + 3) 0

/-- The bytes of a word, most significant first. -/
def wordBytes (w : Word) : List Byte := beBytes 4 w.toNat

/-- The bytes of a hash value. -/
def HV.bytes (x : HV) : List Byte :=
  wordBytes x.a ++ wordBytes x.b ++ wordBytes x.c ++ wordBytes x.d ++ wordBytes x.e ++ wordBytes x.f ++ wordBytes x.g ++ wordBytes x.h

/-- The hash value after the first `n` blocks of the padded message. -/
def hashBlocks (padded : List Byte) : Nat → HV
  | 0 => H0
  | n + 1 => compress (hashBlocks padded n) fun t => wordAt padded (64 * n + 4 * t)

/-- SHA-256. -/
def sha256 (msg : List Byte) : List Byte := (hashBlocks (pad msg) ((pad msg).length / 64)).bytes

/-- The number `n` is the first 32 bits of the fractional part of the cube root of `p`. -/
def isCubeRootFraction (p n : Nat) : Prop := ∃ q, q < 2 ^ 32 ∧ (2 ^ 32 * q + n) ^ 3 ≤ p * 2 ^ 96 ∧ p * 2 ^ 96 < (2 ^ 32 * q + n + 1) ^ 3 ∧ n < 2 ^ 32

/-- The number `n` is the first 32 bits of the fractional part of the square root of `p`. -/
def isSquareRootFraction (p n : Nat) : Prop := ∃ q, q < 2 ^ 32 ∧ (2 ^ 32 * q + n) ^ 2 ≤ p * 2 ^ 64 ∧ p * 2 ^ 64 < (2 ^ 32 * q + n + 1) ^ 2 ∧ n < 2 ^ 32

/-- The first 64 prime numbers. -/
def primes : List Nat :=
  [2, 3, 5, 7, 11, 13, 17, 19, 23, 29, 31, 37, 41, 43, 47, 53, 59, 61, 67, 71, 73, 79, 83, 89, 97, 101, 103, 107, 109, 113, 127, 131,
   137, 139, 149, 151, 157, 163, 167, 173, 179, 181, 191, 193, 197, 199, 211, 223, 227, 229, 233, 239, 241, 251, 257, 263, 269, 271,
   277, 281, 283, 293, 307, 311]

end Mammon.Spec.SHA256
