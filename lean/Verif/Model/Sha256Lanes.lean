import Verif.Model.X86
/-!
# `sha256_4_avx` (ssz/sha256_avx.asm) and `sha256_8_avx2` (ssz/sha256_avx2.asm)

The round macros of the two files have the same text with different register names and vector sizes, so they are modelled once, with
the names as arguments. The symbols that `ROTATE_ARGS` redefines are arguments too.
-/

namespace Mammon.X86.Lane

/-- The registers that the symbols `a`..`h` stand for (ssz/sha256_avx.asm:87-94, ssz/sha256_avx2.asm:408-415). -/
structure Args where
  a : X
  b : X
  c : X
  d : X
  e : X
  f : X
  g : X
  h : X

/-- The initial meaning of `a`..`h` (ssz/sha256_avx.asm:87-94, ssz/sha256_avx2.asm:408-415). -/
def args : Args := ⟨.x0, .x1, .x2, .x3, .x4, .x5, .x6, .x7⟩

/-- `ROTATE_ARGS` (ssz/sha256_avx.asm:162-172, ssz/sha256_avx2.asm:468-478). -/
def Args.rot (v : Args) : Args := ⟨v.h, v.a, v.b, v.c, v.d, v.e, v.f, v.g⟩

/-- The other symbols the round macros use: vector width, `a0`, `a1`, `a2`, `TMP` and `ROUND` (ssz/sha256_avx.asm:96-98,
ssz/sha256_avx2.asm:419-421). -/
structure Cfg where
  w : Width
  a0 : X
  a1 : X
  a2 : X
  tmp : X
  round : R

/-- The symbols in ssz/sha256_avx.asm:80-108. -/
def cfg4 : Cfg := ⟨.xmm, .x8, .x9, .x10, .x15, .rbx⟩
/-- The symbols in ssz/sha256_avx2.asm:378-422. -/
def cfg8 : Cfg := ⟨.ymm, .x12, .x13, .x14, .x15, .rax⟩

/-- `SZ4`, `SZ8`: the size of a vector register in bytes (ssz/sha256_avx.asm:112, ssz/sha256_avx2.asm:437). -/
def Cfg.sz (k : Cfg) : Nat := k.w.lanes * 4

/-- `OUTPUT_PTR` (ssz/sha256_avx.asm:74, ssz/sha256_avx2.asm:371). -/
abbrev OUTPUT_PTR : R := .rdi
/-- `DATA_PTR` (ssz/sha256_avx.asm:75, ssz/sha256_avx2.asm:372). -/
abbrev DATA_PTR : R := .rsi
/-- `NUM_BLKS` (ssz/sha256_avx.asm:76, ssz/sha256_avx2.asm:373). -/
abbrev NUM_BLKS : R := .rdx
/-- `TBL` (ssz/sha256_avx.asm:77, ssz/sha256_avx2.asm:374). -/
abbrev TBL : R := .rcx

/-- `PRORD` (ssz/sha256_avx.asm:175-182,198-200, ssz/sha256_avx2.asm:481-488,504-506). -/
def prord (k : Cfg) (reg : X) (n : Nat) : List Instr :=
  [.vshift .pslld k.w k.tmp reg (32 - n), .vshift .psrld k.w reg reg n, .vop .por k.w reg reg k.tmp]

/-- `PRORD_nd` (ssz/sha256_avx.asm:186-195,203-205, ssz/sha256_avx2.asm:492-501,509-511). -/
def prordNd (k : Cfg) (reg src : X) (n : Nat) : List Instr :=
  [.vshift .pslld k.w k.tmp src (32 - n), .vshift .psrld k.w reg src n, .vop .por k.w reg reg k.tmp]

open Instr in
/-- The common part of the round macros before the use of `W + K` (ssz/sha256_avx.asm:211-217,274-280,
ssz/sha256_avx2.asm:517-523,581-587). -/
def roundA (k : Cfg) (v : Args) : List Instr :=
  prordNd k k.a0 v.e (11 - 6) ++
  ([vop .pxor k.w k.a2 v.f v.g, vop .pand k.w k.a2 k.a2 v.e, vop .pxor k.w k.a2 k.a2 v.g] ++
  prordNd k k.a1 v.e 25)

open Instr in
/-- The common part of the round macros after `T1` has been set to `W + K` (ssz/sha256_avx.asm:220-240,282-302,
ssz/sha256_avx2.asm:526-546,589-609). -/
def roundB (k : Cfg) (v : Args) (t1 : X) : List Instr :=
  vop .pxor k.w k.a0 k.a0 v.e :: (prord k k.a0 6 ++
  (vop .paddd k.w v.h v.h k.a2 :: (prordNd k k.a2 v.a (13 - 2) ++
  ([vop .paddd k.w v.h v.h t1, vop .pxor k.w k.a0 k.a0 k.a1] ++ (prordNd k k.a1 v.a 22 ++
  ([vop .pxor k.w t1 v.a v.c, addImm k.round k.sz, vop .pand k.w t1 t1 v.b, vop .paddd k.w v.h v.h k.a0, vop .paddd k.w v.d v.d v.h,
    vop .pxor k.w k.a2 k.a2 v.a] ++ (prord k k.a2 2 ++
  [vop .pxor k.w k.a2 k.a2 k.a1, vop .pand k.w k.a1 v.a v.c, vop .por k.w k.a1 k.a1 t1, vop .paddd k.w v.h v.h k.a1,
   vop .paddd k.w v.h v.h k.a2])))))))

/-- `ROUND_00_15` without the `ROTATE_ARGS` at the end (ssz/sha256_avx.asm:208-243, ssz/sha256_avx2.asm:514-549). -/
def round0015 (k : Cfg) (v : Args) (t1 : X) (i : Nat) : List Instr :=
  roundA k v ++ (.vstore .dqa k.w (.reg .rsp (k.sz * (i % 16))) t1 :: .vopLoad .paddd k.w t1 t1 (.idx TBL k.round 0) :: roundB k v t1)

open Instr in
/-- The message schedule part of `ROUND_16_XX` (ssz/sha256_avx.asm:250-266, ssz/sha256_avx2.asm:556-572). -/
def schedule (k : Cfg) (t1 : X) (i : Nat) : List Instr :=
  [vload .dqa k.w t1 (.reg .rsp (k.sz * ((i - 15) % 16))), vload .dqa k.w k.a1 (.reg .rsp (k.sz * ((i - 2) % 16))),
   vmov k.w k.a0 t1] ++ (prord k t1 (18 - 7) ++ (vmov k.w k.a2 k.a1 :: (prord k k.a1 (19 - 17) ++
  (vop .pxor k.w t1 t1 k.a0 :: (prord k t1 7 ++ (vop .pxor k.w k.a1 k.a1 k.a2 :: (prord k k.a1 17 ++
  [vshift .psrld k.w k.a0 k.a0 3, vop .pxor k.w t1 t1 k.a0, vshift .psrld k.w k.a2 k.a2 10, vop .pxor k.w k.a1 k.a1 k.a2,
   vopLoad .paddd k.w t1 t1 (.reg .rsp (k.sz * ((i - 16) % 16))), vopLoad .paddd k.w k.a1 k.a1 (.reg .rsp (k.sz * ((i - 7) % 16))),
   vop .paddd k.w t1 t1 k.a1])))))))

/-- `ROUND_16_XX` (ssz/sha256_avx.asm:247-269, ssz/sha256_avx2.asm:553-576). -/
def round16xx (k : Cfg) (v : Args) (t1 : X) (i : Nat) : List Instr := schedule k t1 i ++ round0015 k v t1 i

/-- `PADDING_ROUND_00_15` without the `ROTATE_ARGS` at the end (ssz/sha256_avx.asm:272-305, ssz/sha256_avx2.asm:579-612). -/
def paddingRound (k : Cfg) (v : Args) (t1 : X) : List Instr :=
  roundA k v ++ (.vload .dqa k.w t1 (.idx TBL k.round 0) :: roundB k v t1)

/-- `%rep n` with `ROUND_16_XX T1, i` and `%assign i (i+1)` (ssz/sha256_avx.asm:511-514, ssz/sha256_avx2.asm:698-701). -/
def rounds16xx (k : Cfg) (t1 : X) : (n : Nat) → (v : Args) → (i : Nat) → List Instr
  | 0, _, _ => []
  | n + 1, v, i => round16xx k v t1 i ++ rounds16xx k t1 n v.rot (i + 1)

/-- `%rep n` with `PADDING_ROUND_00_15 T1` (ssz/sha256_avx.asm:549-551, ssz/sha256_avx2.asm:736-738). -/
def paddingRounds (k : Cfg) (t1 : X) : (n : Nat) → (v : Args) → List Instr
  | 0, _ => []
  | n + 1, v => paddingRound k v t1 ++ paddingRounds k t1 n v.rot

open Instr in
/-- Loading the initial hash value from `[TBL]` (ssz/sha256_avx.asm:476-483, ssz/sha256_avx2.asm:636-643). -/
def loadDigest (k : Cfg) (v : Args) : List Instr :=
  [vload .dqa k.w v.a (.reg TBL (0 * k.sz)), vload .dqa k.w v.b (.reg TBL (1 * k.sz)), vload .dqa k.w v.c (.reg TBL (2 * k.sz)),
   vload .dqa k.w v.d (.reg TBL (3 * k.sz)), vload .dqa k.w v.e (.reg TBL (4 * k.sz)), vload .dqa k.w v.f (.reg TBL (5 * k.sz)),
   vload .dqa k.w v.g (.reg TBL (6 * k.sz)), vload .dqa k.w v.h (.reg TBL (7 * k.sz))]

open Instr in
/-- Adding a hash value in memory (ssz/sha256_avx.asm:521-528,553-560, ssz/sha256_avx2.asm:708-715,740-747). -/
def addDigest (k : Cfg) (v : Args) (b : R) (o : Nat) : List Instr :=
  [vopLoad .paddd k.w v.a v.a (.reg b (o + 0 * k.sz)), vopLoad .paddd k.w v.b v.b (.reg b (o + 1 * k.sz)),
   vopLoad .paddd k.w v.c v.c (.reg b (o + 2 * k.sz)), vopLoad .paddd k.w v.d v.d (.reg b (o + 3 * k.sz)),
   vopLoad .paddd k.w v.e v.e (.reg b (o + 4 * k.sz)), vopLoad .paddd k.w v.f v.f (.reg b (o + 5 * k.sz)),
   vopLoad .paddd k.w v.g v.g (.reg b (o + 6 * k.sz)), vopLoad .paddd k.w v.h v.h (.reg b (o + 7 * k.sz))]

open Instr in
/-- Saving the hash value on the stack (ssz/sha256_avx.asm:534-541, ssz/sha256_avx2.asm:720-727). -/
def saveDigest (k : Cfg) (v : Args) (o : Nat) : List Instr :=
  [vstore .dqa k.w (.reg .rsp (o + 0 * k.sz)) v.a, vstore .dqa k.w (.reg .rsp (o + 1 * k.sz)) v.b,
   vstore .dqa k.w (.reg .rsp (o + 2 * k.sz)) v.c, vstore .dqa k.w (.reg .rsp (o + 3 * k.sz)) v.d,
   vstore .dqa k.w (.reg .rsp (o + 4 * k.sz)) v.e, vstore .dqa k.w (.reg .rsp (o + 5 * k.sz)) v.f,
   vstore .dqa k.w (.reg .rsp (o + 6 * k.sz)) v.g, vstore .dqa k.w (.reg .rsp (o + 7 * k.sz)) v.h]

end Mammon.X86.Lane

namespace Mammon.X86.Four
open Lane

/-- The constants of `K256_4` (ssz/sha256_avx.asm:313-377). -/
def k256 : List (BitVec 32) :=
  [0x428a2f98, 0x71374491, 0xb5c0fbcf, 0xe9b5dba5, 0x3956c25b, 0x59f111f1, 0x923f82a4, 0xab1c5ed5,
   0xd807aa98, 0x12835b01, 0x243185be, 0x550c7dc3, 0x72be5d74, 0x80deb1fe, 0x9bdc06a7, 0xc19bf174,
   0xe49b69c1, 0xefbe4786, 0x0fc19dc6, 0x240ca1cc, 0x2de92c6f, 0x4a7484aa, 0x5cb0a9dc, 0x76f988da,
   0x983e5152, 0xa831c66d, 0xb00327c8, 0xbf597fc7, 0xc6e00bf3, 0xd5a79147, 0x06ca6351, 0x14292967,
   0x27b70a85, 0x2e1b2138, 0x4d2c6dfc, 0x53380d13, 0x650a7354, 0x766a0abb, 0x81c2c92e, 0x92722c85,
   0xa2bfe8a1, 0xa81a664b, 0xc24b8b70, 0xc76c51a3, 0xd192e819, 0xd6990624, 0xf40e3585, 0x106aa070,
   0x19a4c116, 0x1e376c08, 0x2748774c, 0x34b0bcb5, 0x391c0cb3, 0x4ed8aa4a, 0x5b9cca4f, 0x682e6ff3,
   0x748f82ee, 0x78a5636f, 0x84c87814, 0x8cc70208, 0x90befffa, 0xa4506ceb, 0xbef9a3f7, 0xc67178f2]

/-- The constants of `PADDING_4` (ssz/sha256_avx.asm:379-443). -/
def padding : List (BitVec 32) :=
  [0xc28a2f98, 0x71374491, 0xb5c0fbcf, 0xe9b5dba5, 0x3956c25b, 0x59f111f1, 0x923f82a4, 0xab1c5ed5,
   0xd807aa98, 0x12835b01, 0x243185be, 0x550c7dc3, 0x72be5d74, 0x80deb1fe, 0x9bdc06a7, 0xc19bf374,
   0x649b69c1, 0xf0fe4786, 0x0fe1edc6, 0x240cf254, 0x4fe9346f, 0x6cc984be, 0x61b9411e, 0x16f988fa,
   0xf2c65152, 0xa88e5a6d, 0xb019fc65, 0xb9d99ec7, 0x9a1231c3, 0xe70eeaa0, 0xfdb1232b, 0xc7353eb0,
   0x3069bad5, 0xcb976d5f, 0x5a0f118f, 0xdc1eeefd, 0x0a35b689, 0xde0b7a04, 0x58f4ca9d, 0xe15d5b16,
   0x007f3e86, 0x37088980, 0xa507ea32, 0x6fab9537, 0x17406110, 0x0d8cd6f1, 0xcdaa3b6d, 0xc0bbbe37,
   0x83613bda, 0xdb48a363, 0x0b02e931, 0x6fd15ca7, 0x521afaca, 0x31338431, 0x6ed41a95, 0x6d437890,
   0xc39c91f2, 0x9eccabbd, 0xb5c9a0e6, 0x532fb63c, 0xd2c741c6, 0x07237ea3, 0xa4954b68, 0x4c191d76]

/-- The constants of `DIGEST_4` (ssz/sha256_avx.asm:445-453). -/
def digest : List (BitVec 32) :=
  [0x6a09e667, 0xbb67ae85, 0x3c6ef372, 0xa54ff53a, 0x510e527f, 0x9b05688c, 0x1f83d9ab, 0x5be0cd19]

/-- The section `.data` in 32-bit words (ssz/sha256_avx.asm:313-456): each constant of `K256_4`, `PADDING_4` and `DIGEST_4` four times, then
`PSHUFFLE_BYTE_FLIP_MASK`. -/
def data : List (BitVec 32) :=
  (k256 ++ padding ++ digest).flatMap (List.replicate 4) ++ [0x00010203, 0x04050607, 0x08090a0b, 0x0c0d0e0f]

/-- Offset of `K256_4` (ssz/sha256_avx.asm:313). -/
abbrev K256_4 : Nat := 0
/-- Offset of `PADDING_4` (ssz/sha256_avx.asm:379). -/
abbrev PADDING_4 : Nat := 1024
/-- Offset of `DIGEST_4` (ssz/sha256_avx.asm:445). -/
abbrev DIGEST_4 : Nat := 2048
/-- Offset of `PSHUFFLE_BYTE_FLIP_MASK` (ssz/sha256_avx.asm:455). -/
abbrev FLIP_MASK : Nat := 2176
/-- Offset `_DIGEST` in the structure `STACK` (ssz/sha256_avx.asm:118); `_DATA` is 0. -/
abbrev _DIGEST : Nat := 256
/-- Offset `_RBX` in the structure `STACK` (ssz/sha256_avx.asm:119). -/
abbrev _RBX : Nat := 384
/-- `STACK_size` (ssz/sha256_avx.asm:116-121). -/
abbrev STACK_size : Nat := 408

/-- `TT0` (ssz/sha256_avx.asm:100). -/
abbrev TT0 : X := .x14
/-- `TT1` (ssz/sha256_avx.asm:101). -/
abbrev TT1 : X := .x13
/-- `TT2` (ssz/sha256_avx.asm:102). -/
abbrev TT2 : X := .x12
/-- `TT3` (ssz/sha256_avx.asm:103). -/
abbrev TT3 : X := .x11
/-- `TT4` (ssz/sha256_avx.asm:104). -/
abbrev TT4 : X := .x10
/-- `TT5` (ssz/sha256_avx.asm:105). -/
abbrev TT5 : X := .x9
/-- `T1` (ssz/sha256_avx.asm:107). -/
abbrev T1 : X := .x14
/-- `TMP` (ssz/sha256_avx.asm:108). -/
abbrev TMP : X := .x15

open Instr in
/-- `TRANSPOSE` (ssz/sha256_avx.asm:139-158). -/
def transpose (r0 r1 r2 r3 t0 t1 : X) : List Instr :=
  [vshufps .xmm t0 r0 r1 0x44, vshufps .xmm r0 r0 r1 0xEE, vshufps .xmm t1 r2 r3 0x44, vshufps .xmm r2 r2 r3 0xEE,
   vshufps .xmm r1 t0 t1 0xDD, vshufps .xmm r3 r0 r2 0xDD, vshufps .xmm r0 r0 r2 0x88, vshufps .xmm t0 t0 t1 0x88]

open Instr in
/-- Entry (ssz/sha256_avx.asm:463-466). -/
def entry : List Instr := [endbranch64, subImm .rsp STACK_size, movStore (.reg .rsp _RBX) .rbx]

open Instr in
/-- Loading four words of each of the four blocks (ssz/sha256_avx.asm:489-498). -/
def load4 (i : Nat) : List Instr :=
  [vload .dqa .xmm TMP (.rel .four FLIP_MASK),
   vload .ups .xmm TT2 (.reg DATA_PTR (0 * 64 + i * 16)), vload .ups .xmm TT1 (.reg DATA_PTR (1 * 64 + i * 16)),
   vload .ups .xmm TT4 (.reg DATA_PTR (2 * 64 + i * 16)), vload .ups .xmm TT3 (.reg DATA_PTR (3 * 64 + i * 16))] ++
  (transpose TT2 TT1 TT4 TT3 TT0 TT5 ++
  [vpshufb .xmm TT0 TT0 TMP, vpshufb .xmm TT1 TT1 TMP, vpshufb .xmm TT2 TT2 TMP, vpshufb .xmm TT3 TT3 TMP])

/-- The body of `%rep 4` (ssz/sha256_avx.asm:489-502). -/
def group (v : Args) (i : Nat) : List Instr :=
  load4 i ++ (round0015 cfg4 v TT0 (i * 4 + 0) ++ (round0015 cfg4 v.rot TT1 (i * 4 + 1) ++
  (round0015 cfg4 v.rot.rot TT2 (i * 4 + 2) ++ round0015 cfg4 v.rot.rot.rot TT3 (i * 4 + 3))))

/-- `%rep n` of `group` (ssz/sha256_avx.asm:487-504). -/
def groups : (n : Nat) → (v : Args) → (i : Nat) → List Instr
  | 0, _, _ => []
  | n + 1, v, i => group v i ++ groups n v.rot.rot.rot.rot (i + 1)

open Instr in
/-- Four blocks: the initial hash value and the rounds 0 to 15 (ssz/sha256_avx.asm:472-506). -/
def blocks : List Instr :=
  xor cfg4.round cfg4.round :: lea TBL (.rel .four DIGEST_4) :: (loadDigest cfg4 args ++ (lea TBL (.rel .four K256_4) :: groups 4 args 0))

open Instr in
/-- The loop `.Lrounds_16_xx` (ssz/sha256_avx.asm:510-516); `ROUNDS` is `64*SZ4`. -/
def xx : List Instr := rounds16xx cfg4 T1 16 args 16 ++ [cmpImm cfg4.round (64 * cfg4.sz)]

open Instr in
/-- Adding the initial hash value, saving the sum, turning to the padding (ssz/sha256_avx.asm:520-544). -/
def mid : List Instr :=
  lea TBL (.rel .four DIGEST_4) :: (addDigest cfg4 args TBL 0 ++ (saveDigest cfg4 args _DIGEST ++
  [lea TBL (.rel .four PADDING_4), xor cfg4.round cfg4.round]))

open Instr in
/-- From `.Lrounds_padding` to the end of the loop (ssz/sha256_avx.asm:549-593). -/
def pad : List Instr :=
  paddingRounds cfg4 T1 64 args ++ (addDigest cfg4 args .rsp _DIGEST ++
  (transpose args.a args.b args.c args.d TT0 TT1 ++ (transpose args.e args.f args.g args.h TT2 TT1 ++
  [vload .dqa .xmm TMP (.rel .four FLIP_MASK),
   vpshufb .xmm TT0 TT0 TMP, vpshufb .xmm TT2 TT2 TMP, vpshufb .xmm args.b args.b TMP, vpshufb .xmm args.f args.f TMP,
   vpshufb .xmm args.a args.a TMP, vpshufb .xmm args.e args.e TMP, vpshufb .xmm args.d args.d TMP, vpshufb .xmm args.h args.h TMP,
   vstore .dqu .xmm (.reg OUTPUT_PTR (0 * 16)) TT0, vstore .dqu .xmm (.reg OUTPUT_PTR (1 * 16)) TT2,
   vstore .dqu .xmm (.reg OUTPUT_PTR (2 * 16)) args.b, vstore .dqu .xmm (.reg OUTPUT_PTR (3 * 16)) args.f,
   vstore .dqu .xmm (.reg OUTPUT_PTR (4 * 16)) args.a, vstore .dqu .xmm (.reg OUTPUT_PTR (5 * 16)) args.e,
   vstore .dqu .xmm (.reg OUTPUT_PTR (6 * 16)) args.d, vstore .dqu .xmm (.reg OUTPUT_PTR (7 * 16)) args.h,
   addImm DATA_PTR (64 * 4), addImm OUTPUT_PTR (32 * 4), subImm NUM_BLKS 4])))

/-- `sha256_4_avx` (ssz/sha256_avx.asm:462-608), cut at the labels and jumps. -/
def code : Label → Block
  | .four => ⟨entry, .goto .fourLoop⟩
  | .fourLoop => ⟨[.cmpImm NUM_BLKS 4], .jl .fourTail .fourBlocks⟩
  | .fourBlocks => ⟨blocks, .goto .fourXX⟩
  | .fourXX => ⟨xx, .jb .fourXX .fourMid⟩
  | .fourMid => ⟨mid, .goto .fourPad⟩
  | .fourPad => ⟨pad, .goto .fourLoop⟩
  | .fourTail => ⟨[.test NUM_BLKS NUM_BLKS], .jz .fourDone .fourCall⟩
  | .fourCall => ⟨[], .call .one .fourBack⟩
  | .fourBack => ⟨[.addImm DATA_PTR 64, .addImm OUTPUT_PTR 32, .dec NUM_BLKS], .goto .fourTail⟩
  | .fourDone => ⟨[.movLoad .rbx (.reg .rsp _RBX), .addImm .rsp STACK_size], .ret⟩
  | _ => ⟨[], .ret⟩

end Mammon.X86.Four

namespace Mammon.X86.Eight
open Lane

/-- The constants of `K256_8` (ssz/sha256_avx2.asm:74-202). -/
def k256 : List (BitVec 32) :=
  [0x428a2f98, 0x71374491, 0xb5c0fbcf, 0xe9b5dba5, 0x3956c25b, 0x59f111f1, 0x923f82a4, 0xab1c5ed5,
   0xd807aa98, 0x12835b01, 0x243185be, 0x550c7dc3, 0x72be5d74, 0x80deb1fe, 0x9bdc06a7, 0xc19bf174,
   0xe49b69c1, 0xefbe4786, 0x0fc19dc6, 0x240ca1cc, 0x2de92c6f, 0x4a7484aa, 0x5cb0a9dc, 0x76f988da,
   0x983e5152, 0xa831c66d, 0xb00327c8, 0xbf597fc7, 0xc6e00bf3, 0xd5a79147, 0x06ca6351, 0x14292967,
   0x27b70a85, 0x2e1b2138, 0x4d2c6dfc, 0x53380d13, 0x650a7354, 0x766a0abb, 0x81c2c92e, 0x92722c85,
   0xa2bfe8a1, 0xa81a664b, 0xc24b8b70, 0xc76c51a3, 0xd192e819, 0xd6990624, 0xf40e3585, 0x106aa070,
   0x19a4c116, 0x1e376c08, 0x2748774c, 0x34b0bcb5, 0x391c0cb3, 0x4ed8aa4a, 0x5b9cca4f, 0x682e6ff3,
   0x748f82ee, 0x78a5636f, 0x84c87814, 0x8cc70208, 0x90befffa, 0xa4506ceb, 0xbef9a3f7, 0xc67178f2]

/-- The constants of `PADDING_8` (ssz/sha256_avx2.asm:204-333). -/
def padding : List (BitVec 32) :=
  [0xc28a2f98, 0x71374491, 0xb5c0fbcf, 0xe9b5dba5, 0x3956c25b, 0x59f111f1, 0x923f82a4, 0xab1c5ed5,
   0xd807aa98, 0x12835b01, 0x243185be, 0x550c7dc3, 0x72be5d74, 0x80deb1fe, 0x9bdc06a7, 0xc19bf374,
   0x649b69c1, 0xf0fe4786, 0x0fe1edc6, 0x240cf254, 0x4fe9346f, 0x6cc984be, 0x61b9411e, 0x16f988fa,
   0xf2c65152, 0xa88e5a6d, 0xb019fc65, 0xb9d99ec7, 0x9a1231c3, 0xe70eeaa0, 0xfdb1232b, 0xc7353eb0,
   0x3069bad5, 0xcb976d5f, 0x5a0f118f, 0xdc1eeefd, 0x0a35b689, 0xde0b7a04, 0x58f4ca9d, 0xe15d5b16,
   0x007f3e86, 0x37088980, 0xa507ea32, 0x6fab9537, 0x17406110, 0x0d8cd6f1, 0xcdaa3b6d, 0xc0bbbe37,
   0x83613bda, 0xdb48a363, 0x0b02e931, 0x6fd15ca7, 0x521afaca, 0x31338431, 0x6ed41a95, 0x6d437890,
   0xc39c91f2, 0x9eccabbd, 0xb5c9a0e6, 0x532fb63c, 0xd2c741c6, 0x07237ea3, 0xa4954b68, 0x4c191d76]

/-- The constants of `DIGEST_8` (ssz/sha256_avx2.asm:336-352). -/
def digest : List (BitVec 32) :=
  [0x6a09e667, 0xbb67ae85, 0x3c6ef372, 0xa54ff53a, 0x510e527f, 0x9b05688c, 0x1f83d9ab, 0x5be0cd19]

/-- The section `.data` in 32-bit words (ssz/sha256_avx2.asm:74-360): each constant of `K256_8`, `PADDING_8` and `DIGEST_8` eight times, then
`PSHUFFLE_BYTE_FLIP_MASK` and `STACK_ALIGNMENT_MASK`. -/
def data : List (BitVec 32) :=
  (k256 ++ padding ++ digest).flatMap (List.replicate 8) ++
  [0x00010203, 0x04050607, 0x08090a0b, 0x0c0d0e0f, 0x00010203, 0x04050607, 0x08090a0b, 0x0c0d0e0f, 0xffffffe0, 0xffffffff]

/-- Offset of `K256_8` (ssz/sha256_avx2.asm:74). -/
abbrev K256_8 : Nat := 0
/-- Offset of `PADDING_8` (ssz/sha256_avx2.asm:204). -/
abbrev PADDING_8 : Nat := 2048
/-- Offset of `DIGEST_8` (ssz/sha256_avx2.asm:336). -/
abbrev DIGEST_8 : Nat := 4096
/-- Offset of `PSHUFFLE_BYTE_FLIP_MASK` (ssz/sha256_avx2.asm:355). -/
abbrev FLIP_MASK : Nat := 4352
/-- Offset of `STACK_ALIGNMENT_MASK` (ssz/sha256_avx2.asm:359). -/
abbrev STACK_MASK : Nat := 4384
/-- Offset `_DIGEST` in the structure `stack_frame` (ssz/sha256_avx2.asm:446,451); the first member is the data. -/
abbrev _DIGEST : Nat := 512
/-- Offset `_YTMP` in the structure `stack_frame` (ssz/sha256_avx2.asm:447,452). -/
abbrev _YTMP : Nat := 768
/-- Offset `_RSAVE` in the structure `stack_frame` (ssz/sha256_avx2.asm:448,453). -/
abbrev _RSAVE : Nat := 896
/-- `FRAMESZ` (ssz/sha256_avx2.asm:444-450). -/
abbrev FRAMESZ : Nat := 1152

/-- `TT0` (ssz/sha256_avx2.asm:427). -/
abbrev TT0 : X := .x8
/-- `TT1` (ssz/sha256_avx2.asm:428). -/
abbrev TT1 : X := .x9
/-- `TT2` (ssz/sha256_avx2.asm:429). -/
abbrev TT2 : X := .x10
/-- `TT3` (ssz/sha256_avx2.asm:430). -/
abbrev TT3 : X := .x11
/-- `TT4` (ssz/sha256_avx2.asm:431). -/
abbrev TT4 : X := .x12
/-- `TT5` (ssz/sha256_avx2.asm:432). -/
abbrev TT5 : X := .x13
/-- `TT6` (ssz/sha256_avx2.asm:433). -/
abbrev TT6 : X := .x14
/-- `TT7` (ssz/sha256_avx2.asm:434). -/
abbrev TT7 : X := .x15
/-- `T1` (ssz/sha256_avx2.asm:417). -/
abbrev T1 : X := .x8
/-- `TMP0` (ssz/sha256_avx2.asm:424). -/
abbrev TMP0 : X := .x6
/-- `TMP1` (ssz/sha256_avx2.asm:425). -/
abbrev TMP1 : X := .x7

open Instr in
/-- `TRANSPOSE8_U32_LOAD8` with the addresses `DATA_PTR + k*64` and offset `o` (ssz/transpose_avx2.asm:38-86, called in
ssz/sha256_avx2.asm:649-658). -/
def load8 (r0 r1 r2 r3 r4 r5 r6 r7 : X) (o : Nat) : List Instr :=
  [vload .ups .xmm r0 (.reg DATA_PTR (0 * 64 + o)), vload .ups .xmm r1 (.reg DATA_PTR (1 * 64 + o)),
   vload .ups .xmm r2 (.reg DATA_PTR (2 * 64 + o)), vload .ups .xmm r3 (.reg DATA_PTR (3 * 64 + o)),
   vload .ups .xmm r4 (.reg DATA_PTR (0 * 64 + o + 16)), vload .ups .xmm r5 (.reg DATA_PTR (1 * 64 + o + 16)),
   vload .ups .xmm r6 (.reg DATA_PTR (2 * 64 + o + 16)), vload .ups .xmm r7 (.reg DATA_PTR (3 * 64 + o + 16)),
   .vinserti128 r0 r0 (.reg DATA_PTR (4 * 64 + o)) 0x01, .vinserti128 r1 r1 (.reg DATA_PTR (5 * 64 + o)) 0x01,
   .vinserti128 r2 r2 (.reg DATA_PTR (6 * 64 + o)) 0x01, .vinserti128 r3 r3 (.reg DATA_PTR (7 * 64 + o)) 0x01,
   .vinserti128 r4 r4 (.reg DATA_PTR (4 * 64 + o + 16)) 0x01, .vinserti128 r5 r5 (.reg DATA_PTR (5 * 64 + o + 16)) 0x01,
   .vinserti128 r6 r6 (.reg DATA_PTR (6 * 64 + o + 16)) 0x01, .vinserti128 r7 r7 (.reg DATA_PTR (7 * 64 + o + 16)) 0x01]

open Instr in
/-- Half of `TRANSPOSE8_U32_PRELOADED` (ssz/transpose_avx2.asm:127-135 and 138-146). -/
def preloadedHalf (r0 r1 r2 r3 t0 t1 : X) : List Instr :=
  [vshufps .ymm t0 r0 r1 0x44, vshufps .ymm r0 r0 r1 0xEE, vshufps .ymm t1 r2 r3 0x44, vshufps .ymm r2 r2 r3 0xEE,
   vshufps .ymm r1 t0 t1 0xDD, vshufps .ymm r3 r0 r2 0xDD, vshufps .ymm r2 r0 r2 0x88, vshufps .ymm r0 t0 t1 0x88]

/-- `TRANSPOSE8_U32_PRELOADED` (ssz/transpose_avx2.asm:95-147). -/
def transposePreloaded (r0 r1 r2 r3 r4 r5 r6 r7 t0 t1 : X) : List Instr :=
  preloadedHalf r0 r1 r2 r3 t0 t1 ++ preloadedHalf r4 r5 r6 r7 t0 t1

open Instr in
/-- `TRANSPOSE8_U32` (ssz/transpose_avx2.asm:149-190). -/
def transpose8 (r0 r1 r2 r3 r4 r5 r6 r7 t0 t1 : X) : List Instr :=
  [vshufps .ymm t0 r0 r1 0x44, vshufps .ymm r0 r0 r1 0xEE, vshufps .ymm t1 r2 r3 0x44, vshufps .ymm r2 r2 r3 0xEE,
   vshufps .ymm r3 t0 t1 0xDD, vshufps .ymm r1 r0 r2 0x88, vshufps .ymm r0 r0 r2 0xDD, vshufps .ymm t0 t0 t1 0x88,
   vshufps .ymm r2 r4 r5 0x44, vshufps .ymm r4 r4 r5 0xEE, vshufps .ymm t1 r6 r7 0x44, vshufps .ymm r6 r6 r7 0xEE,
   vshufps .ymm r7 r2 t1 0xDD, vshufps .ymm r5 r4 r6 0x88, vshufps .ymm r4 r4 r6 0xDD, vshufps .ymm t1 r2 t1 0x88,
   .vperm2f128 r6 r5 r1 0x13, .vperm2f128 r2 r5 r1 0x02, .vperm2f128 r5 r7 r3 0x13, .vperm2f128 r1 r7 r3 0x02,
   .vperm2f128 r7 r4 r0 0x13, .vperm2f128 r3 r4 r0 0x02, .vperm2f128 r4 t1 t0 0x13, .vperm2f128 r0 t1 t0 0x02]

open Instr in
/-- Entry (ssz/sha256_avx2.asm:619-628). -/
def entry : List Instr :=
  [endbranch64, push .rbp, mov .rbp .rsp, andLoad .rsp (.rel .eight STACK_MASK), subImm .rsp FRAMESZ,
   movStore (.reg .rsp (_RSAVE + 0 * 64)) .r12, movStore (.reg .rsp (_RSAVE + 1 * 64)) .r13,
   movStore (.reg .rsp (_RSAVE + 2 * 64)) .r14, movStore (.reg .rsp (_RSAVE + 3 * 64)) .r15]

open Instr in
/-- Loading and transposing eight words of each of the eight blocks (ssz/sha256_avx2.asm:649-677). -/
def loadBlocks (v : Args) (i : Nat) : List Instr :=
  load8 TT0 TT1 TT2 TT3 TT4 TT5 TT6 TT7 (i * 32) ++
  ([vstore .dqa .ymm (.reg .rsp (_YTMP + 0 * 32)) v.g, vstore .dqa .ymm (.reg .rsp (_YTMP + 1 * 32)) v.h] ++
  (transposePreloaded TT0 TT1 TT2 TT3 TT4 TT5 TT6 TT7 TMP0 TMP1 ++
  [vload .dqa .ymm TMP1 (.rel .eight FLIP_MASK), vload .dqa .ymm v.g (.reg .rsp (_YTMP + 0 * 32)),
   vpshufb .ymm TT0 TT0 TMP1, vpshufb .ymm TT1 TT1 TMP1, vpshufb .ymm TT2 TT2 TMP1, vpshufb .ymm TT3 TT3 TMP1,
   vpshufb .ymm TT4 TT4 TMP1, vpshufb .ymm TT5 TT5 TMP1, vpshufb .ymm TT6 TT6 TMP1, vpshufb .ymm TT7 TT7 TMP1,
   vload .dqa .ymm v.h (.reg .rsp (_YTMP + 1 * 32)),
   vstore .dqa .ymm (.reg .rsp (_YTMP + 0 * 32)) TT4, vstore .dqa .ymm (.reg .rsp (_YTMP + 1 * 32)) TT5,
   vstore .dqa .ymm (.reg .rsp (_YTMP + 2 * 32)) TT6, vstore .dqa .ymm (.reg .rsp (_YTMP + 3 * 32)) TT7]))

/-- The body of `%rep 2` (ssz/sha256_avx2.asm:649-689). -/
def group (v : Args) (i : Nat) : List Instr :=
  loadBlocks v i ++ (round0015 cfg8 v TT0 (i * 8 + 0) ++ (.vload .dqa .ymm TT0 (.reg .rsp (_YTMP + 0 * 32)) ::
  (round0015 cfg8 v.rot TT1 (i * 8 + 1) ++ (.vload .dqa .ymm TT1 (.reg .rsp (_YTMP + 1 * 32)) ::
  (round0015 cfg8 v.rot.rot TT2 (i * 8 + 2) ++ (.vload .dqa .ymm TT2 (.reg .rsp (_YTMP + 2 * 32)) ::
  (round0015 cfg8 v.rot.rot.rot TT3 (i * 8 + 3) ++ (.vload .dqa .ymm TT3 (.reg .rsp (_YTMP + 3 * 32)) ::
  (round0015 cfg8 v.rot.rot.rot.rot TT0 (i * 8 + 4) ++ (round0015 cfg8 v.rot.rot.rot.rot.rot TT1 (i * 8 + 5) ++
  (round0015 cfg8 v.rot.rot.rot.rot.rot.rot TT2 (i * 8 + 6) ++ round0015 cfg8 v.rot.rot.rot.rot.rot.rot.rot TT3 (i * 8 + 7))))))))))))

open Instr in
/-- Eight blocks: the initial hash value and the rounds 0 to 15 (ssz/sha256_avx2.asm:633-693). In the second repetition the arguments have been
rotated eight times. -/
def blocks : List Instr :=
  xor cfg8.round cfg8.round :: lea TBL (.rel .eight DIGEST_8) :: (loadDigest cfg8 args ++ (lea TBL (.rel .eight K256_8) ::
  (group args 0 ++ group args 1)))

open Instr in
/-- The loop `.Lrounds_16_xx` (ssz/sha256_avx2.asm:697-703); `ROUNDS` is `64*SZ8`. -/
def xx : List Instr := rounds16xx cfg8 T1 16 args 16 ++ [cmpImm cfg8.round (64 * cfg8.sz)]

open Instr in
/-- Adding the initial hash value, saving the sum, turning to the padding (ssz/sha256_avx2.asm:707-731). -/
def mid : List Instr :=
  lea TBL (.rel .eight DIGEST_8) :: (addDigest cfg8 args TBL 0 ++ (saveDigest cfg8 args _DIGEST ++
  [lea TBL (.rel .eight PADDING_8), xor cfg8.round cfg8.round]))

open Instr in
/-- From `.Lrounds_padding` to the end of the loop (ssz/sha256_avx2.asm:735-778). -/
def pad : List Instr :=
  paddingRounds cfg8 T1 64 args ++ (addDigest cfg8 args .rsp _DIGEST ++
  (transpose8 args.a args.b args.c args.d args.e args.f args.g args.h TT0 TT1 ++
  [vload .dqa .ymm TT0 (.rel .eight FLIP_MASK),
   vpshufb .ymm args.a args.a TT0, vpshufb .ymm args.b args.b TT0, vpshufb .ymm args.c args.c TT0, vpshufb .ymm args.d args.d TT0,
   vpshufb .ymm args.e args.e TT0, vpshufb .ymm args.f args.f TT0, vpshufb .ymm args.g args.g TT0, vpshufb .ymm args.h args.h TT0,
   vstore .dqu .ymm (.reg OUTPUT_PTR (0 * 32)) args.a, vstore .dqu .ymm (.reg OUTPUT_PTR (1 * 32)) args.b,
   vstore .dqu .ymm (.reg OUTPUT_PTR (2 * 32)) args.c, vstore .dqu .ymm (.reg OUTPUT_PTR (3 * 32)) args.d,
   vstore .dqu .ymm (.reg OUTPUT_PTR (4 * 32)) args.e, vstore .dqu .ymm (.reg OUTPUT_PTR (5 * 32)) args.f,
   vstore .dqu .ymm (.reg OUTPUT_PTR (6 * 32)) args.g, vstore .dqu .ymm (.reg OUTPUT_PTR (7 * 32)) args.h,
   addImm DATA_PTR (64 * 8), addImm OUTPUT_PTR (32 * 8), subImm NUM_BLKS 8]))

open Instr in
/-- Exit (ssz/sha256_avx2.asm:786-792). -/
def exit : List Instr :=
  [movLoad .r12 (.reg .rsp (_RSAVE + 0 * 64)), movLoad .r13 (.reg .rsp (_RSAVE + 1 * 64)),
   movLoad .r14 (.reg .rsp (_RSAVE + 2 * 64)), movLoad .r15 (.reg .rsp (_RSAVE + 3 * 64)), mov .rsp .rbp, pop .rbp]

/-- `sha256_8_avx2` (ssz/sha256_avx2.asm:618-793), cut at the labels and jumps. -/
def code : Label → Block
  | .eight => ⟨entry, .goto .eightLoop⟩
  | .eightLoop => ⟨[.cmpImm NUM_BLKS 8], .jl .eightTail .eightBlocks⟩
  | .eightBlocks => ⟨blocks, .goto .eightXX⟩
  | .eightXX => ⟨xx, .jb .eightXX .eightMid⟩
  | .eightMid => ⟨mid, .goto .eightPad⟩
  | .eightPad => ⟨pad, .goto .eightLoop⟩
  | .eightTail => ⟨[], .call .four .eightBack⟩
  | .eightBack => ⟨exit, .ret⟩
  | _ => ⟨[], .ret⟩

end Mammon.X86.Eight
