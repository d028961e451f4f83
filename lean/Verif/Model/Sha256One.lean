import Verif.Model.X86
/-!
# `sha256_1_avx` (ssz/sha256_avx_one_block.asm)

The assembler macros are functions that produce instruction lists; the symbols that `ROTATE_ARGS` and `rotate_Xs` redefine are arguments.
-/

namespace Mammon.X86.One

/-- The section `.data` in 32-bit words (ssz/sha256_avx_one_block.asm:33-83): `K256`, `DIGEST`, `PADDING`, and the three shuffle masks, whose
64-bit constants are given by their lower and upper halves. The comma at the end of line 52 adds nothing. -/
def data : List (BitVec 32) :=
  [0x428a2f98, 0x71374491, 0xb5c0fbcf, 0xe9b5dba5, 0x3956c25b, 0x59f111f1, 0x923f82a4, 0xab1c5ed5,
   0xd807aa98, 0x12835b01, 0x243185be, 0x550c7dc3, 0x72be5d74, 0x80deb1fe, 0x9bdc06a7, 0xc19bf174,
   0xe49b69c1, 0xefbe4786, 0x0fc19dc6, 0x240ca1cc, 0x2de92c6f, 0x4a7484aa, 0x5cb0a9dc, 0x76f988da,
   0x983e5152, 0xa831c66d, 0xb00327c8, 0xbf597fc7, 0xc6e00bf3, 0xd5a79147, 0x06ca6351, 0x14292967,
   0x27b70a85, 0x2e1b2138, 0x4d2c6dfc, 0x53380d13, 0x650a7354, 0x766a0abb, 0x81c2c92e, 0x92722c85,
   0xa2bfe8a1, 0xa81a664b, 0xc24b8b70, 0xc76c51a3, 0xd192e819, 0xd6990624, 0xf40e3585, 0x106aa070,
   0x19a4c116, 0x1e376c08, 0x2748774c, 0x34b0bcb5, 0x391c0cb3, 0x4ed8aa4a, 0x5b9cca4f, 0x682e6ff3,
   0x748f82ee, 0x78a5636f, 0x84c87814, 0x8cc70208, 0x90befffa, 0xa4506ceb, 0xbef9a3f7, 0xc67178f2,
   0x6a09e667, 0xbb67ae85, 0x3c6ef372, 0xa54ff53a, 0x510e527f, 0x9b05688c, 0x1f83d9ab, 0x5be0cd19,
   0xc28a2f98, 0x71374491, 0xb5c0fbcf, 0xe9b5dba5, 0x3956c25b, 0x59f111f1, 0x923f82a4, 0xab1c5ed5,
   0xd807aa98, 0x12835b01, 0x243185be, 0x550c7dc3, 0x72be5d74, 0x80deb1fe, 0x9bdc06a7, 0xc19bf374,
   0x649b69c1, 0xf0fe4786, 0xfe1edc6, 0x240cf254, 0x4fe9346f, 0x6cc984be, 0x61b9411e, 0x16f988fa,
   0xf2c65152, 0xa88e5a6d, 0xb019fc65, 0xb9d99ec7, 0x9a1231c3, 0xe70eeaa0, 0xfdb1232b, 0xc7353eb0,
   0x3069bad5, 0xcb976d5f, 0x5a0f118f, 0xdc1eeefd, 0xa35b689, 0xde0b7a04, 0x58f4ca9d, 0xe15d5b16,
   0x7f3e86, 0x37088980, 0xa507ea32, 0x6fab9537, 0x17406110, 0xd8cd6f1, 0xcdaa3b6d, 0xc0bbbe37,
   0x83613bda, 0xdb48a363, 0xb02e931, 0x6fd15ca7, 0x521afaca, 0x31338431, 0x6ed41a95, 0x6d437890,
   0xc39c91f2, 0x9eccabbd, 0xb5c9a0e6, 0x532fb63c, 0xd2c741c6, 0x7237ea3, 0xa4954b68, 0x4c191d76,
   0x00010203, 0x04050607, 0x08090a0b, 0x0c0d0e0f,
   0x03020100, 0x0b0a0908, 0xffffffff, 0xffffffff,
   0xffffffff, 0xffffffff, 0x03020100, 0x0b0a0908]

/-- Offset of `K256` (ssz/sha256_avx_one_block.asm:33). -/
abbrev K256 : Nat := 0
/-- Offset of `DIGEST` (ssz/sha256_avx_one_block.asm:51). -/
abbrev DIGEST : Nat := 256
/-- Offset of `PADDING` (ssz/sha256_avx_one_block.asm:55). -/
abbrev PADDING : Nat := 288
/-- Offset of `PSHUFFLE_BYTE_FLIP_MASK` (ssz/sha256_avx_one_block.asm:74). -/
abbrev FLIP_MASK : Nat := 544
/-- Offset of `_SHUF_00BA` (ssz/sha256_avx_one_block.asm:78). -/
abbrev SHUF_00BA_MASK : Nat := 560
/-- Offset of `_SHUF_DC00` (ssz/sha256_avx_one_block.asm:82). -/
abbrev SHUF_DC00_MASK : Nat := 576

/-- The registers that the symbols `a`..`h` stand for (ssz/sha256_avx_one_block.asm:128-142). -/
structure Args where
  a : R
  b : R
  c : R
  d : R
  e : R
  f : R
  g : R
  h : R

/-- The initial meaning of `a`..`h` (ssz/sha256_avx_one_block.asm:130-142). -/
def args : Args := ⟨.rax, .rbx, .rdx, .r8, .r9, .r10, .r11, .r12⟩

/-- `ROTATE_ARGS` (ssz/sha256_avx_one_block.asm:170-180). -/
def Args.rot (v : Args) : Args := ⟨v.h, v.a, v.b, v.c, v.d, v.e, v.f, v.g⟩

/-- The registers that the symbols `X0`..`X3` stand for (ssz/sha256_avx_one_block.asm:104-107). -/
structure Xs where
  x0 : X
  x1 : X
  x2 : X
  x3 : X

/-- The initial meaning of `X0`..`X3` (ssz/sha256_avx_one_block.asm:104-107). -/
def xs : Xs := ⟨.x4, .x5, .x6, .x7⟩

/-- `rotate_Xs` (ssz/sha256_avx_one_block.asm:160-166). -/
def Xs.rot (v : Xs) : Xs := ⟨v.x1, v.x2, v.x3, v.x0⟩

/-- `XTMP0` (ssz/sha256_avx_one_block.asm:109). -/
abbrev XTMP0 : X := .x0
/-- `XTMP1` (ssz/sha256_avx_one_block.asm:110). -/
abbrev XTMP1 : X := .x1
/-- `XTMP2` (ssz/sha256_avx_one_block.asm:111). -/
abbrev XTMP2 : X := .x2
/-- `XTMP3` (ssz/sha256_avx_one_block.asm:112). -/
abbrev XTMP3 : X := .x3
/-- `XTMP4` (ssz/sha256_avx_one_block.asm:113). -/
abbrev XTMP4 : X := .x8
/-- `XFER` (ssz/sha256_avx_one_block.asm:114). -/
abbrev XFER : X := .x9
/-- `XTMP5` (ssz/sha256_avx_one_block.asm:115). -/
abbrev XTMP5 : X := .x11
/-- `SHUF_00BA` (ssz/sha256_avx_one_block.asm:117). -/
abbrev SHUF_00BA : X := .x10
/-- `SHUF_DC00` (ssz/sha256_avx_one_block.asm:118). -/
abbrev SHUF_DC00 : X := .x12
/-- `BYTE_FLIP_MASK` (ssz/sha256_avx_one_block.asm:119). -/
abbrev BYTE_FLIP_MASK : X := .x13
/-- `OUTPUT_PTR` (ssz/sha256_avx_one_block.asm:128). -/
abbrev OUTPUT_PTR : R := .rdi
/-- `DATA_PTR` (ssz/sha256_avx_one_block.asm:129). -/
abbrev DATA_PTR : R := .rsi
/-- `TBL` (ssz/sha256_avx_one_block.asm:131). -/
abbrev TBL : R := .rcx
/-- `y0` (ssz/sha256_avx_one_block.asm:144). -/
abbrev y0 : R := .r13
/-- `y1` (ssz/sha256_avx_one_block.asm:145). -/
abbrev y1 : R := .r14
/-- `y2` (ssz/sha256_avx_one_block.asm:146). -/
abbrev y2 : R := .r15
/-- Offset `_XFER` in the structure `STACK` (ssz/sha256_avx_one_block.asm:150). -/
abbrev _XFER : Nat := 0
/-- Offset `_DIGEST` in the structure `STACK` (ssz/sha256_avx_one_block.asm:151). -/
abbrev _DIGEST : Nat := 32
/-- `STACK_size` (ssz/sha256_avx_one_block.asm:149-156). -/
abbrev STACK_size : Nat := 64

/-- `MY_ROR` (ssz/sha256_avx_one_block.asm:91-93). -/
def myRor (r : R) (n : Nat) : Instr := .shld32 r r (32 - n)

/-- `COPY_XMM_AND_BSWAP` (ssz/sha256_avx_one_block.asm:97-100). -/
def copyXmmAndBswap (x : X) (a : Addr) : List Instr := [.vload .dqu .xmm x a, .vpshufb .xmm x x BYTE_FLIP_MASK]

open Instr in
/-- `FOUR_ROUNDS_AND_SCHED`, up to the first `ROTATE_ARGS` (ssz/sha256_avx_one_block.asm:182-229). -/
def sched0 (v : Args) (x : Xs) : List Instr :=
  [mov32 y0 v.e,
   myRor y0 (25 - 11),
   mov32 y1 v.a,
   vpalignr .xmm XTMP0 x.x3 x.x2 4,
   myRor y1 (22 - 13),
   xor32 y0 v.e,
   mov32 y2 v.f,
   myRor y0 (11 - 6),
   xor32 y1 v.a,
   xor32 y2 v.g,
   vop .paddd .xmm XTMP0 XTMP0 x.x0,
   xor32 y0 v.e,
   and32 y2 v.e,
   myRor y1 (13 - 2),
   vpalignr .xmm XTMP1 x.x1 x.x0 4,
   xor32 y1 v.a,
   myRor y0 6,
   xor32 y2 v.g,
   myRor y1 2,
   add32 y2 y0,
   addLoad32 y2 (.reg .rsp (_XFER + 0 * 4)),
   mov32 y0 v.a,
   add32 v.h y2,
   mov32 y2 v.a,
   vshift .psrld .xmm XTMP2 XTMP1 7,
   or32 y0 v.c,
   add32 v.d v.h,
   and32 y2 v.c,
   vshift .pslld .xmm XTMP3 XTMP1 (32 - 7),
   and32 y0 v.b,
   add32 v.h y1,
   vop .por .xmm XTMP3 XTMP3 XTMP2,
   or32 y0 y2,
   add32 v.h y0]

open Instr in
/-- `FOUR_ROUNDS_AND_SCHED`, from the first to the second `ROTATE_ARGS` (ssz/sha256_avx_one_block.asm:233-283). -/
def sched1 (v : Args) (x : Xs) : List Instr :=
  [mov32 y0 v.e,
   mov32 y1 v.a,
   myRor y0 (25 - 11),
   xor32 y0 v.e,
   mov32 y2 v.f,
   myRor y1 (22 - 13),
   vshift .psrld .xmm XTMP2 XTMP1 18,
   xor32 y1 v.a,
   myRor y0 (11 - 6),
   xor32 y2 v.g,
   vshift .psrld .xmm XTMP4 XTMP1 3,
   myRor y1 (13 - 2),
   xor32 y0 v.e,
   and32 y2 v.e,
   myRor y0 6,
   vshift .pslld .xmm XTMP1 XTMP1 (32 - 18),
   xor32 y1 v.a,
   xor32 y2 v.g,
   vop .pxor .xmm XTMP3 XTMP3 XTMP1,
   add32 y2 y0,
   addLoad32 y2 (.reg .rsp (_XFER + 1 * 4)),
   myRor y1 2,
   vop .pxor .xmm XTMP3 XTMP3 XTMP2,
   mov32 y0 v.a,
   add32 v.h y2,
   mov32 y2 v.a,
   vop .pxor .xmm XTMP1 XTMP3 XTMP4,
   or32 y0 v.c,
   add32 v.d v.h,
   and32 y2 v.c,
   vpshufd .xmm XTMP2 x.x3 0b11111010,
   and32 y0 v.b,
   add32 v.h y1,
   vop .paddd .xmm XTMP0 XTMP0 XTMP1,
   or32 y0 y2,
   add32 v.h y0]

open Instr in
/-- `FOUR_ROUNDS_AND_SCHED`, from the second to the third `ROTATE_ARGS` (ssz/sha256_avx_one_block.asm:288-333). -/
def sched2 (v : Args) : List Instr :=
  [mov32 y0 v.e,
   mov32 y1 v.a,
   myRor y0 (25 - 11),
   xor32 y0 v.e,
   myRor y1 (22 - 13),
   mov32 y2 v.f,
   xor32 y1 v.a,
   myRor y0 (11 - 6),
   vshift .psrld .xmm XTMP4 XTMP2 10,
   xor32 y2 v.g,
   vshift .psrlq .xmm XTMP3 XTMP2 19,
   xor32 y0 v.e,
   and32 y2 v.e,
   vshift .psrlq .xmm XTMP2 XTMP2 17,
   myRor y1 (13 - 2),
   xor32 y1 v.a,
   xor32 y2 v.g,
   myRor y0 6,
   vop .pxor .xmm XTMP2 XTMP2 XTMP3,
   add32 y2 y0,
   myRor y1 2,
   addLoad32 y2 (.reg .rsp (_XFER + 2 * 4)),
   vop .pxor .xmm XTMP4 XTMP4 XTMP2,
   mov32 y0 v.a,
   add32 v.h y2,
   mov32 y2 v.a,
   vpshufb .xmm XTMP4 XTMP4 SHUF_00BA,
   or32 y0 v.c,
   add32 v.d v.h,
   and32 y2 v.c,
   vop .paddd .xmm XTMP0 XTMP0 XTMP4,
   and32 y0 v.b,
   add32 v.h y1,
   vpshufd .xmm XTMP2 XTMP0 0b01010000,
   or32 y0 y2,
   add32 v.h y0]

open Instr in
/-- `FOUR_ROUNDS_AND_SCHED`, from the third to the fourth `ROTATE_ARGS` (ssz/sha256_avx_one_block.asm:337-380). -/
def sched3 (v : Args) (x : Xs) : List Instr :=
  [mov32 y0 v.e,
   myRor y0 (25 - 11),
   mov32 y1 v.a,
   myRor y1 (22 - 13),
   xor32 y0 v.e,
   mov32 y2 v.f,
   myRor y0 (11 - 6),
   vshift .psrld .xmm XTMP5 XTMP2 10,
   xor32 y1 v.a,
   xor32 y2 v.g,
   vshift .psrlq .xmm XTMP3 XTMP2 19,
   xor32 y0 v.e,
   and32 y2 v.e,
   myRor y1 (13 - 2),
   vshift .psrlq .xmm XTMP2 XTMP2 17,
   xor32 y1 v.a,
   myRor y0 6,
   xor32 y2 v.g,
   vop .pxor .xmm XTMP2 XTMP2 XTMP3,
   myRor y1 2,
   add32 y2 y0,
   addLoad32 y2 (.reg .rsp (_XFER + 3 * 4)),
   vop .pxor .xmm XTMP5 XTMP5 XTMP2,
   mov32 y0 v.a,
   add32 v.h y2,
   mov32 y2 v.a,
   vpshufb .xmm XTMP5 XTMP5 SHUF_DC00,
   or32 y0 v.c,
   add32 v.d v.h,
   and32 y2 v.c,
   vop .paddd .xmm x.x0 XTMP5 XTMP0,
   and32 y0 v.b,
   add32 v.h y1,
   or32 y0 y2,
   add32 v.h y0]

/-- `FOUR_ROUNDS_AND_SCHED` (ssz/sha256_avx_one_block.asm:182-384). -/
def fourRoundsAndSched (v : Args) (x : Xs) : List Instr :=
  sched0 v x ++ (sched1 v.rot x ++ (sched2 v.rot.rot ++ sched3 v.rot.rot.rot x))

open Instr in
/-- `DO_ROUND`, with `m` = `[rsp + _XFER + %1 * 4]` (ssz/sha256_avx_one_block.asm:387-417), and the body of the loop with the padding block,
with `m` = `[TBL + i]` (ssz/sha256_avx_one_block.asm:552-580), without the `ROTATE_ARGS` at the end. -/
def doRound (v : Args) (m : Addr) : List Instr :=
  [mov32 y0 v.e,
   myRor y0 (25 - 11),
   mov32 y1 v.a,
   xor32 y0 v.e,
   myRor y1 (22 - 13),
   mov32 y2 v.f,
   xor32 y1 v.a,
   myRor y0 (11 - 6),
   xor32 y2 v.g,
   xor32 y0 v.e,
   myRor y1 (13 - 2),
   and32 y2 v.e,
   xor32 y1 v.a,
   myRor y0 6,
   xor32 y2 v.g,
   add32 y2 y0,
   myRor y1 2,
   addLoad32 y2 m,
   mov32 y0 v.a,
   add32 v.h y2,
   mov32 y2 v.a,
   or32 y0 v.c,
   add32 v.d v.h,
   and32 y2 v.c,
   and32 y0 v.b,
   add32 v.h y1,
   or32 y0 y2,
   add32 v.h y0]

/-- Rounds with `ROTATE_ARGS` after each (ssz/sha256_avx_one_block.asm:170-180). -/
def doRounds : List Addr → Args → List Instr
  | [], _ => []
  | m :: ms, v => doRound v m ++ doRounds ms v.rot

/-- Four times `DO_ROUND` (ssz/sha256_avx_one_block.asm:504-507,512-515). -/
def fourRounds (v : Args) : List Instr :=
  doRounds [.reg .rsp (_XFER + 0 * 4), .reg .rsp (_XFER + 1 * 4), .reg .rsp (_XFER + 2 * 4), .reg .rsp (_XFER + 3 * 4)] v

/-- `ROTATE_ARGS` four times (ssz/sha256_avx_one_block.asm:170-180). -/
def Args.rot4 (v : Args) : Args := v.rot.rot.rot.rot

/-- Store the next four words of the schedule plus the constants (ssz/sha256_avx_one_block.asm:483-484 and the like). -/
def xfer (x : X) (disp : Nat) : List Instr :=
  [.vopLoad .paddd .xmm XFER x (.reg TBL disp), .vstore .dqa .xmm (.reg .rsp _XFER) XFER]

/-- The body of `%rep 3` (ssz/sha256_avx_one_block.asm:482-498). -/
def rep3 (v : Args) (x : Xs) : List Instr :=
  xfer x.x0 (0 * 16) ++ (fourRoundsAndSched v x ++
  (xfer x.rot.x0 (1 * 16) ++ (fourRoundsAndSched v.rot4 x.rot ++
  (xfer x.rot.rot.x0 (2 * 16) ++ (fourRoundsAndSched v.rot4.rot4 x.rot.rot ++
  (xfer x.rot.rot.rot.x0 (3 * 16) ++ (.addImm TBL (4 * 16) :: fourRoundsAndSched v.rot4.rot4.rot4 x.rot.rot.rot)))))))

/-- The body of `%rep 2` (ssz/sha256_avx_one_block.asm:502-518). -/
def rep2 (v : Args) (x : Xs) : List Instr :=
  xfer x.x0 (0 * 16) ++ (fourRounds v ++
  (xfer x.x1 (1 * 16) ++ (.addImm TBL (2 * 16) :: (fourRounds v.rot4 ++
  [.vmov .xmm x.x0 x.x2, .vmov .xmm x.x1 x.x3]))))

open Instr in
/-- Entry (ssz/sha256_avx_one_block.asm:430-458). -/
def prologue : List Instr :=
  [endbranch64, push .rbx, push .rdx, push .rbp, push .r12, push .r13, push .r14, push .r15, subImm .rsp STACK_size,
   vload .dqa .xmm BYTE_FLIP_MASK (.rel .one FLIP_MASK),
   vload .dqa .xmm SHUF_00BA (.rel .one SHUF_00BA_MASK),
   vload .dqa .xmm SHUF_DC00 (.rel .one SHUF_DC00_MASK)]

open Instr in
/-- Loading the initial hash value and the block (ssz/sha256_avx_one_block.asm:462-478). -/
def loads (v : Args) (x : Xs) : List Instr :=
  [lea TBL (.rel .one DIGEST),
   load32 v.a (.reg TBL (0 * 4)), load32 v.b (.reg TBL (1 * 4)), load32 v.c (.reg TBL (2 * 4)), load32 v.d (.reg TBL (3 * 4)),
   load32 v.e (.reg TBL (4 * 4)), load32 v.f (.reg TBL (5 * 4)), load32 v.g (.reg TBL (6 * 4)), load32 v.h (.reg TBL (7 * 4)),
   lea TBL (.rel .one K256)] ++
  (copyXmmAndBswap x.x0 (.reg DATA_PTR (0 * 16)) ++ (copyXmmAndBswap x.x1 (.reg DATA_PTR (1 * 16)) ++
  (copyXmmAndBswap x.x2 (.reg DATA_PTR (2 * 16)) ++ copyXmmAndBswap x.x3 (.reg DATA_PTR (3 * 16)))))

open Instr in
/-- After the rounds on the block: add the initial hash value, save, turn to the padding (ssz/sha256_avx_one_block.asm:524-548). -/
def middle (v : Args) : List Instr :=
  [lea TBL (.rel .one DIGEST),
   addLoad32 v.a (.reg TBL (0 * 4)), addLoad32 v.b (.reg TBL (1 * 4)), addLoad32 v.c (.reg TBL (2 * 4)), addLoad32 v.d (.reg TBL (3 * 4)),
   addLoad32 v.e (.reg TBL (4 * 4)), addLoad32 v.f (.reg TBL (5 * 4)), addLoad32 v.g (.reg TBL (6 * 4)), addLoad32 v.h (.reg TBL (7 * 4)),
   store32 (.reg .rsp (_DIGEST + 0 * 4)) v.a, store32 (.reg .rsp (_DIGEST + 1 * 4)) v.b,
   store32 (.reg .rsp (_DIGEST + 2 * 4)) v.c, store32 (.reg .rsp (_DIGEST + 3 * 4)) v.d,
   store32 (.reg .rsp (_DIGEST + 4 * 4)) v.e, store32 (.reg .rsp (_DIGEST + 5 * 4)) v.f,
   store32 (.reg .rsp (_DIGEST + 6 * 4)) v.g, store32 (.reg .rsp (_DIGEST + 7 * 4)) v.h,
   lea TBL (.rel .one PADDING)]

/-- The rounds with the padding block (ssz/sha256_avx_one_block.asm:550-582). -/
def padRounds (v : Args) : List Instr := doRounds ((List.range 64).map fun i => .reg TBL (i * 4)) v

open Instr in
/-- Add the saved hash value, write the result (ssz/sha256_avx_one_block.asm:585-612). -/
def final (v : Args) : List Instr :=
  [addLoad32 v.a (.reg .rsp (_DIGEST + 0 * 4)), addLoad32 v.b (.reg .rsp (_DIGEST + 1 * 4)),
   addLoad32 v.c (.reg .rsp (_DIGEST + 2 * 4)), addLoad32 v.d (.reg .rsp (_DIGEST + 3 * 4)),
   addLoad32 v.e (.reg .rsp (_DIGEST + 4 * 4)), addLoad32 v.f (.reg .rsp (_DIGEST + 5 * 4)),
   addLoad32 v.g (.reg .rsp (_DIGEST + 6 * 4)), addLoad32 v.h (.reg .rsp (_DIGEST + 7 * 4)),
   bswap32 v.a, bswap32 v.b, bswap32 v.c, bswap32 v.d, bswap32 v.e, bswap32 v.f, bswap32 v.g, bswap32 v.h,
   store32 (.reg OUTPUT_PTR (0 * 4)) v.a, store32 (.reg OUTPUT_PTR (1 * 4)) v.b,
   store32 (.reg OUTPUT_PTR (2 * 4)) v.c, store32 (.reg OUTPUT_PTR (3 * 4)) v.d,
   store32 (.reg OUTPUT_PTR (4 * 4)) v.e, store32 (.reg OUTPUT_PTR (5 * 4)) v.f,
   store32 (.reg OUTPUT_PTR (6 * 4)) v.g, store32 (.reg OUTPUT_PTR (7 * 4)) v.h]

open Instr in
/-- Exit (ssz/sha256_avx_one_block.asm:625-639). -/
def epilogue : List Instr :=
  [addImm .rsp STACK_size, pop .r15, pop .r14, pop .r13, pop .r12, pop .rbp, pop .rdx, pop .rbx]

/-- The instructions of `sha256_1_avx` before the `ret` (ssz/sha256_avx_one_block.asm:429-639). In each `%rep` the arguments have been rotated a
multiple of eight times and the `X` symbols a multiple of four times when the next repetition starts. -/
def body : List Instr :=
  prologue ++ (loads args xs ++ (rep3 args xs ++ (rep3 args xs ++ (rep3 args xs ++ (rep2 args xs ++ (rep2 args xs ++
    (middle args ++ (padRounds args ++ (final args ++ epilogue)))))))))

/-- `sha256_1_avx` (ssz/sha256_avx_one_block.asm:429-641). -/
def block : Block := ⟨body, .ret⟩

end Mammon.X86.One
