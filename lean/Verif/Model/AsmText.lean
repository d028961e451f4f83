import Verif.Model.Basic
/-!
# The text of the assembly files

The lines of the six files, one string each, exactly as they are in the repository (`tools/compare_text.py` compares them).
-/

namespace Mammon.Nasm.Text

/-- The lines of ssz/reg_sizes.asm:1-300. -/
def regSizes : List String := [
";;",
";; Copyright (c) 2012-2021, Intel Corporation",
";;",
";; Redistribution and use in source and binary forms, with or without",
";; modification, are permitted provided that the following conditions are met:",
";;",
";;     * Redistributions of source code must retain the above copyright notice,",
";;       this list of conditions and the following disclaimer.",
";;     * Redistributions in binary form must reproduce the above copyright",
";;       notice, this list of conditions and the following disclaimer in the",
";;       documentation and/or other materials provided with the distribution.",
";;     * Neither the name of Intel Corporation nor the names of its contributors",
";;       may be used to endorse or promote products derived from this software",
";;       without specific prior written permission.",
";;",
";; THIS SOFTWARE IS PROVIDED BY THE COPYRIGHT HOLDERS AND CONTRIBUTORS \"AS IS\"",
";; AND ANY EXPRESS OR IMPLIED WARRANTIES, INCLUDING, BUT NOT LIMITED TO, THE",
";; IMPLIED WARRANTIES OF MERCHANTABILITY AND FITNESS FOR A PARTICULAR PURPOSE ARE",
";; DISCLAIMED. IN NO EVENT SHALL THE COPYRIGHT OWNER OR CONTRIBUTORS BE LIABLE",
";; FOR ANY DIRECT, INDIRECT, INCIDENTAL, SPECIAL, EXEMPLARY, OR CONSEQUENTIAL",
";; DAMAGES (INCLUDING, BUT NOT LIMITED TO, PROCUREMENT OF SUBSTITUTE GOODS OR",
";; SERVICES; LOSS OF USE, DATA, OR PROFITS; OR BUSINESS INTERRUPTION) HOWEVER",
";; CAUSED AND ON ANY THEORY OF LIABILITY, WHETHER IN CONTRACT, STRICT LIABILITY,",
";; OR TORT (INCLUDING NEGLIGENCE OR OTHERWISE) ARISING IN ANY WAY OUT OF THE USE",
";; OF THIS SOFTWARE, EVEN IF ADVISED OF THE POSSIBILITY OF SUCH DAMAGE.",
";;",
"",
"; define d and w variants for registers",
"",
"%ifndef _REG_SIZES_ASM_",
"%define _REG_SIZES_ASM_",
"",
"%define\traxd\teax",
"%define raxw\tax",
"%define raxb\tal",
"",
"%define\trbxd\tebx",
"%define rbxw\tbx",
"%define rbxb\tbl",
"",
"%define\trcxd\tecx",
"%define rcxw\tcx",
"%define rcxb\tcl",
"",
"%define\trdxd\tedx",
"%define rdxw\tdx",
"%define rdxb\tdl",
"",
"%define\trsid\tesi",
"%define rsiw\tsi",
"%define rsib\tsil",
"",
"%define\trdid\tedi",
"%define rdiw\tdi",
"%define rdib\tdil",
"",
"%define\trbpd\tebp",
"%define rbpw\tbp",
"%define rbpb\tbpl",
"",
"%define zmm0x xmm0",
"%define zmm1x xmm1",
"%define zmm2x xmm2",
"%define zmm3x xmm3",
"%define zmm4x xmm4",
"%define zmm5x xmm5",
"%define zmm6x xmm6",
"%define zmm7x xmm7",
"%define zmm8x xmm8",
"%define zmm9x xmm9",
"%define zmm10x xmm10",
"%define zmm11x xmm11",
"%define zmm12x xmm12",
"%define zmm13x xmm13",
"%define zmm14x xmm14",
"%define zmm15x xmm15",
"%define zmm16x xmm16",
"%define zmm17x xmm17",
"%define zmm18x xmm18",
"%define zmm19x xmm19",
"%define zmm20x xmm20",
"%define zmm21x xmm21",
"%define zmm22x xmm22",
"%define zmm23x xmm23",
"%define zmm24x xmm24",
"%define zmm25x xmm25",
"%define zmm26x xmm26",
"%define zmm27x xmm27",
"%define zmm28x xmm28",
"%define zmm29x xmm29",
"%define zmm30x xmm30",
"%define zmm31x xmm31",
"",
"%define ymm0x xmm0",
"%define ymm1x xmm1",
"%define ymm2x xmm2",
"%define ymm3x xmm3",
"%define ymm4x xmm4",
"%define ymm5x xmm5",
"%define ymm6x xmm6",
"%define ymm7x xmm7",
"%define ymm8x xmm8",
"%define ymm9x xmm9",
"%define ymm10x xmm10",
"%define ymm11x xmm11",
"%define ymm12x xmm12",
"%define ymm13x xmm13",
"%define ymm14x xmm14",
"%define ymm15x xmm15",
"%define ymm16x xmm16",
"%define ymm17x xmm17",
"%define ymm18x xmm18",
"%define ymm19x xmm19",
"%define ymm20x xmm20",
"%define ymm21x xmm21",
"%define ymm22x xmm22",
"%define ymm23x xmm23",
"%define ymm24x xmm24",
"%define ymm25x xmm25",
"%define ymm26x xmm26",
"%define ymm27x xmm27",
"%define ymm28x xmm28",
"%define ymm29x xmm29",
"%define ymm30x xmm30",
"%define ymm31x xmm31",
"",
"%define xmm0x xmm0",
"%define xmm1x xmm1",
"%define xmm2x xmm2",
"%define xmm3x xmm3",
"%define xmm4x xmm4",
"%define xmm5x xmm5",
"%define xmm6x xmm6",
"%define xmm7x xmm7",
"%define xmm8x xmm8",
"%define xmm9x xmm9",
"%define xmm10x xmm10",
"%define xmm11x xmm11",
"%define xmm12x xmm12",
"%define xmm13x xmm13",
"%define xmm14x xmm14",
"%define xmm15x xmm15",
"%define xmm16x xmm16",
"%define xmm17x xmm17",
"%define xmm18x xmm18",
"%define xmm19x xmm19",
"%define xmm20x xmm20",
"%define xmm21x xmm21",
"%define xmm22x xmm22",
"%define xmm23x xmm23",
"%define xmm24x xmm24",
"%define xmm25x xmm25",
"%define xmm26x xmm26",
"%define xmm27x xmm27",
"%define xmm28x xmm28",
"%define xmm29x xmm29",
"%define xmm30x xmm30",
"%define xmm31x xmm31",
"",
"%define zmm0y ymm0",
"%define zmm1y ymm1",
"%define zmm2y ymm2",
"%define zmm3y ymm3",
"%define zmm4y ymm4",
"%define zmm5y ymm5",
"%define zmm6y ymm6",
"%define zmm7y ymm7",
"%define zmm8y ymm8",
"%define zmm9y ymm9",
"%define zmm10y ymm10",
"%define zmm11y ymm11",
"%define zmm12y ymm12",
"%define zmm13y ymm13",
"%define zmm14y ymm14",
"%define zmm15y ymm15",
"%define zmm16y ymm16",
"%define zmm17y ymm17",
"%define zmm18y ymm18",
"%define zmm19y ymm19",
"%define zmm20y ymm20",
"%define zmm21y ymm21",
"%define zmm22y ymm22",
"%define zmm23y ymm23",
"%define zmm24y ymm24",
"%define zmm25y ymm25",
"%define zmm26y ymm26",
"%define zmm27y ymm27",
"%define zmm28y ymm28",
"%define zmm29y ymm29",
"%define zmm30y ymm30",
"%define zmm31y ymm31",
"",
"%define xmm0y ymm0",
"%define xmm1y ymm1",
"%define xmm2y ymm2",
"%define xmm3y ymm3",
"%define xmm4y ymm4",
"%define xmm5y ymm5",
"%define xmm6y ymm6",
"%define xmm7y ymm7",
"%define xmm8y ymm8",
"%define xmm9y ymm9",
"%define xmm10y ymm10",
"%define xmm11y ymm11",
"%define xmm12y ymm12",
"%define xmm13y ymm13",
"%define xmm14y ymm14",
"%define xmm15y ymm15",
"%define xmm16y ymm16",
"%define xmm17y ymm17",
"%define xmm18y ymm18",
"%define xmm19y ymm19",
"%define xmm20y ymm20",
"%define xmm21y ymm21",
"%define xmm22y ymm22",
"%define xmm23y ymm23",
"%define xmm24y ymm24",
"%define xmm25y ymm25",
"%define xmm26y ymm26",
"%define xmm27y ymm27",
"%define xmm28y ymm28",
"%define xmm29y ymm29",
"%define xmm30y ymm30",
"%define xmm31y ymm31",
"",
"%define xmm0z zmm0",
"%define xmm1z zmm1",
"%define xmm2z zmm2",
"%define xmm3z zmm3",
"%define xmm4z zmm4",
"%define xmm5z zmm5",
"%define xmm6z zmm6",
"%define xmm7z zmm7",
"%define xmm8z zmm8",
"%define xmm9z zmm9",
"%define xmm10z zmm10",
"%define xmm11z zmm11",
"%define xmm12z zmm12",
"%define xmm13z zmm13",
"%define xmm14z zmm14",
"%define xmm15z zmm15",
"%define xmm16z zmm16",
"%define xmm17z zmm17",
"%define xmm18z zmm18",
"%define xmm19z zmm19",
"%define xmm20z zmm20",
"%define xmm21z zmm21",
"%define xmm22z zmm22",
"%define xmm23z zmm23",
"%define xmm24z zmm24",
"%define xmm25z zmm25",
"%define xmm26z zmm26",
"%define xmm27z zmm27",
"%define xmm28z zmm28",
"%define xmm29z zmm29",
"%define xmm30z zmm30",
"%define xmm31z zmm31",
"",
"%define ymm0z zmm0",
"%define ymm1z zmm1",
"%define ymm2z zmm2",
"%define ymm3z zmm3",
"%define ymm4z zmm4",
"%define ymm5z zmm5",
"%define ymm6z zmm6",
"%define ymm7z zmm7",
"%define ymm8z zmm8",
"%define ymm9z zmm9",
"%define ymm10z zmm10",
"%define ymm11z zmm11",
"%define ymm12z zmm12",
"%define ymm13z zmm13",
"%define ymm14z zmm14",
"%define ymm15z zmm15",
"%define ymm16z zmm16",
"%define ymm17z zmm17",
"%define ymm18z zmm18",
"%define ymm19z zmm19",
"%define ymm20z zmm20",
"%define ymm21z zmm21",
"%define ymm22z zmm22",
"%define ymm23z zmm23",
"%define ymm24z zmm24",
"%define ymm25z zmm25",
"%define ymm26z zmm26",
"%define ymm27z zmm27",
"%define ymm28z zmm28",
"%define ymm29z zmm29",
"%define ymm30z zmm30",
"%define ymm31z zmm31",
"",
"%define DWORD(reg) reg %+ d",
"%define WORD(reg)  reg %+ w",
"%define BYTE(reg)  reg %+ b",
"",
"%define XWORD(reg) reg %+ x",
"%define YWORD(reg) reg %+ y",
"%define ZWORD(reg) reg %+ z",
"",
"%endif ;; _REG_SIZES_ASM_"]

/-- The lines of ssz/transpose_avx2.asm:1-192. -/
def transpose : List String := [
";;",
";; Copyright (c) 2012-2021, Intel Corporation",
";;",
";; Redistribution and use in source and binary forms, with or without",
";; modification, are permitted provided that the following conditions are met:",
";;",
";;     * Redistributions of source code must retain the above copyright notice,",
";;       this list of conditions and the following disclaimer.",
";;     * Redistributions in binary form must reproduce the above copyright",
";;       notice, this list of conditions and the following disclaimer in the",
";;       documentation and/or other materials provided with the distribution.",
";;     * Neither the name of Intel Corporation nor the names of its contributors",
";;       may be used to endorse or promote products derived from this software",
";;       without specific prior written permission.",
";;",
";; THIS SOFTWARE IS PROVIDED BY THE COPYRIGHT HOLDERS AND CONTRIBUTORS \"AS IS\"",
";; AND ANY EXPRESS OR IMPLIED WARRANTIES, INCLUDING, BUT NOT LIMITED TO, THE",
";; IMPLIED WARRANTIES OF MERCHANTABILITY AND FITNESS FOR A PARTICULAR PURPOSE ARE",
";; DISCLAIMED. IN NO EVENT SHALL THE COPYRIGHT OWNER OR CONTRIBUTORS BE LIABLE",
";; FOR ANY DIRECT, INDIRECT, INCIDENTAL, SPECIAL, EXEMPLARY, OR CONSEQUENTIAL",
";; DAMAGES (INCLUDING, BUT NOT LIMITED TO, PROCUREMENT OF SUBSTITUTE GOODS OR",
";; SERVICES; LOSS OF USE, DATA, OR PROFITS; OR BUSINESS INTERRUPTION) HOWEVER",
";; CAUSED AND ON ANY THEORY OF LIABILITY, WHETHER IN CONTRACT, STRICT LIABILITY,",
";; OR TORT (INCLUDING NEGLIGENCE OR OTHERWISE) ARISING IN ANY WAY OUT OF THE USE",
";; OF THIS SOFTWARE, EVEN IF ADVISED OF THE POSSIBILITY OF SUCH DAMAGE.",
";;",
"",
"%ifndef _TRANSPOSE_AVX2_ASM_",
"%define _TRANSPOSE_AVX2_ASM_",
"",
"%include \"ssz/reg_sizes.asm\"",
"",
"; LOAD ALL 8 LANES FOR 8x8 32-BIT TRANSPOSE",
";",
"; r0-r7       [out] ymm registers which will contain the data to be transposed",
"; addr0-addr7 [in]  pointers to the next 32-byte block of data to be fetch for all 8 lanes",
"; ptr_offset  [in] offset to be applied on all pointers (addr0-addr7)",
"%macro TRANSPOSE8_U32_LOAD8 17",
"%define %%r0 %1",
"%define %%r1 %2",
"%define %%r2 %3",
"%define %%r3 %4",
"%define %%r4 %5",
"%define %%r5 %6",
"%define %%r6 %7",
"%define %%r7 %8",
"%define %%addr0 %9",
"%define %%addr1 %10",
"%define %%addr2 %11",
"%define %%addr3 %12",
"%define %%addr4 %13",
"%define %%addr5 %14",
"%define %%addr6 %15",
"%define %%addr7 %16",
"%define %%ptr_offset %17",
"",
"; Expected output data",
";",
"; r0 = {e3 e2 e1 e0  a3 a2 a1 a0}",
"; r1 = {f3 f2 f1 f0  b3 b2 b1 b0}",
"; r2 = {g3 g2 g1 g0  c3 c2 c1 c0}",
"; r3 = {h3 h2 h1 h0  d3 d2 d1 d0}",
"; r4 = {e7 e6 e5 e4  a7 a6 a5 a4}",
"; r5 = {f7 f6 f5 f4  b7 b6 b5 b4}",
"; r6 = {g7 g6 g5 g4  c7 c6 c5 c4}",
"; r7 = {h7 h6 h5 h4  d7 d6 d5 d4}",
"",
"\tvmovups\tXWORD(%%r0),[%%addr0+%%ptr_offset]",
"\tvmovups\tXWORD(%%r1),[%%addr1+%%ptr_offset]",
"\tvmovups\tXWORD(%%r2),[%%addr2+%%ptr_offset]",
"\tvmovups\tXWORD(%%r3),[%%addr3+%%ptr_offset]",
"\tvmovups\tXWORD(%%r4),[%%addr0+%%ptr_offset+16]",
"\tvmovups\tXWORD(%%r5),[%%addr1+%%ptr_offset+16]",
"\tvmovups\tXWORD(%%r6),[%%addr2+%%ptr_offset+16]",
"\tvmovups\tXWORD(%%r7),[%%addr3+%%ptr_offset+16]",
"",
"\tvinserti128 %%r0, %%r0, [%%addr4+%%ptr_offset], 0x01",
"\tvinserti128 %%r1, %%r1, [%%addr5+%%ptr_offset], 0x01",
"\tvinserti128 %%r2, %%r2, [%%addr6+%%ptr_offset], 0x01",
"\tvinserti128 %%r3, %%r3, [%%addr7+%%ptr_offset], 0x01",
"\tvinserti128 %%r4, %%r4, [%%addr4+%%ptr_offset+16], 0x01",
"\tvinserti128 %%r5, %%r5, [%%addr5+%%ptr_offset+16], 0x01",
"\tvinserti128 %%r6, %%r6, [%%addr6+%%ptr_offset+16], 0x01",
"\tvinserti128 %%r7, %%r7, [%%addr7+%%ptr_offset+16], 0x01",
"",
"%endmacro",
"",
"; 8x8 32-BIT TRANSPOSE",
";",
"; Before calling this macro, TRANSPOSE8_U32_LOAD8 must be called.",
";",
"; r0-r3          [in/out]    ymm registers containing bytes 0-15 of each 32B block (e.g. ymm0 = [e3-e0 a3-a0])",
"; r4-r7          [in/out]    ymm registers containing bytes 16-31 of each 32B block (e.g. ymm4 = [e4-e7 a4-a7])",
"; t0-t1          [clobbered] ymm temporary registers",
"%macro TRANSPOSE8_U32_PRELOADED 10",
"%define %%r0 %1",
"%define %%r1 %2",
"%define %%r2 %3",
"%define %%r3 %4",
"%define %%r4 %5",
"%define %%r5 %6",
"%define %%r6 %7",
"%define %%r7 %8",
"%define %%t0 %9",
"%define %%t1 %10",
"; Input looks like: {r0 r1 r2 r3 r4 r5 r6 r7}",
"; r0 = {e3 e2 e1 e0   a3 a2 a1 a0}",
"; r1 = {f3 f2 f1 f0   b3 b2 b1 b0}",
"; r2 = {g3 g2 g1 g0   c3 c2 c1 c0}",
"; r3 = {h3 h2 h1 h0   d3 d2 d1 d0}",
"; r4 = {e7 e6 e5 e4   a7 a6 a5 a4}",
"; r5 = {f7 f6 f5 f4   b7 b6 b5 b4}",
"; r6 = {g7 g6 g5 g4   c7 c6 c5 c4}",
"; r7 = {h7 h6 h5 h4   d7 d6 d5 d4}",
";",
"; Output looks like: {r0 r1 r2 r3 r4 r5 r6 r7}",
"; r0 = {h0 g0 f0 e0   d0 c0 b0 a0}",
"; r1 = {h1 g1 f1 e1   d1 c1 b1 a1}",
"; r2 = {h2 g2 f2 e2   d2 c2 b2 a2}",
"; r3 = {h3 g3 f3 e3   d3 c3 b3 a3}",
"; r4 = {h4 g4 f4 e4   d4 c4 b4 a4}",
"; r5 = {h5 g5 f5 e5   d5 c5 b5 a5}",
"; r6 = {h6 g6 f6 e6   d6 c6 b6 a6}",
"; r7 = {h7 g7 f7 e7   d7 c7 b7 a7}",
";",
"\t; process top half (r0..r3)",
"\tvshufps\t%%t0, %%r0, %%r1, 0x44\t; t0 = {f1 f0 e1 e0   b1 b0 a1 a0}",
"\tvshufps\t%%r0, %%r0, %%r1, 0xEE\t; r0 = {f3 f2 e3 e2   b3 b2 a3 a2}",
"\tvshufps %%t1, %%r2, %%r3, 0x44\t; t1 = {h1 h0 g1 g0   d1 d0 c1 c0}",
"\tvshufps\t%%r2, %%r2, %%r3, 0xEE\t; r2 = {h3 h2 g3 g2   d3 d2 c3 c2}",
"",
"\tvshufps\t%%r1, %%t0, %%t1, 0xDD\t; r1 = {h1 g1 f1 e1   d1 c1 b1 a1}",
"\tvshufps\t%%r3, %%r0, %%r2, 0xDD\t; r3 = {h3 g3 f3 e3   d3 c3 b3 a3}",
"\tvshufps\t%%r2, %%r0, %%r2, 0x88\t; r2 = {h2 g2 f2 e2   d2 c2 b2 a2}",
"\tvshufps\t%%r0, %%t0, %%t1, 0x88\t; r0 = {h0 g0 f0 e0   d0 c0 b0 a0}",
"",
"\t;; process bottom half (r4..r7)",
"\tvshufps\t%%t0, %%r4, %%r5, 0x44\t; t0 = {f5 f4 e5 e4   b5 b4 a5 a4}",
"\tvshufps\t%%r4, %%r4, %%r5, 0xEE\t; r4 = {f7 f6 e7 e6   b7 b6 a7 a6}",
"\tvshufps %%t1, %%r6, %%r7, 0x44\t; t1 = {h5 h4 g5 g4   d5 d4 c5 c4}",
"\tvshufps\t%%r6, %%r6, %%r7, 0xEE\t; r6 = {h7 h6 g7 g6   d7 d6 c7 c6}",
"",
"\tvshufps\t%%r5, %%t0, %%t1, 0xDD\t; r5 = {h5 g5 f5 e5   d5 c5 b5 a5}",
"\tvshufps\t%%r7, %%r4, %%r6, 0xDD\t; r7 = {h7 g7 f7 e7   d7 c7 b7 a7}",
"\tvshufps\t%%r6, %%r4, %%r6, 0x88\t; r6 = {h6 g6 f6 e6   d6 c6 b6 a6}",
"\tvshufps\t%%r4, %%t0, %%t1, 0x88\t; r4 = {h4 g4 f4 e4   d4 c4 b4 a4}",
"%endmacro",
"",
"%macro TRANSPOSE8_U32 10",
"%define %%r0 %1",
"%define %%r1 %2",
"%define %%r2 %3",
"%define %%r3 %4",
"%define %%r4 %5",
"%define %%r5 %6",
"%define %%r6 %7",
"%define %%r7 %8",
"%define %%t0 %9",
"%define %%t1 %10",
"       ; process top half (r0..r3) {a...d}",
"       vshufps %%t0, %%r0, %%r1, 0x44  ; t0 = {b5 b4 a5 a4   b1 b0 a1 a0}",
"       vshufps %%r0, %%r0, %%r1, 0xEE  ; r0 = {b7 b6 a7 a6   b3 b2 a3 a2}",
"       vshufps %%t1, %%r2, %%r3, 0x44  ; t1 = {d5 d4 c5 c4   d1 d0 c1 c0}",
"       vshufps %%r2, %%r2, %%r3, 0xEE  ; r2 = {d7 d6 c7 c6   d3 d2 c3 c2}",
"       vshufps %%r3, %%t0, %%t1, 0xDD  ; r3 = {d5 c5 b5 a5   d1 c1 b1 a1}",
"       vshufps %%r1, %%r0, %%r2, 0x88  ; r1 = {d6 c6 b6 a6   d2 c2 b2 a2}",
"       vshufps %%r0, %%r0, %%r2, 0xDD  ; r0 = {d7 c7 b7 a7   d3 c3 b3 a3}",
"       vshufps %%t0, %%t0, %%t1, 0x88  ; t0 = {d4 c4 b4 a4   d0 c0 b0 a0}",
"",
"       ; use r2 in place of t0",
"       ; process bottom half (r4..r7) {e...h}",
"       vshufps %%r2, %%r4, %%r5, 0x44  ; r2 = {f5 f4 e5 e4   f1 f0 e1 e0}",
"       vshufps %%r4, %%r4, %%r5, 0xEE  ; r4 = {f7 f6 e7 e6   f3 f2 e3 e2}",
"       vshufps %%t1, %%r6, %%r7, 0x44  ; t1 = {h5 h4 g5 g4   h1 h0 g1 g0}",
"       vshufps %%r6, %%r6, %%r7, 0xEE  ; r6 = {h7 h6 g7 g6   h3 h2 g3 g2}",
"       vshufps %%r7, %%r2, %%t1, 0xDD  ; r7 = {h5 g5 f5 e5   h1 g1 f1 e1}",
"       vshufps %%r5, %%r4, %%r6, 0x88  ; r5 = {h6 g6 f6 e6   h2 g2 f2 e2}",
"       vshufps %%r4, %%r4, %%r6, 0xDD  ; r4 = {h7 g7 f7 e7   h3 g3 f3 e3}",
"       vshufps %%t1, %%r2, %%t1, 0x88  ; t1 = {h4 g4 f4 e4   h0 g0 f0 e0}",
"",
"",
"       vperm2f128      %%r6, %%r5, %%r1, 0x13  ; h6...a6",
"       vperm2f128      %%r2, %%r5, %%r1, 0x02  ; h2...a2",
"       vperm2f128      %%r5, %%r7, %%r3, 0x13  ; h5...a5",
"       vperm2f128      %%r1, %%r7, %%r3, 0x02  ; h1...a1",
"       vperm2f128      %%r7, %%r4, %%r0, 0x13  ; h7...a7",
"       vperm2f128      %%r3, %%r4, %%r0, 0x02  ; h3...a3",
"       vperm2f128      %%r4, %%t1, %%t0, 0x13  ; h4...a4",
"       vperm2f128      %%r0, %%t1, %%t0, 0x02  ; h0...a0",
"%endmacro",
"",
"%endif ;; _TRANSPOSE_AVX2_ASM_"]

/-- The lines of ssz/sha256_avx_one_block.asm:1-646. -/
def oneBlock : List String := [
";;",
";; Copyright (c) 2012-2021, Intel Corporation",
";;",
";; Redistribution and use in source and binary forms, with or without",
";; modification, are permitted provided that the following conditions are met:",
";;",
";;     * Redistributions of source code must retain the above copyright notice,",
";;       this list of conditions and the following disclaimer.",
";;     * Redistributions in binary form must reproduce the above copyright",
";;       notice, this list of conditions and the following disclaimer in the",
";;       documentation and/or other materials provided with the distribution.",
";;     * Neither the name of Intel Corporation nor the names of its contributors",
";;       may be used to endorse or promote products derived from this software",
";;       without specific prior written permission.",
";;",
";; THIS SOFTWARE IS PROVIDED BY THE COPYRIGHT HOLDERS AND CONTRIBUTORS \"AS IS\"",
";; AND ANY EXPRESS OR IMPLIED WARRANTIES, INCLUDING, BUT NOT LIMITED TO, THE",
";; IMPLIED WARRANTIES OF MERCHANTABILITY AND FITNESS FOR A PARTICULAR PURPOSE ARE",
";; DISCLAIMED. IN NO EVENT SHALL THE COPYRIGHT OWNER OR CONTRIBUTORS BE LIABLE",
";; FOR ANY DIRECT, INDIRECT, INCIDENTAL, SPECIAL, EXEMPLARY, OR CONSEQUENTIAL",
";; DAMAGES (INCLUDING, BUT NOT LIMITED TO, PROCUREMENT OF SUBSTITUTE GOODS OR",
";; SERVICES; LOSS OF USE, DATA, OR PROFITS; OR BUSINESS INTERRUPTION) HOWEVER",
";; CAUSED AND ON ANY THEORY OF LIABILITY, WHETHER IN CONTRACT, STRICT LIABILITY,",
";; OR TORT (INCLUDING NEGLIGENCE OR OTHERWISE) ARISING IN ANY WAY OUT OF THE USE",
";; OF THIS SOFTWARE, EVEN IF ADVISED OF THE POSSIBILITY OF SUCH DAMAGE.",
";;",
"",
"; This code schedules 1 blocks at a time, with 4 lanes per block",
";;;;;;;;;;;;;;;;;;;;;;;;;;;;;;;;;;;;;;;;;;;;;;;;;;;;;;;;;;;;;;;;;;;;;;;;",
"section .data",
"default rel",
"align 64",
"K256:",
"\tdd\t0x428a2f98,0x71374491,0xb5c0fbcf,0xe9b5dba5",
"\tdd\t0x3956c25b,0x59f111f1,0x923f82a4,0xab1c5ed5",
"\tdd\t0xd807aa98,0x12835b01,0x243185be,0x550c7dc3",
"\tdd\t0x72be5d74,0x80deb1fe,0x9bdc06a7,0xc19bf174",
"\tdd\t0xe49b69c1,0xefbe4786,0x0fc19dc6,0x240ca1cc",
"\tdd\t0x2de92c6f,0x4a7484aa,0x5cb0a9dc,0x76f988da",
"\tdd\t0x983e5152,0xa831c66d,0xb00327c8,0xbf597fc7",
"\tdd\t0xc6e00bf3,0xd5a79147,0x06ca6351,0x14292967",
"\tdd\t0x27b70a85,0x2e1b2138,0x4d2c6dfc,0x53380d13",
"\tdd\t0x650a7354,0x766a0abb,0x81c2c92e,0x92722c85",
"\tdd\t0xa2bfe8a1,0xa81a664b,0xc24b8b70,0xc76c51a3",
"\tdd\t0xd192e819,0xd6990624,0xf40e3585,0x106aa070",
"\tdd\t0x19a4c116,0x1e376c08,0x2748774c,0x34b0bcb5",
"\tdd\t0x391c0cb3,0x4ed8aa4a,0x5b9cca4f,0x682e6ff3",
"\tdd\t0x748f82ee,0x78a5636f,0x84c87814,0x8cc70208",
"\tdd\t0x90befffa,0xa4506ceb,0xbef9a3f7,0xc67178f2",
"",
"DIGEST:",
"        dd      0x6a09e667, 0xbb67ae85, 0x3c6ef372, 0xa54ff53a, ",
"\tdd\t0x510e527f, 0x9b05688c, 0x1f83d9ab, 0x5be0cd19",
"",
"PADDING:",
"        dd      0xc28a2f98, 0x71374491, 0xb5c0fbcf, 0xe9b5dba5",
"        dd      0x3956c25b, 0x59f111f1, 0x923f82a4, 0xab1c5ed5",
"        dd      0xd807aa98, 0x12835b01, 0x243185be, 0x550c7dc3",
"        dd      0x72be5d74, 0x80deb1fe, 0x9bdc06a7, 0xc19bf374",
"        dd      0x649b69c1, 0xf0fe4786, 0xfe1edc6, 0x240cf254",
"        dd      0x4fe9346f, 0x6cc984be, 0x61b9411e, 0x16f988fa",
"        dd      0xf2c65152, 0xa88e5a6d, 0xb019fc65, 0xb9d99ec7",
"        dd      0x9a1231c3, 0xe70eeaa0, 0xfdb1232b, 0xc7353eb0",
"        dd      0x3069bad5, 0xcb976d5f, 0x5a0f118f, 0xdc1eeefd",
"        dd      0xa35b689, 0xde0b7a04, 0x58f4ca9d, 0xe15d5b16",
"        dd      0x7f3e86, 0x37088980, 0xa507ea32, 0x6fab9537",
"        dd      0x17406110, 0xd8cd6f1, 0xcdaa3b6d, 0xc0bbbe37",
"        dd      0x83613bda, 0xdb48a363, 0xb02e931, 0x6fd15ca7",
"        dd      0x521afaca, 0x31338431, 0x6ed41a95, 0x6d437890",
"        dd      0xc39c91f2, 0x9eccabbd, 0xb5c9a0e6, 0x532fb63c",
"        dd      0xd2c741c6, 0x7237ea3, 0xa4954b68, 0x4c191d76",
"",
"",
"PSHUFFLE_BYTE_FLIP_MASK: ;ddq 0x0c0d0e0f08090a0b0405060700010203",
"\tdq 0x0405060700010203, 0x0c0d0e0f08090a0b",
"",
"; shuffle xBxA -> 00BA",
"_SHUF_00BA:              ;ddq 0xFFFFFFFFFFFFFFFF0b0a090803020100",
"\tdq 0x0b0a090803020100, 0xFFFFFFFFFFFFFFFF",
"",
"; shuffle xDxC -> DC00",
"_SHUF_DC00:              ;ddq 0x0b0a090803020100FFFFFFFFFFFFFFFF",
"\tdq 0xFFFFFFFFFFFFFFFF, 0x0b0a090803020100",
"",
"section .text",
"",
"%define\tVMOVDQ vmovdqu ;; assume buffers not aligned",
"",
";;;;;;;;;;;;;;;;;;;;;;;;;;;;;;;; Define Macros",
"",
"%macro MY_ROR 2",
"\tshld\t%1,%1,(32-(%2))",
"%endm",
"",
"; COPY_XMM_AND_BSWAP xmm, [mem], byte_flip_mask",
"; Load xmm with mem and byte swap each dword",
"%macro COPY_XMM_AND_BSWAP 3",
"\tVMOVDQ %1, %2",
"\tvpshufb %1, %1, %3",
"%endmacro",
"",
";;;;;;;;;;;;;;;;;;;;;;;;;;;;;;;;",
"",
"%define X0 xmm4",
"%define X1 xmm5",
"%define X2 xmm6",
"%define X3 xmm7",
"",
"%define XTMP0 xmm0",
"%define XTMP1 xmm1",
"%define XTMP2 xmm2",
"%define XTMP3 xmm3",
"%define XTMP4 xmm8",
"%define XFER  xmm9",
"%define XTMP5 xmm11",
"",
"%define SHUF_00BA\txmm10 ; shuffle xBxA -> 00BA",
"%define SHUF_DC00\txmm12 ; shuffle xDxC -> DC00",
"%define BYTE_FLIP_MASK\txmm13",
"",
"%ifdef WINABI",
"\t%define OUTPUT_PTR\trcx \t; 1st arg",
"\t%define DATA_PTR\trdx \t; 2nd arg",
"\t%define d        \tr8d     ; 3rd",
"\t%define TBL \t\trsi",
"        %define c               edi",
"%else",
"\t%define OUTPUT_PTR\trdi\t; 1st arg",
"\t%define DATA_PTR\trsi\t; 2nd arg",
"\t%define c               edx\t; 3rd arg",
"\t%define TBL \t\trcx",
"        %define d               r8d     ",
"%endif",
"",
"",
"%define a eax",
"%define b ebx",
"",
"%define e r9d",
"%define f r10d",
"%define g r11d",
"%define h r12d",
"",
"%define y0 r13d",
"%define y1 r14d",
"%define y2 r15d",
"",
"",
"struc STACK",
"_XFER:\t\tresb\t32",
"_DIGEST:         resb   32",
"%ifdef WINABI",
"_XMM_SAVE:\treso\t8",
"                resb    16 ; alignment",
"%endif",
"endstruc",
"",
"; rotate_Xs",
"; Rotate values of symbols X0...X3",
"%macro rotate_Xs 0",
"%xdefine X_ X0",
"%xdefine X0 X1",
"%xdefine X1 X2",
"%xdefine X2 X3",
"%xdefine X3 X_",
"%endm",
"",
"; ROTATE_ARGS",
"; Rotate values of symbols a...h",
"%macro ROTATE_ARGS 0",
"%xdefine TMP_ h",
"%xdefine h g",
"%xdefine g f",
"%xdefine f e",
"%xdefine e d",
"%xdefine d c",
"%xdefine c b",
"%xdefine b a",
"%xdefine a TMP_",
"%endm",
"",
"%macro FOUR_ROUNDS_AND_SCHED 0",
"\t\t;; compute s0 four at a time and s1 two at a time",
"\t\t;; compute W[-16] + W[-7] 4 at a time",
"\t\t;vmovdqa\tXTMP0, X3",
"\tmov\ty0, e\t\t; y0 = e",
"\tMY_ROR\ty0, (25-11)\t; y0 = e >> (25-11)",
"\tmov\ty1, a\t\t; y1 = a",
"\t\tvpalignr\tXTMP0, X3, X2, 4\t; XTMP0 = W[-7]",
"\tMY_ROR\ty1, (22-13)\t; y1 = a >> (22-13)",
"\txor\ty0, e\t\t; y0 = e ^ (e >> (25-11))",
"\tmov\ty2, f\t\t; y2 = f",
"\tMY_ROR\ty0, (11-6)\t; y0 = (e >> (11-6)) ^ (e >> (25-6))",
"\t\t;vmovdqa\tXTMP1, X1",
"\txor\ty1, a\t\t; y1 = a ^ (a >> (22-13)",
"\txor\ty2, g\t\t; y2 = f^g",
"\t\tvpaddd\tXTMP0, XTMP0, X0\t; XTMP0 = W[-7] + W[-16]",
"\txor\ty0, e\t\t; y0 = e ^ (e >> (11-6)) ^ (e >> (25-6))",
"\tand\ty2, e\t\t; y2 = (f^g)&e",
"\tMY_ROR\ty1, (13-2)\t; y1 = (a >> (13-2)) ^ (a >> (22-2))",
"\t\t;; compute s0",
"\t\tvpalignr\tXTMP1, X1, X0, 4\t; XTMP1 = W[-15]",
"\txor\ty1, a\t\t; y1 = a ^ (a >> (13-2)) ^ (a >> (22-2))",
"\tMY_ROR\ty0, 6\t\t; y0 = S1 = (e>>6) & (e>>11) ^ (e>>25)",
"\txor\ty2, g\t\t; y2 = CH = ((f^g)&e)^g",
"",
"\tMY_ROR\ty1, 2\t\t; y1 = S0 = (a>>2) ^ (a>>13) ^ (a>>22)",
"\tadd\ty2, y0\t\t; y2 = S1 + CH",
"\tadd\ty2, [rsp + _XFER + 0*4]\t; y2 = k + w + S1 + CH",
"",
"\tmov\ty0, a\t\t; y0 = a",
"\tadd\th, y2\t\t; h = h + S1 + CH + k + w",
"\tmov\ty2, a\t\t; y2 = a",
"",
"\t\tvpsrld\tXTMP2, XTMP1, 7",
"",
"\tor\ty0, c\t\t; y0 = a|c",
"\tadd\td, h\t\t; d = d + h + S1 + CH + k + w",
"\tand\ty2, c\t\t; y2 = a&c",
"",
"\t\tvpslld\tXTMP3, XTMP1, (32-7)",
"",
"\tand\ty0, b\t\t; y0 = (a|c)&b",
"\tadd\th, y1\t\t; h = h + S1 + CH + k + w + S0",
"",
"\t\tvpor\tXTMP3, XTMP3, XTMP2\t; XTMP1 = W[-15] MY_ROR 7",
"",
"\tor\ty0, y2\t\t; y0 = MAJ = (a|c)&b)|(a&c)",
"\tadd\th, y0\t\t; h = h + S1 + CH + k + w + S0 + MAJ",
"",
"ROTATE_ARGS",
"",
"\tmov\ty0, e\t\t; y0 = e",
"\tmov\ty1, a\t\t; y1 = a",
"",
"",
"\tMY_ROR\ty0, (25-11)\t; y0 = e >> (25-11)",
"\txor\ty0, e\t\t; y0 = e ^ (e >> (25-11))",
"\tmov\ty2, f\t\t; y2 = f",
"\tMY_ROR\ty1, (22-13)\t; y1 = a >> (22-13)",
"",
"\t\tvpsrld\tXTMP2, XTMP1,18",
"",
"\txor\ty1, a\t\t; y1 = a ^ (a >> (22-13)",
"\tMY_ROR\ty0, (11-6)\t; y0 = (e >> (11-6)) ^ (e >> (25-6))",
"\txor\ty2, g\t\t; y2 = f^g",
"",
"\t\tvpsrld\tXTMP4, XTMP1, 3\t; XTMP4 = W[-15] >> 3",
"",
"\tMY_ROR\ty1, (13-2)\t; y1 = (a >> (13-2)) ^ (a >> (22-2))",
"\txor\ty0, e\t\t; y0 = e ^ (e >> (11-6)) ^ (e >> (25-6))",
"\tand\ty2, e\t\t; y2 = (f^g)&e",
"\tMY_ROR\ty0, 6\t\t; y0 = S1 = (e>>6) & (e>>11) ^ (e>>25)",
"",
"\t\tvpslld\tXTMP1, XTMP1, (32-18)",
"",
"\txor\ty1, a\t\t; y1 = a ^ (a >> (13-2)) ^ (a >> (22-2))",
"\txor\ty2, g\t\t; y2 = CH = ((f^g)&e)^g",
"",
"\t\tvpxor\tXTMP3, XTMP3, XTMP1",
"",
"\tadd\ty2, y0\t\t; y2 = S1 + CH",
"\tadd\ty2, [rsp + _XFER + 1*4]\t; y2 = k + w + S1 + CH",
"\tMY_ROR\ty1, 2\t\t; y1 = S0 = (a>>2) ^ (a>>13) ^ (a>>22)",
"",
"\t\tvpxor\tXTMP3, XTMP3, XTMP2\t; XTMP1 = W[-15] MY_ROR 7 ^ W[-15] MY_ROR 18",
"",
"\tmov\ty0, a\t\t; y0 = a",
"\tadd\th, y2\t\t; h = h + S1 + CH + k + w",
"\tmov\ty2, a\t\t; y2 = a",
"",
"\t\tvpxor\tXTMP1, XTMP3, XTMP4\t; XTMP1 = s0",
"",
"\tor\ty0, c\t\t; y0 = a|c",
"\tadd\td, h\t\t; d = d + h + S1 + CH + k + w",
"\tand\ty2, c\t\t; y2 = a&c",
"\t\t;; compute low s1",
"\t\tvpshufd\tXTMP2, X3, 11111010b\t; XTMP2 = W[-2] {BBAA}",
"\tand\ty0, b\t\t; y0 = (a|c)&b",
"\tadd\th, y1\t\t; h = h + S1 + CH + k + w + S0",
"\t\tvpaddd\tXTMP0, XTMP0, XTMP1\t; XTMP0 = W[-16] + W[-7] + s0",
"\tor\ty0, y2\t\t; y0 = MAJ = (a|c)&b)|(a&c)",
"\tadd\th, y0\t\t; h = h + S1 + CH + k + w + S0 + MAJ",
"",
"ROTATE_ARGS",
"\t\t;vmovdqa\tXTMP3, XTMP2\t; XTMP3 = W[-2] {BBAA}",
"",
"\tmov\ty0, e\t\t; y0 = e",
"\tmov\ty1, a\t\t; y1 = a",
"\tMY_ROR\ty0, (25-11)\t; y0 = e >> (25-11)",
"",
"\t\t;vmovdqa\tXTMP4, XTMP2\t; XTMP4 = W[-2] {BBAA}",
"",
"\txor\ty0, e\t\t; y0 = e ^ (e >> (25-11))",
"\tMY_ROR\ty1, (22-13)\t; y1 = a >> (22-13)",
"\tmov\ty2, f\t\t; y2 = f",
"\txor\ty1, a\t\t; y1 = a ^ (a >> (22-13)",
"\tMY_ROR\ty0, (11-6)\t; y0 = (e >> (11-6)) ^ (e >> (25-6))",
"",
"\t\tvpsrld\tXTMP4, XTMP2, 10\t; XTMP4 = W[-2] >> 10 {BBAA}",
"",
"\txor\ty2, g\t\t; y2 = f^g",
"",
"\t\tvpsrlq\tXTMP3, XTMP2, 19\t; XTMP3 = W[-2] MY_ROR 19 {xBxA}",
"",
"\txor\ty0, e\t\t; y0 = e ^ (e >> (11-6)) ^ (e >> (25-6))",
"\tand\ty2, e\t\t; y2 = (f^g)&e",
"",
"\t\tvpsrlq\tXTMP2, XTMP2, 17\t; XTMP2 = W[-2] MY_ROR 17 {xBxA}",
"",
"\tMY_ROR\ty1, (13-2)\t; y1 = (a >> (13-2)) ^ (a >> (22-2))",
"\txor\ty1, a\t\t; y1 = a ^ (a >> (13-2)) ^ (a >> (22-2))",
"\txor\ty2, g\t\t; y2 = CH = ((f^g)&e)^g",
"\tMY_ROR\ty0, 6\t\t; y0 = S1 = (e>>6) & (e>>11) ^ (e>>25)",
"\t\tvpxor\tXTMP2, XTMP2, XTMP3",
"\tadd\ty2, y0\t\t; y2 = S1 + CH",
"\tMY_ROR\ty1, 2\t\t; y1 = S0 = (a>>2) ^ (a>>13) ^ (a>>22)",
"\tadd\ty2, [rsp + _XFER + 2*4]\t; y2 = k + w + S1 + CH",
"\t\tvpxor\tXTMP4, XTMP4, XTMP2\t; XTMP4 = s1 {xBxA}",
"\tmov\ty0, a\t\t; y0 = a",
"\tadd\th, y2\t\t; h = h + S1 + CH + k + w",
"\tmov\ty2, a\t\t; y2 = a",
"\t\tvpshufb\tXTMP4, XTMP4, SHUF_00BA\t; XTMP4 = s1 {00BA}",
"\tor\ty0, c\t\t; y0 = a|c",
"\tadd\td, h\t\t; d = d + h + S1 + CH + k + w",
"\tand\ty2, c\t\t; y2 = a&c",
"\t\tvpaddd\tXTMP0, XTMP0, XTMP4\t; XTMP0 = {..., ..., W[1], W[0]}",
"\tand\ty0, b\t\t; y0 = (a|c)&b",
"\tadd\th, y1\t\t; h = h + S1 + CH + k + w + S0",
"\t\t;; compute high s1",
"\t\tvpshufd\tXTMP2, XTMP0, 01010000b\t; XTMP2 = W[-2] {DDCC}",
"\tor\ty0, y2\t\t; y0 = MAJ = (a|c)&b)|(a&c)",
"\tadd\th, y0\t\t; h = h + S1 + CH + k + w + S0 + MAJ",
"",
"ROTATE_ARGS",
"\t\t;vmovdqa\tXTMP3, XTMP2\t; XTMP3 = W[-2] {DDCC}",
"\tmov\ty0, e\t\t; y0 = e",
"\tMY_ROR\ty0, (25-11)\t; y0 = e >> (25-11)",
"\tmov\ty1, a\t\t; y1 = a",
"\t\t;vmovdqa\tXTMP5,    XTMP2\t; XTMP5    = W[-2] {DDCC}",
"\tMY_ROR\ty1, (22-13)\t; y1 = a >> (22-13)",
"\txor\ty0, e\t\t; y0 = e ^ (e >> (25-11))",
"\tmov\ty2, f\t\t; y2 = f",
"\tMY_ROR\ty0, (11-6)\t; y0 = (e >> (11-6)) ^ (e >> (25-6))",
"",
"\t\tvpsrld\tXTMP5, XTMP2,   10\t; XTMP5 = W[-2] >> 10 {DDCC}",
"",
"\txor\ty1, a\t\t; y1 = a ^ (a >> (22-13)",
"\txor\ty2, g\t\t; y2 = f^g",
"",
"\t\tvpsrlq\tXTMP3, XTMP2, 19\t; XTMP3 = W[-2] MY_ROR 19 {xDxC}",
"",
"\txor\ty0, e\t\t; y0 = e ^ (e >> (11-6)) ^ (e >> (25-6))",
"\tand\ty2, e\t\t; y2 = (f^g)&e",
"\tMY_ROR\ty1, (13-2)\t; y1 = (a >> (13-2)) ^ (a >> (22-2))",
"",
"\t\tvpsrlq\tXTMP2, XTMP2, 17\t; XTMP2 = W[-2] MY_ROR 17 {xDxC}",
"",
"\txor\ty1, a\t\t; y1 = a ^ (a >> (13-2)) ^ (a >> (22-2))",
"\tMY_ROR\ty0, 6\t\t; y0 = S1 = (e>>6) & (e>>11) ^ (e>>25)",
"\txor\ty2, g\t\t; y2 = CH = ((f^g)&e)^g",
"",
"\t\tvpxor\tXTMP2, XTMP2, XTMP3",
"",
"\tMY_ROR\ty1, 2\t\t; y1 = S0 = (a>>2) ^ (a>>13) ^ (a>>22)",
"\tadd\ty2, y0\t\t; y2 = S1 + CH",
"\tadd\ty2, [rsp + _XFER + 3*4]\t; y2 = k + w + S1 + CH",
"\t\tvpxor\tXTMP5, XTMP5, XTMP2\t; XTMP5 = s1 {xDxC}",
"\tmov\ty0, a\t\t; y0 = a",
"\tadd\th, y2\t\t; h = h + S1 + CH + k + w",
"\tmov\ty2, a\t\t; y2 = a",
"\t\tvpshufb\tXTMP5, XTMP5, SHUF_DC00\t; XTMP5 = s1 {DC00}",
"\tor\ty0, c\t\t; y0 = a|c",
"\tadd\td, h\t\t; d = d + h + S1 + CH + k + w",
"\tand\ty2, c\t\t; y2 = a&c",
"\t\tvpaddd\tX0, XTMP5, XTMP0\t; X0 = {W[3], W[2], W[1], W[0]}",
"\tand\ty0, b\t\t; y0 = (a|c)&b",
"\tadd\th, y1\t\t; h = h + S1 + CH + k + w + S0",
"\tor\ty0, y2\t\t; y0 = MAJ = (a|c)&b)|(a&c)",
"\tadd\th, y0\t\t; h = h + S1 + CH + k + w + S0 + MAJ",
"",
"ROTATE_ARGS",
"rotate_Xs",
"%endm",
"",
";; input is [rsp + _XFER + %1 * 4]",
"%macro DO_ROUND 1",
"\tmov\ty0, e\t\t; y0 = e",
"\tMY_ROR\ty0, (25-11)\t; y0 = e >> (25-11)",
"\tmov\ty1, a\t\t; y1 = a",
"\txor\ty0, e\t\t; y0 = e ^ (e >> (25-11))",
"\tMY_ROR\ty1, (22-13)\t; y1 = a >> (22-13)",
"\tmov\ty2, f\t\t; y2 = f",
"\txor\ty1, a\t\t; y1 = a ^ (a >> (22-13)",
"\tMY_ROR\ty0, (11-6)\t; y0 = (e >> (11-6)) ^ (e >> (25-6))",
"\txor\ty2, g\t\t; y2 = f^g",
"\txor\ty0, e\t\t; y0 = e ^ (e >> (11-6)) ^ (e >> (25-6))",
"\tMY_ROR\ty1, (13-2)\t; y1 = (a >> (13-2)) ^ (a >> (22-2))",
"\tand\ty2, e\t\t; y2 = (f^g)&e",
"\txor\ty1, a\t\t; y1 = a ^ (a >> (13-2)) ^ (a >> (22-2))",
"\tMY_ROR\ty0, 6\t\t; y0 = S1 = (e>>6) & (e>>11) ^ (e>>25)",
"\txor\ty2, g\t\t; y2 = CH = ((f^g)&e)^g",
"\tadd\ty2, y0\t\t; y2 = S1 + CH",
"\tMY_ROR\ty1, 2\t\t; y1 = S0 = (a>>2) ^ (a>>13) ^ (a>>22)",
"\tadd\ty2, [rsp + _XFER + %1 * 4]\t; y2 = k + w + S1 + CH",
"\tmov\ty0, a\t\t; y0 = a",
"\tadd\th, y2\t\t; h = h + S1 + CH + k + w",
"\tmov\ty2, a\t\t; y2 = a",
"\tor\ty0, c\t\t; y0 = a|c",
"\tadd\td, h\t\t; d = d + h + S1 + CH + k + w",
"\tand\ty2, c\t\t; y2 = a&c",
"\tand\ty0, b\t\t; y0 = (a|c)&b",
"\tadd\th, y1\t\t; h = h + S1 + CH + k + w + S0",
"\tor\ty0, y2\t\t; y0 = MAJ = (a|c)&b)|(a&c)",
"\tadd\th, y0\t\t; h = h + S1 + CH + k + w + S0 + MAJ",
"\tROTATE_ARGS",
"%endm",
"",
"",
"",
";;;;;;;;;;;;;;;;;;;;;;;;;;;;;;;;;;;;;;;;;;;;;;;;;;;;;;;;;;;;;;;;;;;;;;;;",
";;;;;;;;;;;;;;;;;;;;;;;;;;;;;;;;;;;;;;;;;;;;;;;;;;;;;;;;;;;;;;;;;;;;;;;;",
";; void FUNC(void *input_data, UINT32 digest[8], UINT64 num_blks)",
";; arg 1 : pointer to input data",
";; arg 2 : pointer to digest",
"section .text",
"global sha256_1_avx:function",
"align 32",
"sha256_1_avx:",
"        endbranch64",
"\tpush\trbx",
"%ifdef WINABI",
"        push    r8",
"\tpush\trsi",
"\tpush\trdi",
"%else",
"        push    rdx",
"%endif",
"\tpush\trbp",
"        push    r12",
"\tpush\tr13",
"\tpush\tr14",
"\tpush\tr15",
"",
"\tsub\trsp,STACK_size",
"%ifdef WINABI",
"\tvmovdqa\t[rsp + _XMM_SAVE + 0*16],xmm6",
"\tvmovdqa\t[rsp + _XMM_SAVE + 1*16],xmm7",
"\tvmovdqa\t[rsp + _XMM_SAVE + 2*16],xmm8",
"\tvmovdqa\t[rsp + _XMM_SAVE + 3*16],xmm9",
"\tvmovdqa\t[rsp + _XMM_SAVE + 4*16],xmm10",
"\tvmovdqa\t[rsp + _XMM_SAVE + 5*16],xmm11",
"\tvmovdqa\t[rsp + _XMM_SAVE + 6*16],xmm12",
"\tvmovdqa\t[rsp + _XMM_SAVE + 7*16],xmm13",
"%endif",
"\tvmovdqa\tBYTE_FLIP_MASK, [rel PSHUFFLE_BYTE_FLIP_MASK]",
"\tvmovdqa\tSHUF_00BA, [rel _SHUF_00BA]",
"\tvmovdqa\tSHUF_DC00, [rel _SHUF_DC00]",
"",
".hash_1_block:",
"\t;; load initial digest",
"\tlea TBL,[rel DIGEST]",
"\tmov\ta, [TBL + 0*4]",
"\tmov\tb, [TBL + 1*4] ",
"\tmov\tc, [TBL + 2*4] ",
"\tmov\td, [TBL + 3*4] ",
"\tmov\te, [TBL + 4*4] ",
"\tmov\tf, [TBL + 5*4] ",
"\tmov\tg, [TBL + 6*4] ",
"\tmov\th, [TBL + 7*4] ",
"",
"\tlea\tTBL,[rel K256]",
"",
"\t;; byte swap first 16 dwords",
"\tCOPY_XMM_AND_BSWAP\tX0, [DATA_PTR + 0*16], BYTE_FLIP_MASK",
"\tCOPY_XMM_AND_BSWAP\tX1, [DATA_PTR + 1*16], BYTE_FLIP_MASK",
"\tCOPY_XMM_AND_BSWAP\tX2, [DATA_PTR + 2*16], BYTE_FLIP_MASK",
"\tCOPY_XMM_AND_BSWAP\tX3, [DATA_PTR + 3*16], BYTE_FLIP_MASK",
"",
"\t;; schedule 48 input dwords, by doing 3 rounds of 16 each",
"%rep 3",
"align 16",
"\tvpaddd\tXFER, X0, [TBL + 0*16]",
"\tvmovdqa\t[rsp + _XFER], XFER",
"\tFOUR_ROUNDS_AND_SCHED",
"",
"\tvpaddd\tXFER, X0, [TBL + 1*16]",
"\tvmovdqa\t[rsp + _XFER], XFER",
"\tFOUR_ROUNDS_AND_SCHED",
"",
"\tvpaddd\tXFER, X0, [TBL + 2*16]",
"\tvmovdqa\t[rsp + _XFER], XFER",
"\tFOUR_ROUNDS_AND_SCHED",
"",
"\tvpaddd\tXFER, X0, [TBL + 3*16]",
"\tvmovdqa\t[rsp + _XFER], XFER",
"\tadd\tTBL, 4*16",
"\tFOUR_ROUNDS_AND_SCHED",
"%endrep",
"",
"%rep 2 ",
"\tvpaddd\tXFER, X0, [TBL + 0*16]",
"\tvmovdqa\t[rsp + _XFER], XFER",
"\tDO_ROUND\t0",
"\tDO_ROUND\t1",
"\tDO_ROUND\t2",
"\tDO_ROUND\t3",
"",
"\tvpaddd\tXFER, X1, [TBL + 1*16]",
"\tvmovdqa\t[rsp + _XFER], XFER",
"\tadd\tTBL, 2*16",
"\tDO_ROUND\t0",
"\tDO_ROUND\t1",
"\tDO_ROUND\t2",
"\tDO_ROUND\t3",
"",
"\tvmovdqa\tX0, X2",
"\tvmovdqa\tX1, X3",
"",
"%endrep",
" ",
"        ; add old digest",
"",
"\tlea TBL,[rel DIGEST]",
"\tadd\ta, [TBL + 0*4]",
"\tadd\tb, [TBL + 1*4]",
"\tadd\tc, [TBL + 2*4]",
"\tadd\td, [TBL + 3*4]",
"\tadd\te, [TBL + 4*4]",
"\tadd\tf, [TBL + 5*4]",
"\tadd\tg, [TBL + 6*4]",
"\tadd\th, [TBL + 7*4]",
"",
"",
"        ; rounds with padding",
"        ",
"        ; save old digest",
"        ;",
"        mov    [rsp + _DIGEST + 0*4], a",
"        mov    [rsp + _DIGEST + 1*4], b",
"        mov    [rsp + _DIGEST + 2*4], c",
"        mov    [rsp + _DIGEST + 3*4], d",
"        mov    [rsp + _DIGEST + 4*4], e",
"        mov    [rsp + _DIGEST + 5*4], f",
"        mov    [rsp + _DIGEST + 6*4], g",
"        mov    [rsp + _DIGEST + 7*4], h",
"       ",
"        lea     TBL,[rel PADDING]",
"       ",
"%assign i 0",
"%rep 64",
"\tmov\ty0, e\t\t; y0 = e",
"\tMY_ROR\ty0, (25-11)\t; y0 = e >> (25-11)",
"\tmov\ty1, a\t\t; y1 = a",
"\txor\ty0, e\t\t; y0 = e ^ (e >> (25-11))",
"\tMY_ROR\ty1, (22-13)\t; y1 = a >> (22-13)",
"\tmov\ty2, f\t\t; y2 = f",
"\txor\ty1, a\t\t; y1 = a ^ (a >> (22-13)",
"\tMY_ROR\ty0, (11-6)\t; y0 = (e >> (11-6)) ^ (e >> (25-6))",
"\txor\ty2, g\t\t; y2 = f^g",
"\txor\ty0, e\t\t; y0 = e ^ (e >> (11-6)) ^ (e >> (25-6))",
"\tMY_ROR\ty1, (13-2)\t; y1 = (a >> (13-2)) ^ (a >> (22-2))",
"\tand\ty2, e\t\t; y2 = (f^g)&e",
"\txor\ty1, a\t\t; y1 = a ^ (a >> (13-2)) ^ (a >> (22-2))",
"\tMY_ROR\ty0, 6\t\t; y0 = S1 = (e>>6) & (e>>11) ^ (e>>25)",
"\txor\ty2, g\t\t; y2 = CH = ((f^g)&e)^g",
"\tadd\ty2, y0\t\t; y2 = S1 + CH",
"\tMY_ROR\ty1, 2\t\t; y1 = S0 = (a>>2) ^ (a>>13) ^ (a>>22)",
"\tadd\ty2, [TBL + i]\t; y2 = k + w + S1 + CH",
"\tmov\ty0, a\t\t; y0 = a",
"\tadd\th, y2\t\t; h = h + S1 + CH + k + w",
"\tmov\ty2, a\t\t; y2 = a",
"\tor\ty0, c\t\t; y0 = a|c",
"\tadd\td, h\t\t; d = d + h + S1 + CH + k + w",
"\tand\ty2, c\t\t; y2 = a&c",
"\tand\ty0, b\t\t; y0 = (a|c)&b",
"\tadd\th, y1\t\t; h = h + S1 + CH + k + w + S0",
"\tor\ty0, y2\t\t; y0 = MAJ = (a|c)&b)|(a&c)",
"\tadd\th, y0\t\t; h = h + S1 + CH + k + w + S0 + MAJ",
"\tROTATE_ARGS",
"%assign i (i+4)",
"%endrep",
"",
"        ;; add the previous digest",
"        add   a, [rsp + _DIGEST + 0*4]",
"        add   b, [rsp + _DIGEST + 1*4]",
"        add   c, [rsp + _DIGEST + 2*4]",
"        add   d, [rsp + _DIGEST + 3*4]",
"        add   e, [rsp + _DIGEST + 4*4]",
"        add   f, [rsp + _DIGEST + 5*4]",
"        add   g, [rsp + _DIGEST + 6*4]",
"        add   h, [rsp + _DIGEST + 7*4]",
"",
"        ;; shuffle the bytes to little endian",
"        bswap  a",
"        bswap  b",
"        bswap  c",
"        bswap  d",
"        bswap  e",
"        bswap  f",
"        bswap  g",
"        bswap  h",
"",
"        ;; write resulting hash",
"        mov   [OUTPUT_PTR + 0*4], a",
"        mov   [OUTPUT_PTR + 1*4], b",
"        mov   [OUTPUT_PTR + 2*4], c",
"        mov   [OUTPUT_PTR + 3*4], d",
"        mov   [OUTPUT_PTR + 4*4], e",
"        mov   [OUTPUT_PTR + 5*4], f",
"        mov   [OUTPUT_PTR + 6*4], g",
"        mov   [OUTPUT_PTR + 7*4], h",
"",
"%ifdef WINABI",
"\tvmovdqa\txmm6,[rsp + _XMM_SAVE + 0*16]",
"\tvmovdqa\txmm7,[rsp + _XMM_SAVE + 1*16]",
"\tvmovdqa\txmm8,[rsp + _XMM_SAVE + 2*16]",
"\tvmovdqa\txmm9,[rsp + _XMM_SAVE + 3*16]",
"\tvmovdqa\txmm10,[rsp + _XMM_SAVE + 4*16]",
"\tvmovdqa\txmm11,[rsp + _XMM_SAVE + 5*16]",
"\tvmovdqa\txmm12,[rsp + _XMM_SAVE + 6*16]",
"\tvmovdqa\txmm13,[rsp + _XMM_SAVE + 7*16]",
"%endif ",
"",
"\tadd\trsp, STACK_size",
"",
"\tpop\tr15",
"\tpop\tr14",
"\tpop\tr13",
"        pop     r12",
"\tpop\trbp",
"%ifdef WINABI",
"\tpop\trdi",
"\tpop\trsi",
"        pop     r8",
"%else",
"        pop     rdx",
"%endif",
"\tpop\trbx",
"",
"\tret",
"",
"",
"%ifdef LINUX",
"section .note.GNU-stack noalloc noexec nowrite progbits",
"%endif"]

/-- The lines of ssz/sha256_avx.asm:1-612. -/
def avx : List String := [
";;  sha256_avx.asm",
"; *",
"; *  This file is part of Mammon.",
"; *  mammon is a greedy and selfish ETH consensus client.",
"; *",
"; *  Copyright (c) 2021 - Reimundo Heluani (potuz) potuz@potuz.net",
"; *",
"; *  This program is free software: you can redistribute it and/or modify",
"; *  it under the terms of the GNU General Public License as published by",
"; *  the Free Software Foundation, either version 3 of the License, or",
"; *  (at your option) any later version.",
"; *",
"; *  This program is distributed in the hope that it will be useful,",
"; *  but WITHOUT ANY WARRANTY; without even the implied warranty of",
"; *  MERCHANTABILITY or FITNESS FOR A PARTICULAR PURPOSE.  See the",
"; *  GNU General Public License for more details.",
"; *",
";  You should have received a copy of the GNU General Public License",
";  along with this program.  If not, see <http://www.gnu.org/licenses/>.",
";",
";  This implementation is a 64 bytes optimized implementation based on Intel's code",
";  whose copyright follows",
";",
";;;;;;;;;;;;;;;;;;;;;;;;;;;;;;;;;;;;;;;;;;;;;;;;;;;;;;;;;;;;;;;;;;;;;;;;;;;;;;;;;",
";;;",
";; Copyright (c) 2012-2021, Intel Corporation",
";;",
";; Redistribution and use in source and binary forms, with or without",
";; modification, are permitted provided that the following conditions are met:",
";;",
";;     * Redistributions of source code must retain the above copyright notice,",
";;       this list of conditions and the following disclaimer.",
";;     * Redistributions in binary form must reproduce the above copyright",
";;       notice, this list of conditions and the following disclaimer in the",
";;       documentation and/or other materials provided with the distribution.",
";;     * Neither the name of Intel Corporation nor the names of its contributors",
";;       may be used to endorse or promote products derived from this software",
";;       without specific prior written permission.",
";;",
";; THIS SOFTWARE IS PROVIDED BY THE COPYRIGHT HOLDERS AND CONTRIBUTORS \"AS IS\"",
";; AND ANY EXPRESS OR IMPLIED WARRANTIES, INCLUDING, BUT NOT LIMITED TO, THE",
";; IMPLIED WARRANTIES OF MERCHANTABILITY AND FITNESS FOR A PARTICULAR PURPOSE ARE",
";; DISCLAIMED. IN NO EVENT SHALL THE COPYRIGHT OWNER OR CONTRIBUTORS BE LIABLE",
";; FOR ANY DIRECT, INDIRECT, INCIDENTAL, SPECIAL, EXEMPLARY, OR CONSEQUENTIAL",
";; DAMAGES (INCLUDING, BUT NOT LIMITED TO, PROCUREMENT OF SUBSTITUTE GOODS OR",
";; SERVICES; LOSS OF USE, DATA, OR PROFITS; OR BUSINESS INTERRUPTION) HOWEVER",
";; CAUSED AND ON ANY THEORY OF LIABILITY, WHETHER IN CONTRACT, STRICT LIABILITY,",
";; OR TORT (INCLUDING NEGLIGENCE OR OTHERWISE) ARISING IN ANY WAY OUT OF THE USE",
";; OF THIS SOFTWARE, EVEN IF ADVISED OF THE POSSIBILITY OF SUCH DAMAGE.",
";;",
"",
";; code to compute quad SHA256 using AVX",
";; outer calling routine takes care of save and restore of XMM registers",
";; Logic designed/laid out by JDG",
"",
";; Stack must be aligned to 16 bytes before call",
";; Windows clobbers:  rax rdx             r8 r9 r10 r11 ",
";; Windows preserves:         rcx     rsi rdi rbp                r12 r13 r14 r15",
";;",
";; Linux clobbers:    rax rsi         r8 r9 r10 r11 ",
";; Linux preserves:           rcx rdx     rdi rbp                r12 r13 r14 r15",
";;",
";; clobbers xmm0-15",
"",
"",
"extern sha256_1_avx",
"",
"%ifdef WINABI",
"\t%define OUTPUT_PTR\trcx \t; 1st arg",
"\t%define DATA_PTR\trdx \t; 2nd arg",
"\t%define NUM_BLKS \tr8\t; 3rd arg",
"\t%define TBL \t\trsi",
"%else",
"\t%define OUTPUT_PTR\trdi\t; 1st arg",
"\t%define DATA_PTR\trsi\t; 2nd arg",
"\t%define NUM_BLKS\trdx\t; 3rd arg",
"\t%define TBL \t\trcx",
"%endif",
"",
"%define ROUND\trbx",
"",
"%define inp0 r8",
"%define inp1 r9",
"%define inp2 r10",
"%define inp3 r11",
"",
"%define a xmm0",
"%define b xmm1",
"%define c xmm2",
"%define d xmm3",
"%define e xmm4",
"%define f xmm5",
"%define g xmm6",
"%define h xmm7",
"",
"%define a0 xmm8",
"%define a1 xmm9",
"%define a2 xmm10",
"",
"%define TT0 xmm14",
"%define TT1 xmm13",
"%define TT2 xmm12",
"%define TT3 xmm11",
"%define TT4 xmm10",
"%define TT5 xmm9",
"",
"%define T1  xmm14",
"%define TMP xmm15",
"",
"%define SHA256_DIGEST_WORD_SIZE  4",
"%define NUM_SHA256_DIGEST_WORDS 8",
"%define SZ4\t4*SHA256_DIGEST_WORD_SIZE\t; Size of one vector register",
"%define ROUNDS 64*SZ4",
"",
"; Define stack usage",
"struc STACK",
"\t_DATA:\t\tresb\tSZ4 * 16",
"\t_DIGEST:\tresb\tSZ4 * NUM_SHA256_DIGEST_WORDS",
"\t_RBX: \t\tresb\t8",
"\t\t\tresb \t16 \t",
"endstruc",
"",
"%define VMOVPS\tvmovups",
"",
"; transpose r0, r1, r2, r3, t0, t1",
"; \"transpose\" data in {r0..r3} using temps {t0,t1}",
"; Input looks like: {r0 r1 r2 r3}",
"; r0 = {a3 a2 a1 a0}",
"; r1 = {b3 b2 b1 b0}",
"; r2 = {c3 c2 c1 c0}",
"; r3 = {d3 d2 d1 d0}",
";",
"; output looks like: {t0 r1 r0 r3}",
"; t0 = {d0 c0 b0 a0}",
"; r1 = {d1 c1 b1 a1}",
"; r0 = {d2 c2 b2 a2}",
"; r3 = {d3 c3 b3 a3}",
";",
"%macro TRANSPOSE 6",
"%define %%r0 %1",
"%define %%r1 %2",
"%define %%r2 %3",
"%define %%r3 %4",
"%define %%t0 %5",
"%define %%t1 %6",
"\tvshufps\t%%t0, %%r0, %%r1, 0x44\t; t0 = {b1 b0 a1 a0}",
"\tvshufps\t%%r0, %%r0, %%r1, 0xEE\t; r0 = {b3 b2 a3 a2}",
"",
"\tvshufps\t%%t1, %%r2, %%r3, 0x44\t; t1 = {d1 d0 c1 c0}",
"\tvshufps\t%%r2, %%r2, %%r3, 0xEE\t; r2 = {d3 d2 c3 c2}",
"",
"\tvshufps\t%%r1, %%t0, %%t1, 0xDD\t; r1 = {d1 c1 b1 a1}",
"",
"\tvshufps\t%%r3, %%r0, %%r2, 0xDD\t; r3 = {d3 c3 b3 a3}",
"",
"\tvshufps\t%%r0, %%r0, %%r2, 0x88\t; r0 = {d2 c2 b2 a2}",
"\tvshufps\t%%t0, %%t0, %%t1, 0x88\t; t0 = {d0 c0 b0 a0}",
"%endmacro",
"",
"",
"",
"%macro ROTATE_ARGS 0",
"%xdefine TMP_ h",
"%xdefine h g",
"%xdefine g f",
"%xdefine f e",
"%xdefine e d",
"%xdefine d c",
"%xdefine c b",
"%xdefine b a",
"%xdefine a TMP_",
"%endm",
"",
"; PRORD reg, imm, tmp",
"%macro PRORD 3",
"%define %%reg %1",
"%define %%imm %2",
"%define %%tmp %3",
"\tvpslld\t%%tmp, %%reg, (32-(%%imm))",
"\tvpsrld\t%%reg, %%reg, %%imm",
"\tvpor\t%%reg, %%reg, %%tmp",
"%endmacro",
"",
"; non-destructive",
"; PRORD_nd reg, imm, tmp, src",
"%macro PRORD_nd 4",
"%define %%reg %1",
"%define %%imm %2",
"%define %%tmp %3",
"%define %%src %4",
"\t;vmovdqa\t%%tmp, %%reg",
"\tvpslld\t%%tmp, %%src, (32-(%%imm))",
"\tvpsrld\t%%reg, %%src, %%imm",
"\tvpor\t%%reg, %%reg, %%tmp",
"%endmacro",
"",
"; PRORD dst/src, amt",
"%macro PRORD 2",
"\tPRORD\t%1, %2, TMP",
"%endmacro",
"",
"; PRORD_nd dst, src, amt",
"%macro PRORD_nd 3",
"\tPRORD_nd\t%1, %3, TMP, %2",
"%endmacro",
"",
";; arguments passed implicitly in preprocessor symbols i, a...h",
"%macro ROUND_00_15 2",
"%define %%T1 %1",
"%define %%i  %2",
"\tPRORD_nd\ta0, e, (11-6)\t; sig1: a0 = (e >> 5)",
"",
"\tvpxor\ta2, f, g\t; ch: a2 = f^g",
"\tvpand\ta2, a2, e\t; ch: a2 = (f^g)&e",
"\tvpxor\ta2, a2, g\t; a2 = ch",
"",
"\tPRORD_nd\ta1, e, 25\t\t; sig1: a1 = (e >> 25)",
"\tvmovdqa\t[SZ4*(%%i&0xf) + rsp + _DATA], %%T1",
"\tvpaddd\t%%T1, %%T1, [TBL + ROUND]\t; T1 = W + K",
"\tvpxor\ta0, a0, e\t; sig1: a0 = e ^ (e >> 5)",
"\tPRORD\ta0, 6\t\t; sig1: a0 = (e >> 6) ^ (e >> 11)",
"\tvpaddd\th, h, a2\t; h = h + ch",
"\tPRORD_nd\ta2, a, (13-2)\t; sig0: a2 = (a >> 11)",
"\tvpaddd\th, h, %%T1\t; h = h + ch + W + K",
"\tvpxor\ta0, a0, a1\t; a0 = sigma1",
"\tPRORD_nd\ta1, a, 22\t; sig0: a1 = (a >> 22)",
"\tvpxor\t%%T1, a, c\t; maj: T1 = a^c",
"\tadd\tROUND, SZ4\t; ROUND++",
"\tvpand\t%%T1, %%T1, b\t; maj: T1 = (a^c)&b",
"\tvpaddd\th, h, a0",
"",
"\tvpaddd\td, d, h",
"",
"\tvpxor\ta2, a2, a\t; sig0: a2 = a ^ (a >> 11)",
"\tPRORD\ta2, 2\t\t; sig0: a2 = (a >> 2) ^ (a >> 13)",
"\tvpxor\ta2, a2, a1\t; a2 = sig0",
"\tvpand\ta1, a, c\t; maj: a1 = a&c",
"\tvpor\ta1, a1, %%T1\t; a1 = maj",
"\tvpaddd\th, h, a1\t; h = h + ch + W + K + maj",
"\tvpaddd\th, h, a2\t; h = h + ch + W + K + maj + sigma0",
"",
"\tROTATE_ARGS",
"%endm",
"",
"",
";; arguments passed implicitly in preprocessor symbols i, a...h",
"%macro ROUND_16_XX 2",
"%define %%T1 %1",
"%define %%i  %2",
"\tvmovdqa\t%%T1, [SZ4*((%%i-15)&0xf) + rsp + _DATA]",
"\tvmovdqa\ta1, [SZ4*((%%i-2)&0xf) + rsp + _DATA]",
"\tvmovdqa\ta0, %%T1",
"\tPRORD\t%%T1, 18-7",
"\tvmovdqa\ta2, a1",
"\tPRORD\ta1, 19-17",
"\tvpxor\t%%T1, %%T1, a0",
"\tPRORD\t%%T1, 7",
"\tvpxor\ta1, a1, a2",
"\tPRORD\ta1, 17",
"\tvpsrld\ta0, a0, 3",
"\tvpxor\t%%T1, %%T1, a0",
"\tvpsrld\ta2, a2, 10",
"\tvpxor\ta1, a1, a2",
"\tvpaddd\t%%T1, %%T1, [SZ4*((%%i-16)&0xf) + rsp + _DATA]",
"\tvpaddd\ta1, a1, [SZ4*((%%i-7)&0xf) + rsp + _DATA]",
"\tvpaddd\t%%T1, %%T1, a1",
"",
"\tROUND_00_15 %%T1, %%i",
"%endm",
"",
";; arguments passed implicitly in preprocessor symbols i, a...h",
"%macro PADDING_ROUND_00_15 1",
"%define %%T1 %1",
"\tPRORD_nd\ta0, e, (11-6)\t; sig1: a0 = (e >> 5)",
"",
"\tvpxor\ta2, f, g\t; ch: a2 = f^g",
"\tvpand\ta2, a2, e\t; ch: a2 = (f^g)&e",
"\tvpxor\ta2, a2, g\t; a2 = ch",
"",
"\tPRORD_nd\ta1, e, 25\t\t; sig1: a1 = (e >> 25)",
"\tvmovdqa \t%%T1, [TBL + ROUND]\t; T1 = W + K",
"\tvpxor\ta0, a0, e\t; sig1: a0 = e ^ (e >> 5)",
"\tPRORD\ta0, 6\t\t; sig1: a0 = (e >> 6) ^ (e >> 11)",
"\tvpaddd\th, h, a2\t; h = h + ch",
"\tPRORD_nd\ta2, a, (13-2)\t; sig0: a2 = (a >> 11)",
"\tvpaddd\th, h, %%T1\t; h = h + ch + W + K",
"\tvpxor\ta0, a0, a1\t; a0 = sigma1",
"\tPRORD_nd\ta1, a, 22\t; sig0: a1 = (a >> 22)",
"\tvpxor\t%%T1, a, c\t; maj: T1 = a^c",
"\tadd\tROUND, SZ4\t; ROUND++",
"\tvpand\t%%T1, %%T1, b\t; maj: T1 = (a^c)&b",
"\tvpaddd\th, h, a0",
"",
"\tvpaddd\td, d, h",
"",
"\tvpxor\ta2, a2, a\t; sig0: a2 = a ^ (a >> 11)",
"\tPRORD\ta2, 2\t\t; sig0: a2 = (a >> 2) ^ (a >> 13)",
"\tvpxor\ta2, a2, a1\t; a2 = sig0",
"\tvpand\ta1, a, c\t; maj: a1 = a&c",
"\tvpor\ta1, a1, %%T1\t; a1 = maj",
"\tvpaddd\th, h, a1\t; h = h + ch + W + K + maj",
"\tvpaddd\th, h, a2\t; h = h + ch + W + K + maj + sigma0",
"",
"\tROTATE_ARGS",
"%endm",
"",
"",
"",
"section .data",
"default rel",
"align 64",
"",
"K256_4:",
"\tdq\t0x428a2f98428a2f98, 0x428a2f98428a2f98",
"\tdq\t0x7137449171374491, 0x7137449171374491",
"\tdq\t0xb5c0fbcfb5c0fbcf, 0xb5c0fbcfb5c0fbcf",
"\tdq\t0xe9b5dba5e9b5dba5, 0xe9b5dba5e9b5dba5",
"\tdq\t0x3956c25b3956c25b, 0x3956c25b3956c25b",
"\tdq\t0x59f111f159f111f1, 0x59f111f159f111f1",
"\tdq\t0x923f82a4923f82a4, 0x923f82a4923f82a4",
"\tdq\t0xab1c5ed5ab1c5ed5, 0xab1c5ed5ab1c5ed5",
"\tdq\t0xd807aa98d807aa98, 0xd807aa98d807aa98",
"\tdq\t0x12835b0112835b01, 0x12835b0112835b01",
"\tdq\t0x243185be243185be, 0x243185be243185be",
"\tdq\t0x550c7dc3550c7dc3, 0x550c7dc3550c7dc3",
"\tdq\t0x72be5d7472be5d74, 0x72be5d7472be5d74",
"\tdq\t0x80deb1fe80deb1fe, 0x80deb1fe80deb1fe",
"\tdq\t0x9bdc06a79bdc06a7, 0x9bdc06a79bdc06a7",
"\tdq\t0xc19bf174c19bf174, 0xc19bf174c19bf174",
"\tdq\t0xe49b69c1e49b69c1, 0xe49b69c1e49b69c1",
"\tdq\t0xefbe4786efbe4786, 0xefbe4786efbe4786",
"\tdq\t0x0fc19dc60fc19dc6, 0x0fc19dc60fc19dc6",
"\tdq\t0x240ca1cc240ca1cc, 0x240ca1cc240ca1cc",
"\tdq\t0x2de92c6f2de92c6f, 0x2de92c6f2de92c6f",
"\tdq\t0x4a7484aa4a7484aa, 0x4a7484aa4a7484aa",
"\tdq\t0x5cb0a9dc5cb0a9dc, 0x5cb0a9dc5cb0a9dc",
"\tdq\t0x76f988da76f988da, 0x76f988da76f988da",
"\tdq\t0x983e5152983e5152, 0x983e5152983e5152",
"\tdq\t0xa831c66da831c66d, 0xa831c66da831c66d",
"\tdq\t0xb00327c8b00327c8, 0xb00327c8b00327c8",
"\tdq\t0xbf597fc7bf597fc7, 0xbf597fc7bf597fc7",
"\tdq\t0xc6e00bf3c6e00bf3, 0xc6e00bf3c6e00bf3",
"\tdq\t0xd5a79147d5a79147, 0xd5a79147d5a79147",
"\tdq\t0x06ca635106ca6351, 0x06ca635106ca6351",
"\tdq\t0x1429296714292967, 0x1429296714292967",
"\tdq\t0x27b70a8527b70a85, 0x27b70a8527b70a85",
"\tdq\t0x2e1b21382e1b2138, 0x2e1b21382e1b2138",
"\tdq\t0x4d2c6dfc4d2c6dfc, 0x4d2c6dfc4d2c6dfc",
"\tdq\t0x53380d1353380d13, 0x53380d1353380d13",
"\tdq\t0x650a7354650a7354, 0x650a7354650a7354",
"\tdq\t0x766a0abb766a0abb, 0x766a0abb766a0abb",
"\tdq\t0x81c2c92e81c2c92e, 0x81c2c92e81c2c92e",
"\tdq\t0x92722c8592722c85, 0x92722c8592722c85",
"\tdq\t0xa2bfe8a1a2bfe8a1, 0xa2bfe8a1a2bfe8a1",
"\tdq\t0xa81a664ba81a664b, 0xa81a664ba81a664b",
"\tdq\t0xc24b8b70c24b8b70, 0xc24b8b70c24b8b70",
"\tdq\t0xc76c51a3c76c51a3, 0xc76c51a3c76c51a3",
"\tdq\t0xd192e819d192e819, 0xd192e819d192e819",
"\tdq\t0xd6990624d6990624, 0xd6990624d6990624",
"\tdq\t0xf40e3585f40e3585, 0xf40e3585f40e3585",
"\tdq\t0x106aa070106aa070, 0x106aa070106aa070",
"\tdq\t0x19a4c11619a4c116, 0x19a4c11619a4c116",
"\tdq\t0x1e376c081e376c08, 0x1e376c081e376c08",
"\tdq\t0x2748774c2748774c, 0x2748774c2748774c",
"\tdq\t0x34b0bcb534b0bcb5, 0x34b0bcb534b0bcb5",
"\tdq\t0x391c0cb3391c0cb3, 0x391c0cb3391c0cb3",
"\tdq\t0x4ed8aa4a4ed8aa4a, 0x4ed8aa4a4ed8aa4a",
"\tdq\t0x5b9cca4f5b9cca4f, 0x5b9cca4f5b9cca4f",
"\tdq\t0x682e6ff3682e6ff3, 0x682e6ff3682e6ff3",
"\tdq\t0x748f82ee748f82ee, 0x748f82ee748f82ee",
"\tdq\t0x78a5636f78a5636f, 0x78a5636f78a5636f",
"\tdq\t0x84c8781484c87814, 0x84c8781484c87814",
"\tdq\t0x8cc702088cc70208, 0x8cc702088cc70208",
"\tdq\t0x90befffa90befffa, 0x90befffa90befffa",
"\tdq\t0xa4506ceba4506ceb, 0xa4506ceba4506ceb",
"\tdq\t0xbef9a3f7bef9a3f7, 0xbef9a3f7bef9a3f7",
"\tdq\t0xc67178f2c67178f2, 0xc67178f2c67178f2",
"",
"PADDING_4:",
"        dq      0xc28a2f98c28a2f98, 0xc28a2f98c28a2f98",
"        dq      0x7137449171374491, 0x7137449171374491",
"        dq      0xb5c0fbcfb5c0fbcf, 0xb5c0fbcfb5c0fbcf",
"        dq      0xe9b5dba5e9b5dba5, 0xe9b5dba5e9b5dba5",
"        dq      0x3956c25b3956c25b, 0x3956c25b3956c25b",
"        dq      0x59f111f159f111f1, 0x59f111f159f111f1",
"        dq      0x923f82a4923f82a4, 0x923f82a4923f82a4",
"        dq      0xab1c5ed5ab1c5ed5, 0xab1c5ed5ab1c5ed5",
"        dq      0xd807aa98d807aa98, 0xd807aa98d807aa98",
"        dq      0x12835b0112835b01, 0x12835b0112835b01",
"        dq      0x243185be243185be, 0x243185be243185be",
"        dq      0x550c7dc3550c7dc3, 0x550c7dc3550c7dc3",
"        dq      0x72be5d7472be5d74, 0x72be5d7472be5d74",
"        dq      0x80deb1fe80deb1fe, 0x80deb1fe80deb1fe",
"        dq      0x9bdc06a79bdc06a7, 0x9bdc06a79bdc06a7",
"        dq      0xc19bf374c19bf374, 0xc19bf374c19bf374",
"        dq      0x649b69c1649b69c1, 0x649b69c1649b69c1",
"        dq      0xf0fe4786f0fe4786, 0xf0fe4786f0fe4786",
"        dq      0x0fe1edc60fe1edc6, 0x0fe1edc60fe1edc6",
"        dq      0x240cf254240cf254, 0x240cf254240cf254",
"        dq      0x4fe9346f4fe9346f, 0x4fe9346f4fe9346f",
"        dq      0x6cc984be6cc984be, 0x6cc984be6cc984be",
"        dq      0x61b9411e61b9411e, 0x61b9411e61b9411e",
"        dq      0x16f988fa16f988fa, 0x16f988fa16f988fa",
"        dq      0xf2c65152f2c65152, 0xf2c65152f2c65152",
"        dq      0xa88e5a6da88e5a6d, 0xa88e5a6da88e5a6d",
"        dq      0xb019fc65b019fc65, 0xb019fc65b019fc65",
"        dq      0xb9d99ec7b9d99ec7, 0xb9d99ec7b9d99ec7",
"        dq      0x9a1231c39a1231c3, 0x9a1231c39a1231c3",
"        dq      0xe70eeaa0e70eeaa0, 0xe70eeaa0e70eeaa0",
"        dq      0xfdb1232bfdb1232b, 0xfdb1232bfdb1232b",
"        dq      0xc7353eb0c7353eb0, 0xc7353eb0c7353eb0",
"        dq      0x3069bad53069bad5, 0x3069bad53069bad5",
"        dq      0xcb976d5fcb976d5f, 0xcb976d5fcb976d5f",
"        dq      0x5a0f118f5a0f118f, 0x5a0f118f5a0f118f",
"        dq      0xdc1eeefddc1eeefd, 0xdc1eeefddc1eeefd",
"        dq      0x0a35b6890a35b689, 0x0a35b6890a35b689",
"        dq      0xde0b7a04de0b7a04, 0xde0b7a04de0b7a04",
"        dq      0x58f4ca9d58f4ca9d, 0x58f4ca9d58f4ca9d",
"        dq      0xe15d5b16e15d5b16, 0xe15d5b16e15d5b16",
"        dq      0x007f3e86007f3e86, 0x007f3e86007f3e86",
"        dq      0x3708898037088980, 0x3708898037088980",
"        dq      0xa507ea32a507ea32, 0xa507ea32a507ea32",
"        dq      0x6fab95376fab9537, 0x6fab95376fab9537",
"        dq      0x1740611017406110, 0x1740611017406110",
"        dq      0x0d8cd6f10d8cd6f1, 0x0d8cd6f10d8cd6f1",
"        dq      0xcdaa3b6dcdaa3b6d, 0xcdaa3b6dcdaa3b6d",
"        dq      0xc0bbbe37c0bbbe37, 0xc0bbbe37c0bbbe37",
"        dq      0x83613bda83613bda, 0x83613bda83613bda",
"        dq      0xdb48a363db48a363, 0xdb48a363db48a363",
"        dq      0x0b02e9310b02e931, 0x0b02e9310b02e931",
"        dq      0x6fd15ca76fd15ca7, 0x6fd15ca76fd15ca7",
"        dq      0x521afaca521afaca, 0x521afaca521afaca",
"        dq      0x3133843131338431, 0x3133843131338431",
"        dq      0x6ed41a956ed41a95, 0x6ed41a956ed41a95",
"        dq      0x6d4378906d437890, 0x6d4378906d437890",
"        dq      0xc39c91f2c39c91f2, 0xc39c91f2c39c91f2",
"        dq      0x9eccabbd9eccabbd, 0x9eccabbd9eccabbd",
"        dq      0xb5c9a0e6b5c9a0e6, 0xb5c9a0e6b5c9a0e6",
"        dq      0x532fb63c532fb63c, 0x532fb63c532fb63c",
"        dq      0xd2c741c6d2c741c6, 0xd2c741c6d2c741c6",
"        dq      0x07237ea307237ea3, 0x07237ea307237ea3",
"        dq      0xa4954b68a4954b68, 0xa4954b68a4954b68",
"        dq      0x4c191d764c191d76, 0x4c191d764c191d76",
"",
"DIGEST_4:",
"        dd      0x6a09e667, 0x6a09e667, 0x6a09e667, 0x6a09e667",
"\tdd \t0xbb67ae85, 0xbb67ae85, 0xbb67ae85, 0xbb67ae85 ",
"\tdd      0x3c6ef372, 0x3c6ef372, 0x3c6ef372, 0x3c6ef372 ",
"\tdd \t0xa54ff53a, 0xa54ff53a, 0xa54ff53a, 0xa54ff53a ",
"\tdd\t0x510e527f, 0x510e527f, 0x510e527f, 0x510e527f",
"\tdd \t0x9b05688c, 0x9b05688c, 0x9b05688c, 0x9b05688c ",
"\tdd\t0x1f83d9ab, 0x1f83d9ab, 0x1f83d9ab, 0x1f83d9ab",
"        dd      0x5be0cd19, 0x5be0cd19, 0x5be0cd19, 0x5be0cd19",
"",
"PSHUFFLE_BYTE_FLIP_MASK: ",
"\tdq 0x0405060700010203, 0x0c0d0e0f08090a0b",
"",
"section .text",
"",
"global sha256_4_avx:function",
"align 16",
"sha256_4_avx:",
"        endbranch64",
"\t; outer calling routine saves all the XMM registers",
"\tsub\trsp, STACK_size",
"\tmov     [rsp + _RBX],rbx",
"",
".hash_4_blocks:",
"\tcmp \tNUM_BLKS, 4",
"\tjl \t.hash_1_block",
"",
"\txor\tROUND, ROUND",
"",
"\t;; Load the pre-transposed incoming digest.",
"\tlea TBL,[rel DIGEST_4]",
"\tvmovdqa\ta,[TBL + 0*SZ4]",
"\tvmovdqa\tb,[TBL + 1*SZ4]",
"\tvmovdqa\tc,[TBL + 2*SZ4]",
"\tvmovdqa\td,[TBL + 3*SZ4]",
"\tvmovdqa\te,[TBL + 4*SZ4]",
"\tvmovdqa\tf,[TBL + 5*SZ4]",
"\tvmovdqa\tg,[TBL + 6*SZ4]",
"\tvmovdqa\th,[TBL + 7*SZ4]",
"",
"\tlea\tTBL,[rel K256_4]",
"",
"%assign i 0",
"%rep 4",
"\tvmovdqa\tTMP, [rel PSHUFFLE_BYTE_FLIP_MASK]",
"\tVMOVPS\tTT2,[DATA_PTR + 0*64 + i*16]",
"\tVMOVPS\tTT1,[DATA_PTR + 1*64 + i*16]",
"\tVMOVPS\tTT4,[DATA_PTR + 2*64 + i*16]",
"\tVMOVPS\tTT3,[DATA_PTR + 3*64 + i*16]",
"\tTRANSPOSE\tTT2, TT1, TT4, TT3, TT0, TT5",
"\tvpshufb\tTT0, TT0, TMP",
"\tvpshufb\tTT1, TT1, TMP",
"\tvpshufb\tTT2, TT2, TMP",
"\tvpshufb\tTT3, TT3, TMP",
"\tROUND_00_15\tTT0,(i*4+0)",
"\tROUND_00_15\tTT1,(i*4+1)",
"\tROUND_00_15\tTT2,(i*4+2)",
"\tROUND_00_15\tTT3,(i*4+3)",
"%assign i (i+1)",
"%endrep",
"",
"%assign i (i*4)",
"",
"\tjmp\t.Lrounds_16_xx",
"align 16",
".Lrounds_16_xx:",
"%rep 16",
"\tROUND_16_XX\tT1, i",
"%assign i (i+1)",
"%endrep",
"",
"\tcmp\tROUND,ROUNDS",
"\tjb\t.Lrounds_16_xx",
"",
"\t;; add old digest",
"\tlea TBL,[rel DIGEST_4]",
"\tvpaddd\ta, a, [TBL + 0*SZ4]",
"\tvpaddd\tb, b, [TBL + 1*SZ4]",
"\tvpaddd\tc, c, [TBL + 2*SZ4]",
"\tvpaddd\td, d, [TBL + 3*SZ4]",
"\tvpaddd\te, e, [TBL + 4*SZ4]",
"\tvpaddd\tf, f, [TBL + 5*SZ4]",
"\tvpaddd\tg, g, [TBL + 6*SZ4]",
"\tvpaddd\th, h, [TBL + 7*SZ4]",
"",
"        ;; rounds with padding",
"        ",
"        ;; save old digest",
"        ",
"\tvmovdqa\t[rsp + _DIGEST + 0*SZ4], a",
"\tvmovdqa\t[rsp + _DIGEST + 1*SZ4], b",
"\tvmovdqa\t[rsp + _DIGEST + 2*SZ4], c",
"\tvmovdqa\t[rsp + _DIGEST + 3*SZ4], d",
"\tvmovdqa\t[rsp + _DIGEST + 4*SZ4], e",
"\tvmovdqa\t[rsp + _DIGEST + 5*SZ4], f",
"\tvmovdqa\t[rsp + _DIGEST + 6*SZ4], g",
"\tvmovdqa\t[rsp + _DIGEST + 7*SZ4], h",
"",
"        lea   TBL,[rel PADDING_4]",
"        xor   ROUND,ROUND",
"        jmp   .Lrounds_padding",
"",
"align 16",
".Lrounds_padding:",
"%rep 64",
"\tPADDING_ROUND_00_15 \tT1",
"%endrep",
"\t;; add old digest",
"\tvpaddd\ta, a, [rsp + _DIGEST + 0*SZ4]",
"\tvpaddd\tb, b, [rsp + _DIGEST + 1*SZ4]",
"\tvpaddd\tc, c, [rsp + _DIGEST + 2*SZ4]",
"\tvpaddd\td, d, [rsp + _DIGEST + 3*SZ4]",
"\tvpaddd\te, e, [rsp + _DIGEST + 4*SZ4]",
"\tvpaddd\tf, f, [rsp + _DIGEST + 5*SZ4]",
"\tvpaddd\tg, g, [rsp + _DIGEST + 6*SZ4]",
"\tvpaddd\th, h, [rsp + _DIGEST + 7*SZ4]",
"",
"\t;; transpose the digest and convert to little endian to get the registers correctly",
"",
"\tTRANSPOSE a, b, c, d, TT0, TT1",
"        TRANSPOSE e, f, g, h, TT2, TT1",
"",
"\tvmovdqa\tTMP, [rel PSHUFFLE_BYTE_FLIP_MASK]",
"        vpshufb TT0, TMP",
"        vpshufb TT2, TMP",
"        vpshufb b, TMP",
"        vpshufb f, TMP",
"        vpshufb a, TMP",
"        vpshufb e, TMP",
"        vpshufb d, TMP",
"        vpshufb h, TMP",
"",
"",
"\t;; write to output",
"",
"\tvmovdqu\t[OUTPUT_PTR + 0*SZ4],TT0",
"\tvmovdqu\t[OUTPUT_PTR + 1*SZ4],TT2",
"\tvmovdqu\t[OUTPUT_PTR + 2*SZ4],b",
"\tvmovdqu\t[OUTPUT_PTR + 3*SZ4],f",
"\tvmovdqu\t[OUTPUT_PTR + 4*SZ4],a",
"\tvmovdqu\t[OUTPUT_PTR + 5*SZ4],e",
"\tvmovdqu\t[OUTPUT_PTR + 6*SZ4],d",
"\tvmovdqu\t[OUTPUT_PTR + 7*SZ4],h",
"",
"\t; update pointers and loop",
"",
"        add \tDATA_PTR, 64*4",
"\tadd \tOUTPUT_PTR, 32*4",
"\tsub \tNUM_BLKS, 4",
"        jmp     .hash_4_blocks",
"",
".hash_1_block:",
"        test     NUM_BLKS,NUM_BLKS",
"        jz      .done_hash",
"        call    sha256_1_avx",
"        add     DATA_PTR, 64",
"        add     OUTPUT_PTR, 32",
"        dec     NUM_BLKS",
"        jmp     .hash_1_block",
"",
".done_hash:",
"\tmov     rbx,[rsp + _RBX]",
"\tadd\trsp, STACK_size",
"\tret",
"",
"%ifdef LINUX",
"section .note.GNU-stack noalloc noexec nowrite progbits",
"%endif"]

/-- The lines of ssz/sha256_avx2.asm:1-797. -/
def avx2 : List String := [
";;  sha256_avx2.asm",
"; *",
"; *  This file is part of Mammon.",
"; *  mammon is a greedy and selfish ETH consensus client.",
"; *",
"; *  Copyright (c) 2021 - Reimundo Heluani (potuz) potuz@potuz.net",
"; *",
"; *  This program is free software: you can redistribute it and/or modify",
"; *  it under the terms of the GNU General Public License as published by",
"; *  the Free Software Foundation, either version 3 of the License, or",
"; *  (at your option) any later version.",
"; *",
"; *  This program is distributed in the hope that it will be useful,",
"; *  but WITHOUT ANY WARRANTY; without even the implied warranty of",
"; *  MERCHANTABILITY or FITNESS FOR A PARTICULAR PURPOSE.  See the",
"; *  GNU General Public License for more details.",
"; *",
";  You should have received a copy of the GNU General Public License",
";  along with this program.  If not, see <http://www.gnu.org/licenses/>.",
";",
";  This implementation is a 64 bytes optimized implementation based on Intel's code",
";  whose copyright follows",
";",
";;;;;;;;;;;;;;;;;;;;;;;;;;;;;;;;;;;;;;;;;;;;;;;;;;;;;;;;;;;;;;;;;;;;;;;;;;;;;;;;;",
";;",
";; Copyright (c) 2012-2021, Intel Corporation",
";;",
";; Redistribution and use in source and binary forms, with or without",
";; modification, are permitted provided that the following conditions are met:",
";;",
";;     * Redistributions of source code must retain the above copyright notice,",
";;       this list of conditions and the following disclaimer.",
";;     * Redistributions in binary form must reproduce the above copyright",
";;       notice, this list of conditions and the following disclaimer in the",
";;       documentation and/or other materials provided with the distribution.",
";;     * Neither the name of Intel Corporation nor the names of its contributors",
";;       may be used to endorse or promote products derived from this software",
";;       without specific prior written permission.",
";;",
";; THIS SOFTWARE IS PROVIDED BY THE COPYRIGHT HOLDERS AND CONTRIBUTORS \"AS IS\"",
";; AND ANY EXPRESS OR IMPLIED WARRANTIES, INCLUDING, BUT NOT LIMITED TO, THE",
";; IMPLIED WARRANTIES OF MERCHANTABILITY AND FITNESS FOR A PARTICULAR PURPOSE ARE",
";; DISCLAIMED. IN NO EVENT SHALL THE COPYRIGHT OWNER OR CONTRIBUTORS BE LIABLE",
";; FOR ANY DIRECT, INDIRECT, INCIDENTAL, SPECIAL, EXEMPLARY, OR CONSEQUENTIAL",
";; DAMAGES (INCLUDING, BUT NOT LIMITED TO, PROCUREMENT OF SUBSTITUTE GOODS OR",
";; SERVICES; LOSS OF USE, DATA, OR PROFITS; OR BUSINESS INTERRUPTION) HOWEVER",
";; CAUSED AND ON ANY THEORY OF LIABILITY, WHETHER IN CONTRACT, STRICT LIABILITY,",
";; OR TORT (INCLUDING NEGLIGENCE OR OTHERWISE) ARISING IN ANY WAY OUT OF THE USE",
";; OF THIS SOFTWARE, EVEN IF ADVISED OF THE POSSIBILITY OF SUCH DAMAGE.",
";;",
"",
";; code to compute oct SHA256 using SSE-256",
";; outer calling routine takes care of save and restore of XMM registers",
";; Logic designed/laid out by JDG",
"",
";; Function clobbers: rax, rcx, rdx, rsi, rdi, r9-r15; ymm0-15",
";; Stack must be aligned to 32 bytes before call",
";; Windows clobbers:  rax rdx rsi rdi     r8 r9 r10 r11 r12 r13 r14",
";; Windows preserves:         rcx             rbp                           r15",
";;",
";; Linux clobbers:    rax rcx rdx rsi         r8 r9 r10 r11 r12 r13 r14",
";; Linux preserves:                       rdi rbp                           r15",
";;",
";; clobbers ymm0-15",
"",
"%include \"ssz/transpose_avx2.asm\"",
"",
"extern sha256_4_avx",
"",
"section .data",
"default rel",
"align 64",
"",
"K256_8:",
"\tdq\t0x428a2f98428a2f98, 0x428a2f98428a2f98",
"\tdq\t0x428a2f98428a2f98, 0x428a2f98428a2f98",
"\tdq\t0x7137449171374491, 0x7137449171374491",
"\tdq\t0x7137449171374491, 0x7137449171374491",
"\tdq\t0xb5c0fbcfb5c0fbcf, 0xb5c0fbcfb5c0fbcf",
"\tdq\t0xb5c0fbcfb5c0fbcf, 0xb5c0fbcfb5c0fbcf",
"\tdq\t0xe9b5dba5e9b5dba5, 0xe9b5dba5e9b5dba5",
"\tdq\t0xe9b5dba5e9b5dba5, 0xe9b5dba5e9b5dba5",
"\tdq\t0x3956c25b3956c25b, 0x3956c25b3956c25b",
"\tdq\t0x3956c25b3956c25b, 0x3956c25b3956c25b",
"\tdq\t0x59f111f159f111f1, 0x59f111f159f111f1",
"\tdq\t0x59f111f159f111f1, 0x59f111f159f111f1",
"\tdq\t0x923f82a4923f82a4, 0x923f82a4923f82a4",
"\tdq\t0x923f82a4923f82a4, 0x923f82a4923f82a4",
"\tdq\t0xab1c5ed5ab1c5ed5, 0xab1c5ed5ab1c5ed5",
"\tdq\t0xab1c5ed5ab1c5ed5, 0xab1c5ed5ab1c5ed5",
"\tdq\t0xd807aa98d807aa98, 0xd807aa98d807aa98",
"\tdq\t0xd807aa98d807aa98, 0xd807aa98d807aa98",
"\tdq\t0x12835b0112835b01, 0x12835b0112835b01",
"\tdq\t0x12835b0112835b01, 0x12835b0112835b01",
"\tdq\t0x243185be243185be, 0x243185be243185be",
"\tdq\t0x243185be243185be, 0x243185be243185be",
"\tdq\t0x550c7dc3550c7dc3, 0x550c7dc3550c7dc3",
"\tdq\t0x550c7dc3550c7dc3, 0x550c7dc3550c7dc3",
"\tdq\t0x72be5d7472be5d74, 0x72be5d7472be5d74",
"\tdq\t0x72be5d7472be5d74, 0x72be5d7472be5d74",
"\tdq\t0x80deb1fe80deb1fe, 0x80deb1fe80deb1fe",
"\tdq\t0x80deb1fe80deb1fe, 0x80deb1fe80deb1fe",
"\tdq\t0x9bdc06a79bdc06a7, 0x9bdc06a79bdc06a7",
"\tdq\t0x9bdc06a79bdc06a7, 0x9bdc06a79bdc06a7",
"\tdq\t0xc19bf174c19bf174, 0xc19bf174c19bf174",
"\tdq\t0xc19bf174c19bf174, 0xc19bf174c19bf174",
"\tdq\t0xe49b69c1e49b69c1, 0xe49b69c1e49b69c1",
"\tdq\t0xe49b69c1e49b69c1, 0xe49b69c1e49b69c1",
"\tdq\t0xefbe4786efbe4786, 0xefbe4786efbe4786",
"\tdq\t0xefbe4786efbe4786, 0xefbe4786efbe4786",
"\tdq\t0x0fc19dc60fc19dc6, 0x0fc19dc60fc19dc6",
"\tdq\t0x0fc19dc60fc19dc6, 0x0fc19dc60fc19dc6",
"\tdq\t0x240ca1cc240ca1cc, 0x240ca1cc240ca1cc",
"\tdq\t0x240ca1cc240ca1cc, 0x240ca1cc240ca1cc",
"\tdq\t0x2de92c6f2de92c6f, 0x2de92c6f2de92c6f",
"\tdq\t0x2de92c6f2de92c6f, 0x2de92c6f2de92c6f",
"\tdq\t0x4a7484aa4a7484aa, 0x4a7484aa4a7484aa",
"\tdq\t0x4a7484aa4a7484aa, 0x4a7484aa4a7484aa",
"\tdq\t0x5cb0a9dc5cb0a9dc, 0x5cb0a9dc5cb0a9dc",
"\tdq\t0x5cb0a9dc5cb0a9dc, 0x5cb0a9dc5cb0a9dc",
"\tdq\t0x76f988da76f988da, 0x76f988da76f988da",
"\tdq\t0x76f988da76f988da, 0x76f988da76f988da",
"\tdq\t0x983e5152983e5152, 0x983e5152983e5152",
"\tdq\t0x983e5152983e5152, 0x983e5152983e5152",
"\tdq\t0xa831c66da831c66d, 0xa831c66da831c66d",
"\tdq\t0xa831c66da831c66d, 0xa831c66da831c66d",
"\tdq\t0xb00327c8b00327c8, 0xb00327c8b00327c8",
"\tdq\t0xb00327c8b00327c8, 0xb00327c8b00327c8",
"\tdq\t0xbf597fc7bf597fc7, 0xbf597fc7bf597fc7",
"\tdq\t0xbf597fc7bf597fc7, 0xbf597fc7bf597fc7",
"\tdq\t0xc6e00bf3c6e00bf3, 0xc6e00bf3c6e00bf3",
"\tdq\t0xc6e00bf3c6e00bf3, 0xc6e00bf3c6e00bf3",
"\tdq\t0xd5a79147d5a79147, 0xd5a79147d5a79147",
"\tdq\t0xd5a79147d5a79147, 0xd5a79147d5a79147",
"\tdq\t0x06ca635106ca6351, 0x06ca635106ca6351",
"\tdq\t0x06ca635106ca6351, 0x06ca635106ca6351",
"\tdq\t0x1429296714292967, 0x1429296714292967",
"\tdq\t0x1429296714292967, 0x1429296714292967",
"\tdq\t0x27b70a8527b70a85, 0x27b70a8527b70a85",
"\tdq\t0x27b70a8527b70a85, 0x27b70a8527b70a85",
"\tdq\t0x2e1b21382e1b2138, 0x2e1b21382e1b2138",
"\tdq\t0x2e1b21382e1b2138, 0x2e1b21382e1b2138",
"\tdq\t0x4d2c6dfc4d2c6dfc, 0x4d2c6dfc4d2c6dfc",
"\tdq\t0x4d2c6dfc4d2c6dfc, 0x4d2c6dfc4d2c6dfc",
"\tdq\t0x53380d1353380d13, 0x53380d1353380d13",
"\tdq\t0x53380d1353380d13, 0x53380d1353380d13",
"\tdq\t0x650a7354650a7354, 0x650a7354650a7354",
"\tdq\t0x650a7354650a7354, 0x650a7354650a7354",
"\tdq\t0x766a0abb766a0abb, 0x766a0abb766a0abb",
"\tdq\t0x766a0abb766a0abb, 0x766a0abb766a0abb",
"\tdq\t0x81c2c92e81c2c92e, 0x81c2c92e81c2c92e",
"\tdq\t0x81c2c92e81c2c92e, 0x81c2c92e81c2c92e",
"\tdq\t0x92722c8592722c85, 0x92722c8592722c85",
"\tdq\t0x92722c8592722c85, 0x92722c8592722c85",
"\tdq\t0xa2bfe8a1a2bfe8a1, 0xa2bfe8a1a2bfe8a1",
"\tdq\t0xa2bfe8a1a2bfe8a1, 0xa2bfe8a1a2bfe8a1",
"\tdq\t0xa81a664ba81a664b, 0xa81a664ba81a664b",
"\tdq\t0xa81a664ba81a664b, 0xa81a664ba81a664b",
"\tdq\t0xc24b8b70c24b8b70, 0xc24b8b70c24b8b70",
"\tdq\t0xc24b8b70c24b8b70, 0xc24b8b70c24b8b70",
"\tdq\t0xc76c51a3c76c51a3, 0xc76c51a3c76c51a3",
"\tdq\t0xc76c51a3c76c51a3, 0xc76c51a3c76c51a3",
"\tdq\t0xd192e819d192e819, 0xd192e819d192e819",
"\tdq\t0xd192e819d192e819, 0xd192e819d192e819",
"\tdq\t0xd6990624d6990624, 0xd6990624d6990624",
"\tdq\t0xd6990624d6990624, 0xd6990624d6990624",
"\tdq\t0xf40e3585f40e3585, 0xf40e3585f40e3585",
"\tdq\t0xf40e3585f40e3585, 0xf40e3585f40e3585",
"\tdq\t0x106aa070106aa070, 0x106aa070106aa070",
"\tdq\t0x106aa070106aa070, 0x106aa070106aa070",
"\tdq\t0x19a4c11619a4c116, 0x19a4c11619a4c116",
"\tdq\t0x19a4c11619a4c116, 0x19a4c11619a4c116",
"\tdq\t0x1e376c081e376c08, 0x1e376c081e376c08",
"\tdq\t0x1e376c081e376c08, 0x1e376c081e376c08",
"\tdq\t0x2748774c2748774c, 0x2748774c2748774c",
"\tdq\t0x2748774c2748774c, 0x2748774c2748774c",
"\tdq\t0x34b0bcb534b0bcb5, 0x34b0bcb534b0bcb5",
"\tdq\t0x34b0bcb534b0bcb5, 0x34b0bcb534b0bcb5",
"\tdq\t0x391c0cb3391c0cb3, 0x391c0cb3391c0cb3",
"\tdq\t0x391c0cb3391c0cb3, 0x391c0cb3391c0cb3",
"\tdq\t0x4ed8aa4a4ed8aa4a, 0x4ed8aa4a4ed8aa4a",
"\tdq\t0x4ed8aa4a4ed8aa4a, 0x4ed8aa4a4ed8aa4a",
"\tdq\t0x5b9cca4f5b9cca4f, 0x5b9cca4f5b9cca4f",
"\tdq\t0x5b9cca4f5b9cca4f, 0x5b9cca4f5b9cca4f",
"\tdq\t0x682e6ff3682e6ff3, 0x682e6ff3682e6ff3",
"\tdq\t0x682e6ff3682e6ff3, 0x682e6ff3682e6ff3",
"\tdq\t0x748f82ee748f82ee, 0x748f82ee748f82ee",
"\tdq\t0x748f82ee748f82ee, 0x748f82ee748f82ee",
"\tdq\t0x78a5636f78a5636f, 0x78a5636f78a5636f",
"\tdq\t0x78a5636f78a5636f, 0x78a5636f78a5636f",
"\tdq\t0x84c8781484c87814, 0x84c8781484c87814",
"\tdq\t0x84c8781484c87814, 0x84c8781484c87814",
"\tdq\t0x8cc702088cc70208, 0x8cc702088cc70208",
"\tdq\t0x8cc702088cc70208, 0x8cc702088cc70208",
"\tdq\t0x90befffa90befffa, 0x90befffa90befffa",
"\tdq\t0x90befffa90befffa, 0x90befffa90befffa",
"\tdq\t0xa4506ceba4506ceb, 0xa4506ceba4506ceb",
"\tdq\t0xa4506ceba4506ceb, 0xa4506ceba4506ceb",
"\tdq\t0xbef9a3f7bef9a3f7, 0xbef9a3f7bef9a3f7",
"\tdq\t0xbef9a3f7bef9a3f7, 0xbef9a3f7bef9a3f7",
"\tdq\t0xc67178f2c67178f2, 0xc67178f2c67178f2",
"\tdq\t0xc67178f2c67178f2, 0xc67178f2c67178f2",
"",
"PADDING_8:",
"",
"\tddq     0xc28a2f98c28a2f98c28a2f98c28a2f98",
"\tddq     0xc28a2f98c28a2f98c28a2f98c28a2f98",
"\tddq \t0x71374491713744917137449171374491",
"\tddq \t0x71374491713744917137449171374491",
"\tddq \t0xb5c0fbcfb5c0fbcfb5c0fbcfb5c0fbcf",
"\tddq \t0xb5c0fbcfb5c0fbcfb5c0fbcfb5c0fbcf",
"\tddq \t0xe9b5dba5e9b5dba5e9b5dba5e9b5dba5",
"\tddq \t0xe9b5dba5e9b5dba5e9b5dba5e9b5dba5",
"        ddq     0x3956c25b3956c25b3956c25b3956c25b",
"        ddq     0x3956c25b3956c25b3956c25b3956c25b",
"        ddq     0x59f111f159f111f159f111f159f111f1",
"        ddq     0x59f111f159f111f159f111f159f111f1",
"        ddq     0x923f82a4923f82a4923f82a4923f82a4",
"        ddq     0x923f82a4923f82a4923f82a4923f82a4",
"        ddq     0xab1c5ed5ab1c5ed5ab1c5ed5ab1c5ed5",
"        ddq     0xab1c5ed5ab1c5ed5ab1c5ed5ab1c5ed5",
"        ddq     0xd807aa98d807aa98d807aa98d807aa98",
"        ddq     0xd807aa98d807aa98d807aa98d807aa98",
"        ddq     0x12835b0112835b0112835b0112835b01",
"        ddq     0x12835b0112835b0112835b0112835b01",
"        ddq     0x243185be243185be243185be243185be",
"        ddq     0x243185be243185be243185be243185be",
"        ddq     0x550c7dc3550c7dc3550c7dc3550c7dc3",
"        ddq     0x550c7dc3550c7dc3550c7dc3550c7dc3",
"        ddq     0x72be5d7472be5d7472be5d7472be5d74",
"        ddq     0x72be5d7472be5d7472be5d7472be5d74",
"        ddq     0x80deb1fe80deb1fe80deb1fe80deb1fe",
"        ddq     0x80deb1fe80deb1fe80deb1fe80deb1fe",
"        ddq     0x9bdc06a79bdc06a79bdc06a79bdc06a7",
"        ddq     0x9bdc06a79bdc06a79bdc06a79bdc06a7",
"        ddq     0xc19bf374c19bf374c19bf374c19bf374",
"        ddq     0xc19bf374c19bf374c19bf374c19bf374",
"        ddq     0x649b69c1649b69c1649b69c1649b69c1",
"        ddq     0x649b69c1649b69c1649b69c1649b69c1",
"        ddq     0xf0fe4786f0fe4786f0fe4786f0fe4786",
"        ddq     0xf0fe4786f0fe4786f0fe4786f0fe4786",
"        ddq     0x0fe1edc60fe1edc60fe1edc60fe1edc6",
"        ddq     0x0fe1edc60fe1edc60fe1edc60fe1edc6",
"        ddq     0x240cf254240cf254240cf254240cf254",
"        ddq     0x240cf254240cf254240cf254240cf254",
"        ddq     0x4fe9346f4fe9346f4fe9346f4fe9346f",
"        ddq     0x4fe9346f4fe9346f4fe9346f4fe9346f",
"        ddq     0x6cc984be6cc984be6cc984be6cc984be",
"        ddq     0x6cc984be6cc984be6cc984be6cc984be",
"        ddq     0x61b9411e61b9411e61b9411e61b9411e",
"        ddq     0x61b9411e61b9411e61b9411e61b9411e",
"        ddq     0x16f988fa16f988fa16f988fa16f988fa",
"        ddq     0x16f988fa16f988fa16f988fa16f988fa",
"        ddq     0xf2c65152f2c65152f2c65152f2c65152",
"        ddq     0xf2c65152f2c65152f2c65152f2c65152",
"        ddq     0xa88e5a6da88e5a6da88e5a6da88e5a6d",
"        ddq     0xa88e5a6da88e5a6da88e5a6da88e5a6d",
"        ddq     0xb019fc65b019fc65b019fc65b019fc65",
"        ddq     0xb019fc65b019fc65b019fc65b019fc65",
"        ddq     0xb9d99ec7b9d99ec7b9d99ec7b9d99ec7",
"        ddq     0xb9d99ec7b9d99ec7b9d99ec7b9d99ec7",
"        ddq     0x9a1231c39a1231c39a1231c39a1231c3",
"        ddq     0x9a1231c39a1231c39a1231c39a1231c3",
"        ddq     0xe70eeaa0e70eeaa0e70eeaa0e70eeaa0",
"        ddq     0xe70eeaa0e70eeaa0e70eeaa0e70eeaa0",
"        ddq     0xfdb1232bfdb1232bfdb1232bfdb1232b",
"        ddq     0xfdb1232bfdb1232bfdb1232bfdb1232b",
"        ddq     0xc7353eb0c7353eb0c7353eb0c7353eb0",
"        ddq     0xc7353eb0c7353eb0c7353eb0c7353eb0",
"        ddq     0x3069bad53069bad53069bad53069bad5",
"        ddq     0x3069bad53069bad53069bad53069bad5",
"        ddq     0xcb976d5fcb976d5fcb976d5fcb976d5f",
"        ddq     0xcb976d5fcb976d5fcb976d5fcb976d5f",
"        ddq     0x5a0f118f5a0f118f5a0f118f5a0f118f",
"        ddq     0x5a0f118f5a0f118f5a0f118f5a0f118f",
"        ddq     0xdc1eeefddc1eeefddc1eeefddc1eeefd",
"        ddq     0xdc1eeefddc1eeefddc1eeefddc1eeefd",
"        ddq     0x0a35b6890a35b6890a35b6890a35b689",
"        ddq     0x0a35b6890a35b6890a35b6890a35b689",
"        ddq     0xde0b7a04de0b7a04de0b7a04de0b7a04",
"        ddq     0xde0b7a04de0b7a04de0b7a04de0b7a04",
"        ddq     0x58f4ca9d58f4ca9d58f4ca9d58f4ca9d",
"        ddq     0x58f4ca9d58f4ca9d58f4ca9d58f4ca9d",
"        ddq     0xe15d5b16e15d5b16e15d5b16e15d5b16",
"        ddq     0xe15d5b16e15d5b16e15d5b16e15d5b16",
"        ddq     0x007f3e86007f3e86007f3e86007f3e86",
"        ddq     0x007f3e86007f3e86007f3e86007f3e86",
"        ddq     0x37088980370889803708898037088980",
"        ddq     0x37088980370889803708898037088980",
"        ddq     0xa507ea32a507ea32a507ea32a507ea32",
"        ddq     0xa507ea32a507ea32a507ea32a507ea32",
"        ddq     0x6fab95376fab95376fab95376fab9537",
"        ddq     0x6fab95376fab95376fab95376fab9537",
"        ddq     0x17406110174061101740611017406110",
"        ddq     0x17406110174061101740611017406110",
"        ddq     0x0d8cd6f10d8cd6f10d8cd6f10d8cd6f1",
"        ddq     0x0d8cd6f10d8cd6f10d8cd6f10d8cd6f1",
"        ddq     0xcdaa3b6dcdaa3b6dcdaa3b6dcdaa3b6d",
"        ddq     0xcdaa3b6dcdaa3b6dcdaa3b6dcdaa3b6d",
"        ddq     0xc0bbbe37c0bbbe37c0bbbe37c0bbbe37",
"        ddq     0xc0bbbe37c0bbbe37c0bbbe37c0bbbe37",
"        ddq     0x83613bda83613bda83613bda83613bda",
"        ddq     0x83613bda83613bda83613bda83613bda",
"        ddq     0xdb48a363db48a363db48a363db48a363",
"        ddq     0xdb48a363db48a363db48a363db48a363",
"        ddq     0x0b02e9310b02e9310b02e9310b02e931",
"        ddq     0x0b02e9310b02e9310b02e9310b02e931",
"        ddq     0x6fd15ca76fd15ca76fd15ca76fd15ca7",
"        ddq     0x6fd15ca76fd15ca76fd15ca76fd15ca7",
"        ddq     0x521afaca521afaca521afaca521afaca",
"        ddq     0x521afaca521afaca521afaca521afaca",
"        ddq     0x31338431313384313133843131338431",
"        ddq     0x31338431313384313133843131338431",
"        ddq     0x6ed41a956ed41a956ed41a956ed41a95",
"        ddq     0x6ed41a956ed41a956ed41a956ed41a95",
"        ddq     0x6d4378906d4378906d4378906d437890",
"        ddq     0x6d4378906d4378906d4378906d437890",
"        ddq     0xc39c91f2c39c91f2c39c91f2c39c91f2",
"        ddq     0xc39c91f2c39c91f2c39c91f2c39c91f2",
"        ddq     0x9eccabbd9eccabbd9eccabbd9eccabbd",
"        ddq     0x9eccabbd9eccabbd9eccabbd9eccabbd",
"        ddq     0xb5c9a0e6b5c9a0e6b5c9a0e6b5c9a0e6",
"        ddq     0xb5c9a0e6b5c9a0e6b5c9a0e6b5c9a0e6",
"        ddq     0x532fb63c532fb63c532fb63c532fb63c",
"        ddq     0x532fb63c532fb63c532fb63c532fb63c",
"        ddq     0xd2c741c6d2c741c6d2c741c6d2c741c6",
"        ddq     0xd2c741c6d2c741c6d2c741c6d2c741c6",
"        ddq     0x07237ea307237ea307237ea307237ea3",
"        ddq     0x07237ea307237ea307237ea307237ea3",
"        ddq     0xa4954b68a4954b68a4954b68a4954b68",
"        ddq     0xa4954b68a4954b68a4954b68a4954b68",
"        ddq     0x4c191d764c191d764c191d764c191d76",
"        ddq     0x4c191d764c191d764c191d764c191d76",
"",
"",
"DIGEST_8:",
"        dd      0x6a09e667, 0x6a09e667, 0x6a09e667, 0x6a09e667",
"        dd      0x6a09e667, 0x6a09e667, 0x6a09e667, 0x6a09e667",
"\tdd \t0xbb67ae85, 0xbb67ae85, 0xbb67ae85, 0xbb67ae85 ",
"\tdd \t0xbb67ae85, 0xbb67ae85, 0xbb67ae85, 0xbb67ae85 ",
"\tdd      0x3c6ef372, 0x3c6ef372, 0x3c6ef372, 0x3c6ef372 ",
"\tdd      0x3c6ef372, 0x3c6ef372, 0x3c6ef372, 0x3c6ef372 ",
"\tdd \t0xa54ff53a, 0xa54ff53a, 0xa54ff53a, 0xa54ff53a ",
"\tdd \t0xa54ff53a, 0xa54ff53a, 0xa54ff53a, 0xa54ff53a ",
"\tdd\t0x510e527f, 0x510e527f, 0x510e527f, 0x510e527f",
"\tdd\t0x510e527f, 0x510e527f, 0x510e527f, 0x510e527f",
"\tdd \t0x9b05688c, 0x9b05688c, 0x9b05688c, 0x9b05688c ",
"\tdd \t0x9b05688c, 0x9b05688c, 0x9b05688c, 0x9b05688c ",
"\tdd\t0x1f83d9ab, 0x1f83d9ab, 0x1f83d9ab, 0x1f83d9ab",
"\tdd\t0x1f83d9ab, 0x1f83d9ab, 0x1f83d9ab, 0x1f83d9ab",
"        dd      0x5be0cd19, 0x5be0cd19, 0x5be0cd19, 0x5be0cd19",
"        dd      0x5be0cd19, 0x5be0cd19, 0x5be0cd19, 0x5be0cd19",
"",
"",
"PSHUFFLE_BYTE_FLIP_MASK: ",
"\tdq 0x0405060700010203, 0x0c0d0e0f08090a0b",
"\tdq 0x0405060700010203, 0x0c0d0e0f08090a0b",
"",
"STACK_ALIGNMENT_MASK:",
"\tdq 0xffffffffffffffe0",
"",
"section .text",
"",
"%ifdef WINABI",
"\t%define OUTPUT_PTR\trcx \t; 1st arg",
"\t%define DATA_PTR\trdx \t; 2nd arg",
"\t%define NUM_BLKS \tr8\t; 3rd arg",
"\t%define TBL \t\trsi",
"\t%define reg1\t\trdi",
"%else",
"\t%define OUTPUT_PTR\trdi\t; 1st arg",
"\t%define DATA_PTR\trsi\t; 2nd arg",
"\t%define NUM_BLKS\trdx\t; 3rd arg",
"\t%define TBL \t\trcx",
"\t%define reg1 \t\tr8",
"%endif",
"",
"%define ROUND\trax",
"",
"%define inp0 r9",
"%define inp1 r10",
"%define inp2 r11",
"%define inp3 r12",
"%define inp4 r13",
"%define inp5 r14",
"%define inp6 reg1",
"%define inp7 reg2",
"",
"",
"",
"; ymm0\ta",
"; ymm1\tb",
"; ymm2\tc",
"; ymm3\td",
"; ymm4\te",
"; ymm5\tf",
"; ymm6\tg\tTMP0",
"; ymm7\th\tTMP1",
"; ymm8\tT1\tTT0",
"; ymm9\t\tTT1",
"; ymm10\t\tTT2",
"; ymm11\t\tTT3",
"; ymm12\ta0\tTT4",
"; ymm13\ta1\tTT5",
"; ymm14\ta2\tTT6",
"; ymm15\tTMP\tTT7",
"",
"%define a ymm0",
"%define b ymm1",
"%define c ymm2",
"%define d ymm3",
"%define e ymm4",
"%define f ymm5",
"%define g ymm6",
"%define h ymm7",
"",
"%define T1  ymm8",
"",
"%define a0 ymm12",
"%define a1 ymm13",
"%define a2 ymm14",
"%define TMP ymm15",
"",
"%define TMP0 ymm6",
"%define TMP1 ymm7",
"",
"%define TT0 ymm8",
"%define TT1 ymm9",
"%define TT2 ymm10",
"%define TT3 ymm11",
"%define TT4 ymm12",
"%define TT5 ymm13",
"%define TT6 ymm14",
"%define TT7 ymm15",
"",
"%define SHA256_DIGEST_WORD_SIZE  4;",
"%define SZ8\t8*SHA256_DIGEST_WORD_SIZE\t; Size of one vector register",
"%define ROUNDS 64*SZ8",
"",
"; Define stack usage",
"",
";; Assume stack aligned to 32 bytes before call",
";; Therefore FRAMESZ mod 32 must be 32-8 = 24",
"struc stack_frame",
"  .data\t\tresb\t16*SZ8",
"  .digest\tresb\t8*SZ8",
"  .ytmp\t\tresb\t4*SZ8",
"  .regsave\tresb    4*64",
"endstruc",
"%define FRAMESZ\tstack_frame_size",
"%define _DIGEST\tstack_frame.digest",
"%define _YTMP\tstack_frame.ytmp",
"%define _RSAVE  stack_frame.regsave",
"",
"%define YTMP0\trsp + _YTMP + 0*SZ8",
"%define YTMP1\trsp + _YTMP + 1*SZ8",
"%define YTMP2\trsp + _YTMP + 2*SZ8",
"%define YTMP3\trsp + _YTMP + 3*SZ8",
"%define R12 \trsp + _RSAVE + 0*64",
"%define R13 \trsp + _RSAVE + 1*64",
"%define R14 \trsp + _RSAVE + 2*64",
"%define R15 \trsp + _RSAVE + 3*64",
"\t",
"",
"%define VMOVPS\tvmovups",
"",
"",
"%macro ROTATE_ARGS 0",
"%xdefine TMP_ h",
"%xdefine h g",
"%xdefine g f",
"%xdefine f e",
"%xdefine e d",
"%xdefine d c",
"%xdefine c b",
"%xdefine b a",
"%xdefine a TMP_",
"%endm",
"",
"; PRORD reg, imm, tmp",
"%macro PRORD 3",
"%define %%reg %1",
"%define %%imm %2",
"%define %%tmp %3",
"\tvpslld\t%%tmp, %%reg, (32-(%%imm))",
"\tvpsrld\t%%reg, %%reg, %%imm",
"\tvpor\t%%reg, %%reg, %%tmp",
"%endmacro",
"",
"; non-destructive",
"; PRORD_nd reg, imm, tmp, src",
"%macro PRORD_nd 4",
"%define %%reg %1",
"%define %%imm %2",
"%define %%tmp %3",
"%define %%src %4",
"\t;vmovdqa\t%%tmp, %%reg",
"\tvpslld\t%%tmp, %%src, (32-(%%imm))",
"\tvpsrld\t%%reg, %%src, %%imm",
"\tvpor\t%%reg, %%reg, %%tmp",
"%endmacro",
"",
"; PRORD dst/src, amt",
"%macro PRORD 2",
"\tPRORD\t%1, %2, TMP",
"%endmacro",
"",
"; PRORD_nd dst, src, amt",
"%macro PRORD_nd 3",
"\tPRORD_nd\t%1, %3, TMP, %2",
"%endmacro",
"",
";; arguments passed implicitly in preprocessor symbols i, a...h",
"%macro ROUND_00_15 2",
"%define %%T1 %1",
"%define %%i  %2",
"\tPRORD_nd\ta0, e, (11-6)\t; sig1: a0 = (e >> 5)",
"",
"\tvpxor\ta2, f, g\t; ch: a2 = f^g",
"\tvpand\ta2, a2, e\t\t; ch: a2 = (f^g)&e",
"\tvpxor\ta2, a2, g\t\t; a2 = ch",
"",
"\tPRORD_nd\ta1, e, 25\t\t; sig1: a1 = (e >> 25)",
"\tvmovdqa\t[SZ8*(%%i&0xf) + rsp], %%T1     ; save current temp message",
"\tvpaddd\t%%T1, %%T1, [TBL + ROUND]\t; T1 = W + K",
"\tvpxor\ta0, a0, e\t; sig1: a0 = e ^ (e >> 5)",
"\tPRORD\ta0, 6\t\t; sig1: a0 = (e >> 6) ^ (e >> 11)",
"\tvpaddd\th, h, a2\t; h = h + ch",
"\tPRORD_nd\ta2, a, (13-2)\t; sig0: a2 = (a >> 11)",
"\tvpaddd\th, h, %%T1\t; h = h + ch + W + K",
"\tvpxor\ta0, a0, a1\t; a0 = sigma1",
"\tPRORD_nd\ta1, a, 22\t; sig0: a1 = (a >> 22)",
"\tvpxor\t%%T1, a, c\t; maj: T1 = a^c",
"\tadd\tROUND, SZ8\t; ROUND++",
"\tvpand\t%%T1, %%T1, b\t; maj: T1 = (a^c)&b",
"\tvpaddd\th, h, a0",
"",
"\tvpaddd\td, d, h",
"",
"\tvpxor\ta2, a2, a\t; sig0: a2 = a ^ (a >> 11)",
"\tPRORD\ta2, 2\t\t; sig0: a2 = (a >> 2) ^ (a >> 13)",
"\tvpxor\ta2, a2, a1\t; a2 = sig0",
"\tvpand\ta1, a, c\t; maj: a1 = a&c",
"\tvpor\ta1, a1, %%T1\t; a1 = maj",
"\tvpaddd\th, h, a1\t; h = h + ch + W + K + maj",
"\tvpaddd\th, h, a2\t; h = h + ch + W + K + maj + sigma0",
"",
"\tROTATE_ARGS",
"%endm",
"",
"",
";; arguments passed implicitly in preprocessor symbols i, a...h",
"%macro ROUND_16_XX 2",
"%define %%T1 %1",
"%define %%i  %2",
"\tvmovdqa\t%%T1, [SZ8*((%%i-15)&0xf) + rsp]",
"\tvmovdqa\ta1, [SZ8*((%%i-2)&0xf) + rsp]",
"\tvmovdqa\ta0, %%T1",
"\tPRORD\t%%T1, 18-7",
"\tvmovdqa\ta2, a1",
"\tPRORD\ta1, 19-17",
"\tvpxor\t%%T1, %%T1, a0",
"\tPRORD\t%%T1, 7",
"\tvpxor\ta1, a1, a2",
"\tPRORD\ta1, 17",
"\tvpsrld\ta0, a0, 3",
"\tvpxor\t%%T1, %%T1, a0",
"\tvpsrld\ta2, a2, 10",
"\tvpxor\ta1, a1, a2",
"\tvpaddd\t%%T1, %%T1, [SZ8*((%%i-16)&0xf) + rsp]   ; + W[i-16]",
"\tvpaddd\ta1, a1, [SZ8*((%%i-7)&0xf) + rsp]        ; + W[i-7]",
"\tvpaddd\t%%T1, %%T1, a1",
"",
"\tROUND_00_15 %%T1, %%i",
"",
"%endm",
"",
";; arguments passed implicitly in preprocessor symbols i, a...h",
"%macro PADDING_ROUND_00_15 1",
"%define %%T1 %1",
"\tPRORD_nd\ta0, e, (11-6)\t; sig1: a0 = (e >> 5)",
"",
"\tvpxor\ta2, f, g\t; ch: a2 = f^g",
"\tvpand\ta2, a2, e\t\t; ch: a2 = (f^g)&e",
"\tvpxor\ta2, a2, g\t\t; a2 = ch",
"",
"\tPRORD_nd\ta1, e, 25\t\t; sig1: a1 = (e >> 25)",
"\tvmovdqa \t%%T1, [TBL + ROUND]\t; T1 = W + K",
"\tvpxor\ta0, a0, e\t; sig1: a0 = e ^ (e >> 5)",
"\tPRORD\ta0, 6\t\t; sig1: a0 = (e >> 6) ^ (e >> 11)",
"\tvpaddd\th, h, a2\t; h = h + ch",
"\tPRORD_nd\ta2, a, (13-2)\t; sig0: a2 = (a >> 11)",
"\tvpaddd\th, h, %%T1\t; h = h + ch + W + K",
"\tvpxor\ta0, a0, a1\t; a0 = sigma1",
"\tPRORD_nd\ta1, a, 22\t; sig0: a1 = (a >> 22)",
"\tvpxor\t%%T1, a, c\t; maj: T1 = a^c",
"\tadd\tROUND, SZ8\t; ROUND++",
"\tvpand\t%%T1, %%T1, b\t; maj: T1 = (a^c)&b",
"\tvpaddd\th, h, a0",
"",
"\tvpaddd\td, d, h",
"",
"\tvpxor\ta2, a2, a\t; sig0: a2 = a ^ (a >> 11)",
"\tPRORD\ta2, 2\t\t; sig0: a2 = (a >> 2) ^ (a >> 13)",
"\tvpxor\ta2, a2, a1\t; a2 = sig0",
"\tvpand\ta1, a, c\t; maj: a1 = a&c",
"\tvpor\ta1, a1, %%T1\t; a1 = maj",
"\tvpaddd\th, h, a1\t; h = h + ch + W + K + maj",
"\tvpaddd\th, h, a2\t; h = h + ch + W + K + maj + sigma0",
"",
"\tROTATE_ARGS",
"%endm",
"",
"",
"",
"global sha256_8_avx2:function",
"align 16",
"sha256_8_avx2:",
"        endbranch64",
"\t; outer calling routine saves all the XMM registers",
"\tpush \trbp",
"\tmov     rbp,rsp",
"\tand \trsp, [rel STACK_ALIGNMENT_MASK]",
"\tsub\trsp, FRAMESZ",
"\tmov\t[R12], r12",
"\tmov\t[R13], r13",
"\tmov\t[R14], r14",
"\tmov\t[R15], r15",
"\t",
".hash_8_blocks:",
"\tcmp \tNUM_BLKS, 8",
"\tjl \t.hash_4_blocks",
"\txor\tROUND, ROUND",
"",
"\tlea TBL,[rel DIGEST_8]",
"\tvmovdqa\ta,[TBL + 0*32]",
"\tvmovdqa\tb,[TBL + 1*32]",
"\tvmovdqa\tc,[TBL + 2*32]",
"\tvmovdqa\td,[TBL + 3*32]",
"\tvmovdqa\te,[TBL + 4*32]",
"\tvmovdqa\tf,[TBL + 5*32]",
"\tvmovdqa\tg,[TBL + 6*32]",
"\tvmovdqa\th,[TBL + 7*32]",
"",
"\tlea\tTBL,[rel K256_8]",
"\t",
"%assign i 0",
"%rep 2",
"\tTRANSPOSE8_U32_LOAD8 TT0, TT1, TT2, TT3, TT4, TT5, TT6, TT7, \\",
"\t\t\t     DATA_PTR + 0*64, \\",
"\t\t\t     DATA_PTR + 1*64, \\",
"\t\t\t     DATA_PTR + 2*64, \\",
"\t\t\t     DATA_PTR + 3*64, \\",
"\t\t\t     DATA_PTR + 4*64, \\",
"\t\t\t     DATA_PTR + 5*64, \\",
"\t\t\t     DATA_PTR + 6*64, \\",
"\t\t\t     DATA_PTR + 7*64, \\",
"\t\t\t     i*32",
"",
"\tvmovdqa\t[YTMP0], g",
"\tvmovdqa\t[YTMP1], h",
"\tTRANSPOSE8_U32_PRELOADED TT0, TT1, TT2, TT3, TT4, TT5, TT6, TT7,   TMP0, TMP1",
"\tvmovdqa\tTMP1, [rel PSHUFFLE_BYTE_FLIP_MASK]",
"\tvmovdqa\tg, [YTMP0]",
"\tvpshufb\tTT0, TT0, TMP1",
"\tvpshufb\tTT1, TT1, TMP1",
"\tvpshufb\tTT2, TT2, TMP1",
"\tvpshufb\tTT3, TT3, TMP1",
"\tvpshufb\tTT4, TT4, TMP1",
"\tvpshufb\tTT5, TT5, TMP1",
"\tvpshufb\tTT6, TT6, TMP1",
"\tvpshufb\tTT7, TT7, TMP1",
"\tvmovdqa\th, [YTMP1]",
"\tvmovdqa\t[YTMP0], TT4",
"\tvmovdqa\t[YTMP1], TT5",
"\tvmovdqa\t[YTMP2], TT6",
"\tvmovdqa\t[YTMP3], TT7",
"\tROUND_00_15\tTT0,(i*8+0)",
"\tvmovdqa\tTT0, [YTMP0]",
"\tROUND_00_15\tTT1,(i*8+1)",
"\tvmovdqa\tTT1, [YTMP1]",
"\tROUND_00_15\tTT2,(i*8+2)",
"\tvmovdqa\tTT2, [YTMP2]",
"\tROUND_00_15\tTT3,(i*8+3)",
"\tvmovdqa\tTT3, [YTMP3]",
"\tROUND_00_15\tTT0,(i*8+4)",
"\tROUND_00_15\tTT1,(i*8+5)",
"\tROUND_00_15\tTT2,(i*8+6)",
"\tROUND_00_15\tTT3,(i*8+7)",
"%assign i (i+1)",
"%endrep",
"",
"%assign i (i*8)",
"",
"\tjmp\t.Lrounds_16_xx",
"align 16",
".Lrounds_16_xx:",
"%rep 16",
"\tROUND_16_XX\tT1, i",
"%assign i (i+1)",
"%endrep",
"",
"\tcmp\tROUND,ROUNDS",
"\tjb\t.Lrounds_16_xx",
"",
"\t;; add old digest",
"\tlea TBL,[rel DIGEST_8]",
"\tvpaddd\ta, a, [TBL + 0*SZ8]",
"\tvpaddd\tb, b, [TBL + 1*SZ8]",
"\tvpaddd\tc, c, [TBL + 2*SZ8]",
"\tvpaddd\td, d, [TBL + 3*SZ8]",
"\tvpaddd\te, e, [TBL + 4*SZ8]",
"\tvpaddd\tf, f, [TBL + 5*SZ8]",
"\tvpaddd\tg, g, [TBL + 6*SZ8]",
"\tvpaddd\th, h, [TBL + 7*SZ8]",
"",
"\t;; rounds with padding",
"",
"\t;; save old digest",
"\tvmovdqa\t[rsp + _DIGEST + 0*SZ8], a",
"\tvmovdqa\t[rsp + _DIGEST + 1*SZ8], b",
"\tvmovdqa\t[rsp + _DIGEST + 2*SZ8], c",
"\tvmovdqa\t[rsp + _DIGEST + 3*SZ8], d",
"\tvmovdqa\t[rsp + _DIGEST + 4*SZ8], e",
"\tvmovdqa\t[rsp + _DIGEST + 5*SZ8], f",
"\tvmovdqa\t[rsp + _DIGEST + 6*SZ8], g",
"\tvmovdqa\t[rsp + _DIGEST + 7*SZ8], h",
"",
"",
"\tlea TBL,[rel PADDING_8]",
"\txor ROUND,ROUND",
"\tjmp \t.Lrounds_padding",
"",
"align 16",
".Lrounds_padding:",
"%rep 64",
"\tPADDING_ROUND_00_15 \tT1",
"%endrep",
"\t;; add old digest",
"\tvpaddd\ta, a, [rsp + _DIGEST + 0*SZ8]",
"\tvpaddd\tb, b, [rsp + _DIGEST + 1*SZ8]",
"\tvpaddd\tc, c, [rsp + _DIGEST + 2*SZ8]",
"\tvpaddd\td, d, [rsp + _DIGEST + 3*SZ8]",
"\tvpaddd\te, e, [rsp + _DIGEST + 4*SZ8]",
"\tvpaddd\tf, f, [rsp + _DIGEST + 5*SZ8]",
"\tvpaddd\tg, g, [rsp + _DIGEST + 6*SZ8]",
"\tvpaddd\th, h, [rsp + _DIGEST + 7*SZ8]",
"",
"",
"\t;; transpose the digest and convert to little endian to get the registers correctly",
"",
"\tTRANSPOSE8_U32 a, b, c, d, e, f, g, h, TT0, TT1",
"\tvmovdqa\tTT0, [rel PSHUFFLE_BYTE_FLIP_MASK]",
"\tvpshufb\ta, a, TT0",
"\tvpshufb\tb, b, TT0",
"\tvpshufb\tc, c, TT0",
"\tvpshufb\td, d, TT0",
"\tvpshufb\te, e, TT0",
"\tvpshufb\tf, f, TT0",
"\tvpshufb\tg, g, TT0",
"\tvpshufb\th, h, TT0",
"",
"\t;; write to output",
"",
"\tvmovdqu\t[OUTPUT_PTR + 0*32],a",
"\tvmovdqu\t[OUTPUT_PTR + 1*32],b",
"\tvmovdqu\t[OUTPUT_PTR + 2*32],c",
"\tvmovdqu\t[OUTPUT_PTR + 3*32],d",
"\tvmovdqu\t[OUTPUT_PTR + 4*32],e",
"\tvmovdqu\t[OUTPUT_PTR + 5*32],f",
"\tvmovdqu\t[OUTPUT_PTR + 6*32],g",
"\tvmovdqu\t[OUTPUT_PTR + 7*32],h",
"",
"\t; update pointers and loop",
"",
"        add \tDATA_PTR, 64*8",
"\tadd \tOUTPUT_PTR, 32*8",
"\tsub \tNUM_BLKS, 8",
"",
"\tjmp     .hash_8_blocks",
"",
".hash_4_blocks:",
"",
"\tcall  \tsha256_4_avx",
"",
"\tmov\tr12,[R12]",
"\tmov\tr13,[R13]",
"\tmov\tr14,[R14]",
"\tmov\tr15,[R15]",
"",
"\tmov     rsp,rbp",
"\tpop     rbp",
"\tret",
"",
"%ifdef LINUX",
"section .note.GNU-stack noalloc noexec nowrite progbits",
"%endif"]

/-- The lines of ssz/sha256_shani.asm:1-1025. -/
def shani : List String := [
";;  sha256.asm",
"; *",
"; *  This file is part of Mammon.",
"; *  mammon is a greedy and selfish ETH consensus client.",
"; *",
"; *  Copyright (c) 2021 - Reimundo Heluani (potuz) potuz@potuz.net",
"; *",
"; *  This program is free software: you can redistribute it and/or modify",
"; *  it under the terms of the GNU General Public License as published by",
"; *  the Free Software Foundation, either version 3 of the License, or",
"; *  (at your option) any later version.",
"; *",
"; *  This program is distributed in the hope that it will be useful,",
"; *  but WITHOUT ANY WARRANTY; without even the implied warranty of",
"; *  MERCHANTABILITY or FITNESS FOR A PARTICULAR PURPOSE.  See the",
"; *  GNU General Public License for more details.",
"; *",
";  You should have received a copy of the GNU General Public License",
";  along with this program.  If not, see <http://www.gnu.org/licenses/>.",
";",
";  This implementation is a 64 bytes optimized implementation based on Intel's code",
";  whose copyright follows",
";",
";;;;;;;;;;;;;;;;;;;;;;;;;;;;;;;;;;;;;;;;;;;;;;;;;;;;;;;;;;;;;;;;;;;;;;;;;;;;;;;;;",
";; Copyright (c) 2013, Intel Corporation ",
"; ",
"; All rights reserved. ",
"; ",
"; Redistribution and use in source and binary forms, with or without",
"; modification, are permitted provided that the following conditions are",
"; met: ",
"; ",
"; * Redistributions of source code must retain the above copyright",
";   notice, this list of conditions and the following disclaimer.  ",
"; ",
"; * Redistributions in binary form must reproduce the above copyright",
";   notice, this list of conditions and the following disclaimer in the",
";   documentation and/or other materials provided with the",
";   distribution. ",
"; ",
"; * Neither the name of the Intel Corporation nor the names of its",
";   contributors may be used to endorse or promote products derived from",
";   this software without specific prior written permission. ",
"; ",
"; ",
"; THIS SOFTWARE IS PROVIDED BY INTEL CORPORATION \"\"AS IS\"\" AND ANY",
"; EXPRESS OR IMPLIED WARRANTIES, INCLUDING, BUT NOT LIMITED TO, THE",
"; IMPLIED WARRANTIES OF MERCHANTABILITY AND FITNESS FOR A PARTICULAR",
"; PURPOSE ARE DISCLAIMED. IN NO EVENT SHALL INTEL CORPORATION OR",
"; CONTRIBUTORS BE LIABLE FOR ANY DIRECT, INDIRECT, INCIDENTAL, SPECIAL,",
"; EXEMPLARY, OR CONSEQUENTIAL DAMAGES (INCLUDING, BUT NOT LIMITED TO,",
"; PROCUREMENT OF SUBSTITUTE GOODS OR SERVICES; LOSS OF USE, DATA, OR",
"; PROFITS; OR BUSINESS INTERRUPTION) HOWEVER CAUSED AND ON ANY THEORY OF",
"; LIABILITY, WHETHER IN CONTRACT, STRICT LIABILITY, OR TORT (INCLUDING",
"; NEGLIGENCE OR OTHERWISE) ARISING IN ANY WAY OUT OF THE USE OF THIS",
"; SOFTWARE, EVEN IF ADVISED OF THE POSSIBILITY OF SUCH DAMAGE.",
";;;;;;;;;;;;;;;;;;;;;;;;;;;;;;;;;;;;;;;;;;;;;;;;;;;;;;;;;;;;;;;;;;;;;;;;;;;;;;;;",
"%ifdef WINABI",
"%define OUTPUT_PTR\trcx \t; 1st arg",
"%define DATA_PTR\trdx \t; 2nd arg",
"%define NUM_BLKS \tr8\t; 3rd arg",
"%define SHA256PADDING   rdi",
"%else",
"%define OUTPUT_PTR\trdi\t; 1st arg",
"%define DATA_PTR\trsi\t; 2nd arg",
"%define NUM_BLKS\trdx\t; 3rd arg",
"%define SHA256PADDING   rcx",
"%endif",
"",
"%define SHA256CONSTANTS\trax",
"",
"",
"%ifdef WINABI",
"%define RSPSAVE\t\tr9",
"",
"struc frame",
".xmm_save:\tresdq\t5",
"endstruc",
"%endif",
"",
"%define MSG\t\txmm0",
"%define STATE0\t\txmm1",
"%define STATE1\t\txmm2",
"%define MSGTMP0\t\txmm3",
"%define MSGTMP1\t\txmm4",
"%define MSGTMP2\t\txmm5",
"%define MSGTMP3\t\txmm6",
"%define MSGTMP4\t\txmm7",
"",
"%define SHUF_MASK\txmm8",
"",
"%define ABEF_SAVE\txmm9",
"%define CDGH_SAVE\txmm10",
"",
"%define STATE0b         xmm9",
"%define STATE1b         xmm10",
"%define MSGTMP0b\txmm11",
"%define MSGTMP1b\txmm12",
"%define MSGTMP2b\txmm13",
"%define MSGTMP3b\txmm14",
"%define MSGTMP4b\txmm15",
"",
"",
"",
"",
";;;;;;;;;;;;;;;;;;;;;;;;;;;;;;;;;;;;;;;;;;;;;;;;;;;;;;;;;;;;;;;;;;;;;;;;;;;;;;;;",
";; void sha256_update(uint32_t *output, const void *data, uint32_t numBlocks);",
";; arg 1 : pointer to output digest",
";; arg 2 : pointer to input data",
";; arg 3 : Number of blocks to process",
";;;;;;;;;;;;;;;;;;;;;;;;;;;;;;;;;;;;;;;;;;;;;;;;;;;;;;;;;;;;;;;;;;;;;;;;;;;;;;;;",
"section .text",
"global sha256_shani:function",
"align 32",
"sha256_shani:",
"%ifdef WINABI",
"\tmov\t\tRSPSAVE, rsp",
"\tsub\t\trsp, frame_size",
"\tand\t\trsp, ~0xF",
"",
"\tmovdqa\t\t[rsp + frame.xmm_save + 0*16], xmm6",
"\tmovdqa\t\t[rsp + frame.xmm_save + 1*16], xmm7",
"\tmovdqa\t\t[rsp + frame.xmm_save + 2*16], xmm8",
"\tmovdqa\t\t[rsp + frame.xmm_save + 3*16], xmm9",
"\tmovdqa\t\t[rsp + frame.xmm_save + 4*16], xmm10",
"%endif",
"",
"\tmovdqa\t\tSHUF_MASK, [PSHUFFLE_BYTE_FLIP_MASK wrt rip]",
"\tlea\t\tSHA256CONSTANTS,[K256 wrt rip]",
"\tlea\t\tSHA256PADDING,[PADDING wrt rip]",
"",
"",
".hash_2_blocks:",
"        cmp             NUM_BLKS, 2",
"\tjl\t\t.hash_1_block",
"",
"        movdqa          STATE0, [DIGEST wrt rip]",
"        movdqa          STATE1, [DIGEST + 16 wrt rip]",
"",
"        movdqa          STATE0b, [DIGEST wrt rip]",
"        movdqa          STATE1b, [DIGEST + 16 wrt rip]",
"",
"\t;; Rounds 0-3",
"\tmovdqu\t\tMSG, [DATA_PTR + 0*16]",
"\tpshufb\t\tMSG, SHUF_MASK",
"\tmovdqa\t\tMSGTMP0, MSG",
"\t\tpaddd\t\tMSG, [SHA256CONSTANTS + 0*16]",
"\t\tsha256rnds2\tSTATE1, STATE0",
"\t\tpshufd \t\tMSG, MSG, 0x0E",
"\t\tsha256rnds2\tSTATE0, STATE1",
"\tmovdqu\t\tMSG, [DATA_PTR + 4*16]",
"\tpshufb\t\tMSG, SHUF_MASK",
"\tmovdqa\t\tMSGTMP0b, MSG",
"\t\tpaddd\t\tMSG, [SHA256CONSTANTS + 0*16]",
"\t\tsha256rnds2\tSTATE1b, STATE0b",
"\t\tpshufd \t\tMSG, MSG, 0x0E",
"\t\tsha256rnds2\tSTATE0b, STATE1b",
"",
"",
"\t;; Rounds 4-7",
"\tmovdqu\t\tMSG, [DATA_PTR + 1*16]",
"\tpshufb\t\tMSG, SHUF_MASK",
"\tmovdqa\t\tMSGTMP1, MSG",
"\t\tpaddd\t\tMSG, [SHA256CONSTANTS + 1*16]",
"\t\tsha256rnds2\tSTATE1, STATE0",
"\t\tpshufd \t\tMSG, MSG, 0x0E",
"\t\tsha256rnds2\tSTATE0, STATE1",
"\tsha256msg1\tMSGTMP0, MSGTMP1",
"\tmovdqu\t\tMSG, [DATA_PTR + 5*16]",
"\tpshufb\t\tMSG, SHUF_MASK",
"\tmovdqa\t\tMSGTMP1b, MSG",
"\t\tpaddd\t\tMSG, [SHA256CONSTANTS + 1*16]",
"\t\tsha256rnds2\tSTATE1b, STATE0b",
"\t\tpshufd \t\tMSG, MSG, 0x0E",
"\t\tsha256rnds2\tSTATE0b, STATE1b",
"\tsha256msg1\tMSGTMP0b, MSGTMP1b",
"\t;; Rounds 8-11",
"\tmovdqu\t\tMSG, [DATA_PTR + 2*16]",
"\tpshufb\t\tMSG, SHUF_MASK",
"\tmovdqa\t\tMSGTMP2, MSG",
"\t\tpaddd\t\tMSG, [SHA256CONSTANTS + 2*16]",
"\t\tsha256rnds2\tSTATE1, STATE0",
"\t\tpshufd \t\tMSG, MSG, 0x0E",
"\t\tsha256rnds2\tSTATE0, STATE1",
"\tsha256msg1\tMSGTMP1, MSGTMP2",
"\tmovdqu\t\tMSG, [DATA_PTR + 6*16]",
"\tpshufb\t\tMSG, SHUF_MASK",
"\tmovdqa\t\tMSGTMP2b, MSG",
"\t\tpaddd\t\tMSG, [SHA256CONSTANTS + 2*16]",
"\t\tsha256rnds2\tSTATE1b, STATE0b",
"\t\tpshufd \t\tMSG, MSG, 0x0E",
"\t\tsha256rnds2\tSTATE0b, STATE1b",
"\tsha256msg1\tMSGTMP1b, MSGTMP2b",
"\t;; Rounds 12-15",
"\tmovdqu\t\tMSG, [DATA_PTR + 3*16]",
"\tpshufb\t\tMSG, SHUF_MASK",
"\tmovdqa\t\tMSGTMP3, MSG",
"\t\tpaddd\t\tMSG, [SHA256CONSTANTS + 3*16]",
"\t\tsha256rnds2\tSTATE1, STATE0",
"\tmovdqa\t\tMSGTMP4, MSGTMP3",
"\tpalignr\t\tMSGTMP4, MSGTMP2, 4",
"\tpaddd\t\tMSGTMP0, MSGTMP4",
"\tsha256msg2\tMSGTMP0, MSGTMP3",
"\t\tpshufd \t\tMSG, MSG, 0x0E",
"\t\tsha256rnds2\tSTATE0, STATE1",
"\tsha256msg1\tMSGTMP2, MSGTMP3",
"\tmovdqu\t\tMSG, [DATA_PTR + 7*16]",
"\tpshufb\t\tMSG, SHUF_MASK",
"\tmovdqa\t\tMSGTMP3b, MSG",
"\t\tpaddd\t\tMSG, [SHA256CONSTANTS + 3*16]",
"\t\tsha256rnds2\tSTATE1b, STATE0b",
"\tmovdqa\t\tMSGTMP4b, MSGTMP3b",
"\tpalignr\t\tMSGTMP4b, MSGTMP2b, 4",
"\tpaddd\t\tMSGTMP0b, MSGTMP4b",
"\tsha256msg2\tMSGTMP0b, MSGTMP3b",
"\t\tpshufd \t\tMSG, MSG, 0x0E",
"\t\tsha256rnds2\tSTATE0b, STATE1b",
"\tsha256msg1\tMSGTMP2b, MSGTMP3b",
"",
"\t;; Rounds 16-19",
"\tmovdqa\t\tMSG, MSGTMP0",
"\t\tpaddd\t\tMSG, [SHA256CONSTANTS + 4*16]",
"\t\tsha256rnds2\tSTATE1, STATE0",
"\tmovdqa\t\tMSGTMP4, MSGTMP0",
"\tpalignr\t\tMSGTMP4, MSGTMP3, 4",
"\tpaddd\t\tMSGTMP1, MSGTMP4",
"\tsha256msg2\tMSGTMP1, MSGTMP0",
"\t\tpshufd \t\tMSG, MSG, 0x0E",
"\t\tsha256rnds2\tSTATE0, STATE1",
"\tsha256msg1\tMSGTMP3, MSGTMP0",
"\tmovdqa\t\tMSG, MSGTMP0b",
"\t\tpaddd\t\tMSG, [SHA256CONSTANTS + 4*16]",
"\t\tsha256rnds2\tSTATE1b, STATE0b",
"\tmovdqa\t\tMSGTMP4b, MSGTMP0b",
"\tpalignr\t\tMSGTMP4b, MSGTMP3b, 4",
"\tpaddd\t\tMSGTMP1b, MSGTMP4b",
"\tsha256msg2\tMSGTMP1b, MSGTMP0b",
"\t\tpshufd \t\tMSG, MSG, 0x0E",
"\t\tsha256rnds2\tSTATE0b, STATE1b",
"\tsha256msg1\tMSGTMP3b, MSGTMP0b",
"",
"\t;; Rounds 20-23",
"\tmovdqa\t\tMSG, MSGTMP1",
"\t\tpaddd\t\tMSG, [SHA256CONSTANTS + 5*16]",
"\t\tsha256rnds2\tSTATE1, STATE0",
"\tmovdqa\t\tMSGTMP4, MSGTMP1",
"\tpalignr\t\tMSGTMP4, MSGTMP0, 4",
"\tpaddd\t\tMSGTMP2, MSGTMP4",
"\tsha256msg2\tMSGTMP2, MSGTMP1",
"\t\tpshufd \t\tMSG, MSG, 0x0E",
"\t\tsha256rnds2\tSTATE0, STATE1",
"\tsha256msg1\tMSGTMP0, MSGTMP1",
"\tmovdqa\t\tMSG, MSGTMP1b",
"\t\tpaddd\t\tMSG, [SHA256CONSTANTS + 5*16]",
"\t\tsha256rnds2\tSTATE1b, STATE0b",
"\tmovdqa\t\tMSGTMP4b, MSGTMP1b",
"\tpalignr\t\tMSGTMP4b, MSGTMP0b, 4",
"\tpaddd\t\tMSGTMP2b, MSGTMP4b",
"\tsha256msg2\tMSGTMP2b, MSGTMP1b",
"\t\tpshufd \t\tMSG, MSG, 0x0E",
"\t\tsha256rnds2\tSTATE0b, STATE1b",
"\tsha256msg1\tMSGTMP0b, MSGTMP1b",
"",
"\t;; Rounds 24-27",
"\tmovdqa\t\tMSG, MSGTMP2",
"\t\tpaddd\t\tMSG, [SHA256CONSTANTS + 6*16]",
"\t\tsha256rnds2\tSTATE1, STATE0",
"\tmovdqa\t\tMSGTMP4, MSGTMP2",
"\tpalignr\t\tMSGTMP4, MSGTMP1, 4",
"\tpaddd\t\tMSGTMP3, MSGTMP4",
"\tsha256msg2\tMSGTMP3, MSGTMP2",
"\t\tpshufd \t\tMSG, MSG, 0x0E",
"\t\tsha256rnds2\tSTATE0, STATE1",
"\tsha256msg1\tMSGTMP1, MSGTMP2",
"",
"\tmovdqa\t\tMSG, MSGTMP2b",
"\t\tpaddd\t\tMSG, [SHA256CONSTANTS + 6*16]",
"\t\tsha256rnds2\tSTATE1b, STATE0b",
"\tmovdqa\t\tMSGTMP4b, MSGTMP2b",
"\tpalignr\t\tMSGTMP4b, MSGTMP1b, 4",
"\tpaddd\t\tMSGTMP3b, MSGTMP4b",
"\tsha256msg2\tMSGTMP3b, MSGTMP2b",
"\t\tpshufd \t\tMSG, MSG, 0x0E",
"\t\tsha256rnds2\tSTATE0b, STATE1b",
"\tsha256msg1\tMSGTMP1b, MSGTMP2b",
"",
"\t;; Rounds 28-31",
"\tmovdqa\t\tMSG, MSGTMP3",
"\t\tpaddd\t\tMSG, [SHA256CONSTANTS + 7*16]",
"\t\tsha256rnds2\tSTATE1, STATE0",
"\tmovdqa\t\tMSGTMP4, MSGTMP3",
"\tpalignr\t\tMSGTMP4, MSGTMP2, 4",
"\tpaddd\t\tMSGTMP0, MSGTMP4",
"\tsha256msg2\tMSGTMP0, MSGTMP3",
"\t\tpshufd \t\tMSG, MSG, 0x0E",
"\t\tsha256rnds2\tSTATE0, STATE1",
"\tsha256msg1\tMSGTMP2, MSGTMP3",
"\tmovdqa\t\tMSG, MSGTMP3b",
"\t\tpaddd\t\tMSG, [SHA256CONSTANTS + 7*16]",
"\t\tsha256rnds2\tSTATE1b, STATE0b",
"\tmovdqa\t\tMSGTMP4b, MSGTMP3b",
"\tpalignr\t\tMSGTMP4b, MSGTMP2b, 4",
"\tpaddd\t\tMSGTMP0b, MSGTMP4b",
"\tsha256msg2\tMSGTMP0b, MSGTMP3b",
"\t\tpshufd \t\tMSG, MSG, 0x0E",
"\t\tsha256rnds2\tSTATE0b, STATE1b",
"\tsha256msg1\tMSGTMP2b, MSGTMP3b",
"\t;; Rounds 32-35",
"\tmovdqa\t\tMSG, MSGTMP0",
"\t\tpaddd\t\tMSG, [SHA256CONSTANTS + 8*16]",
"\t\tsha256rnds2\tSTATE1, STATE0",
"\tmovdqa\t\tMSGTMP4, MSGTMP0",
"\tpalignr\t\tMSGTMP4, MSGTMP3, 4",
"\tpaddd\t\tMSGTMP1, MSGTMP4",
"\tsha256msg2\tMSGTMP1, MSGTMP0",
"\t\tpshufd \t\tMSG, MSG, 0x0E",
"\t\tsha256rnds2\tSTATE0, STATE1",
"\tsha256msg1\tMSGTMP3, MSGTMP0",
"\tmovdqa\t\tMSG, MSGTMP0b",
"\t\tpaddd\t\tMSG, [SHA256CONSTANTS + 8*16]",
"\t\tsha256rnds2\tSTATE1b, STATE0b",
"\tmovdqa\t\tMSGTMP4b, MSGTMP0b",
"\tpalignr\t\tMSGTMP4b, MSGTMP3b, 4",
"\tpaddd\t\tMSGTMP1b, MSGTMP4b",
"\tsha256msg2\tMSGTMP1b, MSGTMP0b",
"\t\tpshufd \t\tMSG, MSG, 0x0E",
"\t\tsha256rnds2\tSTATE0b, STATE1b",
"\tsha256msg1\tMSGTMP3b, MSGTMP0b",
"",
"\t;; Rounds 36-39",
"\tmovdqa\t\tMSG, MSGTMP1",
"\t\tpaddd\t\tMSG, [SHA256CONSTANTS + 9*16]",
"\t\tsha256rnds2\tSTATE1, STATE0",
"\tmovdqa\t\tMSGTMP4, MSGTMP1",
"\tpalignr\t\tMSGTMP4, MSGTMP0, 4",
"\tpaddd\t\tMSGTMP2, MSGTMP4",
"\tsha256msg2\tMSGTMP2, MSGTMP1",
"\t\tpshufd \t\tMSG, MSG, 0x0E",
"\t\tsha256rnds2\tSTATE0, STATE1",
"\tsha256msg1\tMSGTMP0, MSGTMP1",
"\tmovdqa\t\tMSG, MSGTMP1b",
"\t\tpaddd\t\tMSG, [SHA256CONSTANTS + 9*16]",
"\t\tsha256rnds2\tSTATE1b, STATE0b",
"\tmovdqa\t\tMSGTMP4b, MSGTMP1b",
"\tpalignr\t\tMSGTMP4b, MSGTMP0b, 4",
"\tpaddd\t\tMSGTMP2b, MSGTMP4b",
"\tsha256msg2\tMSGTMP2b, MSGTMP1b",
"\t\tpshufd \t\tMSG, MSG, 0x0E",
"\t\tsha256rnds2\tSTATE0b, STATE1b",
"\tsha256msg1\tMSGTMP0b, MSGTMP1b",
"",
"\t;; Rounds 40-43",
"\tmovdqa\t\tMSG, MSGTMP2",
"\t\tpaddd\t\tMSG, [SHA256CONSTANTS + 10*16]",
"\t\tsha256rnds2\tSTATE1, STATE0",
"\tmovdqa\t\tMSGTMP4, MSGTMP2",
"\tpalignr\t\tMSGTMP4, MSGTMP1, 4",
"\tpaddd\t\tMSGTMP3, MSGTMP4",
"\tsha256msg2\tMSGTMP3, MSGTMP2",
"\t\tpshufd \t\tMSG, MSG, 0x0E",
"\t\tsha256rnds2\tSTATE0, STATE1",
"\tsha256msg1\tMSGTMP1, MSGTMP2",
"\tmovdqa\t\tMSG, MSGTMP2b",
"\t\tpaddd\t\tMSG, [SHA256CONSTANTS + 10*16]",
"\t\tsha256rnds2\tSTATE1b, STATE0b",
"\tmovdqa\t\tMSGTMP4b, MSGTMP2b",
"\tpalignr\t\tMSGTMP4b, MSGTMP1b, 4",
"\tpaddd\t\tMSGTMP3b, MSGTMP4b",
"\tsha256msg2\tMSGTMP3b, MSGTMP2b",
"\t\tpshufd \t\tMSG, MSG, 0x0E",
"\t\tsha256rnds2\tSTATE0b, STATE1b",
"\tsha256msg1\tMSGTMP1b, MSGTMP2b",
"",
"\t;; Rounds 44-47",
"\tmovdqa\t\tMSG, MSGTMP3",
"\t\tpaddd\t\tMSG, [SHA256CONSTANTS + 11*16]",
"\t\tsha256rnds2\tSTATE1, STATE0",
"\tmovdqa\t\tMSGTMP4, MSGTMP3",
"\tpalignr\t\tMSGTMP4, MSGTMP2, 4",
"\tpaddd\t\tMSGTMP0, MSGTMP4",
"\tsha256msg2\tMSGTMP0, MSGTMP3",
"\t\tpshufd \t\tMSG, MSG, 0x0E",
"\t\tsha256rnds2\tSTATE0, STATE1",
"\tsha256msg1\tMSGTMP2, MSGTMP3",
"\tmovdqa\t\tMSG, MSGTMP3b",
"\t\tpaddd\t\tMSG, [SHA256CONSTANTS + 11*16]",
"\t\tsha256rnds2\tSTATE1b, STATE0b",
"\tmovdqa\t\tMSGTMP4b, MSGTMP3b",
"\tpalignr\t\tMSGTMP4b, MSGTMP2b, 4",
"\tpaddd\t\tMSGTMP0b, MSGTMP4b",
"\tsha256msg2\tMSGTMP0b, MSGTMP3b",
"\t\tpshufd \t\tMSG, MSG, 0x0E",
"\t\tsha256rnds2\tSTATE0b, STATE1b",
"\tsha256msg1\tMSGTMP2b, MSGTMP3b",
"       ",
"\t;; Rounds 48-51",
"\tmovdqa\t\tMSG, MSGTMP0",
"\t\tpaddd\t\tMSG, [SHA256CONSTANTS + 12*16]",
"\t\tsha256rnds2\tSTATE1, STATE0",
"\tmovdqa\t\tMSGTMP4, MSGTMP0",
"\tpalignr\t\tMSGTMP4, MSGTMP3, 4",
"\tpaddd\t\tMSGTMP1, MSGTMP4",
"\tsha256msg2\tMSGTMP1, MSGTMP0",
"\t\tpshufd \t\tMSG, MSG, 0x0E",
"\t\tsha256rnds2\tSTATE0, STATE1",
"\tsha256msg1\tMSGTMP3, MSGTMP0",
"\tmovdqa\t\tMSG, MSGTMP0b",
"\t\tpaddd\t\tMSG, [SHA256CONSTANTS + 12*16]",
"\t\tsha256rnds2\tSTATE1b, STATE0b",
"\tmovdqa\t\tMSGTMP4b, MSGTMP0b",
"\tpalignr\t\tMSGTMP4b, MSGTMP3b, 4",
"\tpaddd\t\tMSGTMP1b, MSGTMP4b",
"\tsha256msg2\tMSGTMP1b, MSGTMP0b",
"\t\tpshufd \t\tMSG, MSG, 0x0E",
"\t\tsha256rnds2\tSTATE0b, STATE1b",
"\tsha256msg1\tMSGTMP3b, MSGTMP0b",
"        ",
" \t;; Rounds 52-55",
"\tmovdqa\t\tMSG, MSGTMP1",
"\t\tpaddd\t\tMSG, [SHA256CONSTANTS + 13*16]",
"\t\tsha256rnds2\tSTATE1, STATE0",
"\tmovdqa\t\tMSGTMP4, MSGTMP1",
"\tpalignr\t\tMSGTMP4, MSGTMP0, 4",
"\tpaddd\t\tMSGTMP2, MSGTMP4",
"\tsha256msg2\tMSGTMP2, MSGTMP1",
"\t\tpshufd \t\tMSG, MSG, 0x0E",
"\t\tsha256rnds2\tSTATE0, STATE1",
"\tmovdqa\t\tMSG, MSGTMP1b",
"\t\tpaddd\t\tMSG, [SHA256CONSTANTS + 13*16]",
"\t\tsha256rnds2\tSTATE1b, STATE0b",
"\tmovdqa\t\tMSGTMP4b, MSGTMP1b",
"\tpalignr\t\tMSGTMP4b, MSGTMP0b, 4",
"\tpaddd\t\tMSGTMP2b, MSGTMP4b",
"\tsha256msg2\tMSGTMP2b, MSGTMP1b",
"\t\tpshufd \t\tMSG, MSG, 0x0E",
"\t\tsha256rnds2\tSTATE0b, STATE1b",
"",
"\t;; Rounds 56-59",
"\tmovdqa\t\tMSG, MSGTMP2",
"\t\tpaddd\t\tMSG, [SHA256CONSTANTS + 14*16]",
"\t\tsha256rnds2\tSTATE1, STATE0",
"\tmovdqa\t\tMSGTMP4, MSGTMP2",
"\tpalignr\t\tMSGTMP4, MSGTMP1, 4",
"\tpaddd\t\tMSGTMP3, MSGTMP4",
"\tsha256msg2\tMSGTMP3, MSGTMP2",
"\t\tpshufd \t\tMSG, MSG, 0x0E",
"\t\tsha256rnds2\tSTATE0, STATE1",
"\tmovdqa\t\tMSG, MSGTMP2b",
"\t\tpaddd\t\tMSG, [SHA256CONSTANTS + 14*16]",
"\t\tsha256rnds2\tSTATE1b, STATE0b",
"\tmovdqa\t\tMSGTMP4b, MSGTMP2b",
"\tpalignr\t\tMSGTMP4b, MSGTMP1b, 4",
"\tpaddd\t\tMSGTMP3b, MSGTMP4b",
"\tsha256msg2\tMSGTMP3b, MSGTMP2b",
"\t\tpshufd \t\tMSG, MSG, 0x0E",
"\t\tsha256rnds2\tSTATE0b, STATE1b",
"",
"",
"\t;; Rounds 60-63",
"\tmovdqa\t\tMSG, MSGTMP3",
"\t\tpaddd\t\tMSG, [SHA256CONSTANTS + 15*16]",
"\t\tsha256rnds2\tSTATE1, STATE0",
"\t\tpshufd \t\tMSG, MSG, 0x0E",
"\t\tsha256rnds2\tSTATE0, STATE1",
"\tmovdqa\t\tMSG, MSGTMP3b",
"\t\tpaddd\t\tMSG, [SHA256CONSTANTS + 15*16]",
"\t\tsha256rnds2\tSTATE1b, STATE0b",
"\t\tpshufd \t\tMSG, MSG, 0x0E",
"\t\tsha256rnds2\tSTATE0b, STATE1b",
"",
"       ",
"\tpaddd\t\tSTATE0, [DIGEST wrt rip]",
"\tpaddd\t\tSTATE1, [DIGEST + 16 wrt rip]",
"\tpaddd           STATE0b, [DIGEST wrt rip]",
"\tpaddd\t\tSTATE1b, [DIGEST + 16 wrt rip]",
"",
"        ;; Rounds with PADDING",
"        ",
"\t;; Save hash values for addition after rounds",
"\tmovdqa\t\t[ABEF_SAVEa wrt rip], STATE0",
"\tmovdqa\t\t[CDGH_SAVEa wrt rip], STATE1",
"\tmovdqa\t\t[ABEF_SAVEb wrt rip], STATE0b",
"\tmovdqa\t\t[CDGH_SAVEb wrt rip], STATE1b",
"",
"\t;; Rounds 0-3",
"\tmovdqa\t\tMSG, [SHA256PADDING + 0*16]",
"\t\tsha256rnds2\tSTATE1, STATE0",
"\t\tsha256rnds2\tSTATE1b, STATE0b",
"\t\tpshufd \t\tMSG, MSG, 0x0E",
"\t\tsha256rnds2\tSTATE0, STATE1",
"\t\tsha256rnds2\tSTATE0b, STATE1b",
"",
"\t;; Rounds 4-7",
"\tmovdqa\t\tMSG, [SHA256PADDING + 1*16]",
"\t\tsha256rnds2\tSTATE1, STATE0",
"\t\tsha256rnds2\tSTATE1b, STATE0b",
"\t\tpshufd \t\tMSG, MSG, 0x0E",
"\t\tsha256rnds2\tSTATE0, STATE1",
"\t\tsha256rnds2\tSTATE0b, STATE1b",
"",
"",
"\tmovdqa\t\tMSG, [SHA256PADDING + 2*16]",
"\t\tsha256rnds2\tSTATE1, STATE0",
"\t\tsha256rnds2\tSTATE1b, STATE0b",
"\t\tpshufd \t\tMSG, MSG, 0x0E",
"\t\tsha256rnds2\tSTATE0, STATE1",
"\t\tsha256rnds2\tSTATE0b, STATE1b",
"",
"",
"\tmovdqa\t\tMSG, [SHA256PADDING + 3*16]",
"\t\tsha256rnds2\tSTATE1, STATE0",
"\t\tsha256rnds2\tSTATE1b, STATE0b",
"\t\tpshufd \t\tMSG, MSG, 0x0E",
"\t\tsha256rnds2\tSTATE0, STATE1",
"\t\tsha256rnds2\tSTATE0b, STATE1b",
"",
"",
"\tmovdqa\t\tMSG, [SHA256PADDING + 4*16]",
"\t\tsha256rnds2\tSTATE1, STATE0",
"\t\tsha256rnds2\tSTATE1b, STATE0b",
"\t\tpshufd \t\tMSG, MSG, 0x0E",
"\t\tsha256rnds2\tSTATE0, STATE1",
"\t\tsha256rnds2\tSTATE0b, STATE1b",
"",
"",
"\tmovdqa\t\tMSG, [SHA256PADDING + 5*16]",
"\t\tsha256rnds2\tSTATE1, STATE0",
"\t\tsha256rnds2\tSTATE1b, STATE0b",
"\t\tpshufd \t\tMSG, MSG, 0x0E",
"\t\tsha256rnds2\tSTATE0, STATE1",
"\t\tsha256rnds2\tSTATE0b, STATE1b",
"",
"",
"\tmovdqa\t\tMSG, [SHA256PADDING + 6*16]",
"\t\tsha256rnds2\tSTATE1, STATE0",
"\t\tsha256rnds2\tSTATE1b, STATE0b",
"\t\tpshufd \t\tMSG, MSG, 0x0E",
"\t\tsha256rnds2\tSTATE0, STATE1",
"\t\tsha256rnds2\tSTATE0b, STATE1b",
"",
"",
"\tmovdqa\t\tMSG, [SHA256PADDING + 7*16]",
"\t\tsha256rnds2\tSTATE1, STATE0",
"\t\tsha256rnds2\tSTATE1b, STATE0b",
"\t\tpshufd \t\tMSG, MSG, 0x0E",
"\t\tsha256rnds2\tSTATE0, STATE1",
"\t\tsha256rnds2\tSTATE0b, STATE1b",
"",
"",
"\tmovdqa\t\tMSG, [SHA256PADDING + 8*16]",
"\t\tsha256rnds2\tSTATE1, STATE0",
"\t\tsha256rnds2\tSTATE1b, STATE0b",
"\t\tpshufd \t\tMSG, MSG, 0x0E",
"\t\tsha256rnds2\tSTATE0, STATE1",
"\t\tsha256rnds2\tSTATE0b, STATE1b",
"",
"",
"\tmovdqa\t\tMSG, [SHA256PADDING + 9*16]",
"\t\tsha256rnds2\tSTATE1, STATE0",
"\t\tsha256rnds2\tSTATE1b, STATE0b",
"\t\tpshufd \t\tMSG, MSG, 0x0E",
"\t\tsha256rnds2\tSTATE0, STATE1",
"\t\tsha256rnds2\tSTATE0b, STATE1b",
"",
"\tmovdqa\t\tMSG, [SHA256PADDING + 10*16]",
"\t\tsha256rnds2\tSTATE1, STATE0",
"\t\tsha256rnds2\tSTATE1b, STATE0b",
"\t\tpshufd \t\tMSG, MSG, 0x0E",
"\t\tsha256rnds2\tSTATE0, STATE1",
"\t\tsha256rnds2\tSTATE0b, STATE1b",
"",
"",
"\tmovdqa\t\tMSG, [SHA256PADDING + 11*16]",
"\t\tsha256rnds2\tSTATE1, STATE0",
"\t\tsha256rnds2\tSTATE1b, STATE0b",
"\t\tpshufd \t\tMSG, MSG, 0x0E",
"\t\tsha256rnds2\tSTATE0, STATE1",
"\t\tsha256rnds2\tSTATE0b, STATE1b",
"",
"",
"\tmovdqa\t\tMSG, [SHA256PADDING + 12*16]",
"\t\tsha256rnds2\tSTATE1, STATE0",
"\t\tsha256rnds2\tSTATE1b, STATE0b",
"\t\tpshufd \t\tMSG, MSG, 0x0E",
"\t\tsha256rnds2\tSTATE0, STATE1",
"\t\tsha256rnds2\tSTATE0b, STATE1b",
"",
"",
"\tmovdqa\t\tMSG, [SHA256PADDING + 13*16]",
"\t\tsha256rnds2\tSTATE1, STATE0",
"\t\tsha256rnds2\tSTATE1b, STATE0b",
"\t\tpshufd \t\tMSG, MSG, 0x0E",
"\t\tsha256rnds2\tSTATE0, STATE1",
"\t\tsha256rnds2\tSTATE0b, STATE1b",
"",
"\tmovdqa\t\tMSG, [SHA256PADDING + 14*16]",
"\t\tsha256rnds2\tSTATE1, STATE0",
"\t\tsha256rnds2\tSTATE1b, STATE0b",
"\t\tpshufd \t\tMSG, MSG, 0x0E",
"\t\tsha256rnds2\tSTATE0, STATE1",
"\t\tsha256rnds2\tSTATE0b, STATE1b",
"",
"",
"\tmovdqa\t\tMSG, [SHA256PADDING + 15*16]",
"\t\tsha256rnds2\tSTATE1, STATE0",
"\t\tsha256rnds2\tSTATE1b, STATE0b",
"\t\tpshufd \t\tMSG, MSG, 0x0E",
"\t\tsha256rnds2\tSTATE0, STATE1",
"\t\tsha256rnds2\tSTATE0b, STATE1b",
"",
"\tpaddd\t\tSTATE0, [ABEF_SAVEa wrt rip]",
"\tpaddd\t\tSTATE1, [CDGH_SAVEa wrt rip]",
"\tpaddd           STATE0b, [ABEF_SAVEb wrt rip]",
"\tpaddd\t\tSTATE1b, [CDGH_SAVEb wrt rip]",
"",
"",
"\t;; Write hash values back in the correct order",
"\tpshufd\t\tSTATE0,  STATE0,  0x1B\t; FEBA",
"\tpshufd\t\tSTATE1,  STATE1,  0xB1\t; DCHG",
"\tpshufd\t\tSTATE0b,  STATE0b,  0x1B\t; FEBA",
"\tpshufd\t\tSTATE1b,  STATE1b,  0xB1\t; DCHG",
"\tmovdqa\t\tMSGTMP4, STATE0",
"\tmovdqa\t\tMSGTMP4b, STATE0b",
"\tpblendw\t\tSTATE0,  STATE1,  0xF0\t; DCBA",
"\tpblendw\t\tSTATE0b,  STATE1b,  0xF0\t; DCBA",
"\tpalignr\t\tSTATE1,  MSGTMP4, 8\t; HGFE",
"\tpalignr\t\tSTATE1b,  MSGTMP4b, 8\t; HGFE",
"",
"        pshufb          STATE0, SHUF_MASK",
"        pshufb          STATE0b, SHUF_MASK",
"        pshufb          STATE1, SHUF_MASK",
"        pshufb          STATE1b, SHUF_MASK",
"",
"",
"\tmovdqu\t\t[OUTPUT_PTR + 0*16], STATE0",
"\tmovdqu\t\t[OUTPUT_PTR + 1*16], STATE1",
"\tmovdqu\t\t[OUTPUT_PTR + 2*16], STATE0b",
"\tmovdqu\t\t[OUTPUT_PTR + 3*16], STATE1b",
"",
"\t;; Increment data pointer and loop if more to process",
"\tadd\t\tDATA_PTR, 128",
"        add             OUTPUT_PTR, 64",
"        ",
"\tsub\t\tNUM_BLKS,2",
"        jmp             .hash_2_blocks",
"",
".hash_1_block:",
"",
"        test            NUM_BLKS,NUM_BLKS",
"        jz              .done_hash",
"",
"        movdqa          STATE0, [DIGEST wrt rip]",
"        movdqa          STATE1, [DIGEST + 16 wrt rip]",
"",
"\t;; Save hash values for addition after rounds",
"\tmovdqa\t\tABEF_SAVE, STATE0",
"\tmovdqa\t\tCDGH_SAVE, STATE1",
"",
"\t;; Rounds 0-3",
"\tmovdqu\t\tMSG, [DATA_PTR + 0*16]",
"\tpshufb\t\tMSG, SHUF_MASK",
"\tmovdqa\t\tMSGTMP0, MSG",
"\t\tpaddd\t\tMSG, [SHA256CONSTANTS + 0*16]",
"\t\tsha256rnds2\tSTATE1, STATE0",
"\t\tpshufd \t\tMSG, MSG, 0x0E",
"\t\tsha256rnds2\tSTATE0, STATE1",
"",
"\t;; Rounds 4-7",
"\tmovdqu\t\tMSG, [DATA_PTR + 1*16]",
"\tpshufb\t\tMSG, SHUF_MASK",
"\tmovdqa\t\tMSGTMP1, MSG",
"\t\tpaddd\t\tMSG, [SHA256CONSTANTS + 1*16]",
"\t\tsha256rnds2\tSTATE1, STATE0",
"\t\tpshufd \t\tMSG, MSG, 0x0E",
"\t\tsha256rnds2\tSTATE0, STATE1",
"\tsha256msg1\tMSGTMP0, MSGTMP1",
"",
"\t;; Rounds 8-11",
"\tmovdqu\t\tMSG, [DATA_PTR + 2*16]",
"\tpshufb\t\tMSG, SHUF_MASK",
"\tmovdqa\t\tMSGTMP2, MSG",
"\t\tpaddd\t\tMSG, [SHA256CONSTANTS + 2*16]",
"\t\tsha256rnds2\tSTATE1, STATE0",
"\t\tpshufd \t\tMSG, MSG, 0x0E",
"\t\tsha256rnds2\tSTATE0, STATE1",
"\tsha256msg1\tMSGTMP1, MSGTMP2",
"",
"\t;; Rounds 12-15",
"\tmovdqu\t\tMSG, [DATA_PTR + 3*16]",
"\tpshufb\t\tMSG, SHUF_MASK",
"\tmovdqa\t\tMSGTMP3, MSG",
"\t\tpaddd\t\tMSG, [SHA256CONSTANTS + 3*16]",
"\t\tsha256rnds2\tSTATE1, STATE0",
"\tmovdqa\t\tMSGTMP4, MSGTMP3",
"\tpalignr\t\tMSGTMP4, MSGTMP2, 4",
"\tpaddd\t\tMSGTMP0, MSGTMP4",
"\tsha256msg2\tMSGTMP0, MSGTMP3",
"\t\tpshufd \t\tMSG, MSG, 0x0E",
"\t\tsha256rnds2\tSTATE0, STATE1",
"\tsha256msg1\tMSGTMP2, MSGTMP3",
"",
"\t;; Rounds 16-19",
"\tmovdqa\t\tMSG, MSGTMP0",
"\t\tpaddd\t\tMSG, [SHA256CONSTANTS + 4*16]",
"\t\tsha256rnds2\tSTATE1, STATE0",
"\tmovdqa\t\tMSGTMP4, MSGTMP0",
"\tpalignr\t\tMSGTMP4, MSGTMP3, 4",
"\tpaddd\t\tMSGTMP1, MSGTMP4",
"\tsha256msg2\tMSGTMP1, MSGTMP0",
"\t\tpshufd \t\tMSG, MSG, 0x0E",
"\t\tsha256rnds2\tSTATE0, STATE1",
"\tsha256msg1\tMSGTMP3, MSGTMP0",
"",
"\t;; Rounds 20-23",
"\tmovdqa\t\tMSG, MSGTMP1",
"\t\tpaddd\t\tMSG, [SHA256CONSTANTS + 5*16]",
"\t\tsha256rnds2\tSTATE1, STATE0",
"\tmovdqa\t\tMSGTMP4, MSGTMP1",
"\tpalignr\t\tMSGTMP4, MSGTMP0, 4",
"\tpaddd\t\tMSGTMP2, MSGTMP4",
"\tsha256msg2\tMSGTMP2, MSGTMP1",
"\t\tpshufd \t\tMSG, MSG, 0x0E",
"\t\tsha256rnds2\tSTATE0, STATE1",
"\tsha256msg1\tMSGTMP0, MSGTMP1",
"",
"\t;; Rounds 24-27",
"\tmovdqa\t\tMSG, MSGTMP2",
"\t\tpaddd\t\tMSG, [SHA256CONSTANTS + 6*16]",
"\t\tsha256rnds2\tSTATE1, STATE0",
"\tmovdqa\t\tMSGTMP4, MSGTMP2",
"\tpalignr\t\tMSGTMP4, MSGTMP1, 4",
"\tpaddd\t\tMSGTMP3, MSGTMP4",
"\tsha256msg2\tMSGTMP3, MSGTMP2",
"\t\tpshufd \t\tMSG, MSG, 0x0E",
"\t\tsha256rnds2\tSTATE0, STATE1",
"\tsha256msg1\tMSGTMP1, MSGTMP2",
"",
"\t;; Rounds 28-31",
"\tmovdqa\t\tMSG, MSGTMP3",
"\t\tpaddd\t\tMSG, [SHA256CONSTANTS + 7*16]",
"\t\tsha256rnds2\tSTATE1, STATE0",
"\tmovdqa\t\tMSGTMP4, MSGTMP3",
"\tpalignr\t\tMSGTMP4, MSGTMP2, 4",
"\tpaddd\t\tMSGTMP0, MSGTMP4",
"\tsha256msg2\tMSGTMP0, MSGTMP3",
"\t\tpshufd \t\tMSG, MSG, 0x0E",
"\t\tsha256rnds2\tSTATE0, STATE1",
"\tsha256msg1\tMSGTMP2, MSGTMP3",
"",
"\t;; Rounds 32-35",
"\tmovdqa\t\tMSG, MSGTMP0",
"\t\tpaddd\t\tMSG, [SHA256CONSTANTS + 8*16]",
"\t\tsha256rnds2\tSTATE1, STATE0",
"\tmovdqa\t\tMSGTMP4, MSGTMP0",
"\tpalignr\t\tMSGTMP4, MSGTMP3, 4",
"\tpaddd\t\tMSGTMP1, MSGTMP4",
"\tsha256msg2\tMSGTMP1, MSGTMP0",
"\t\tpshufd \t\tMSG, MSG, 0x0E",
"\t\tsha256rnds2\tSTATE0, STATE1",
"\tsha256msg1\tMSGTMP3, MSGTMP0",
"",
"\t;; Rounds 36-39",
"\tmovdqa\t\tMSG, MSGTMP1",
"\t\tpaddd\t\tMSG, [SHA256CONSTANTS + 9*16]",
"\t\tsha256rnds2\tSTATE1, STATE0",
"\tmovdqa\t\tMSGTMP4, MSGTMP1",
"\tpalignr\t\tMSGTMP4, MSGTMP0, 4",
"\tpaddd\t\tMSGTMP2, MSGTMP4",
"\tsha256msg2\tMSGTMP2, MSGTMP1",
"\t\tpshufd \t\tMSG, MSG, 0x0E",
"\t\tsha256rnds2\tSTATE0, STATE1",
"\tsha256msg1\tMSGTMP0, MSGTMP1",
"",
"\t;; Rounds 40-43",
"\tmovdqa\t\tMSG, MSGTMP2",
"\t\tpaddd\t\tMSG, [SHA256CONSTANTS + 10*16]",
"\t\tsha256rnds2\tSTATE1, STATE0",
"\tmovdqa\t\tMSGTMP4, MSGTMP2",
"\tpalignr\t\tMSGTMP4, MSGTMP1, 4",
"\tpaddd\t\tMSGTMP3, MSGTMP4",
"\tsha256msg2\tMSGTMP3, MSGTMP2",
"\t\tpshufd \t\tMSG, MSG, 0x0E",
"\t\tsha256rnds2\tSTATE0, STATE1",
"\tsha256msg1\tMSGTMP1, MSGTMP2",
"",
"\t;; Rounds 44-47",
"\tmovdqa\t\tMSG, MSGTMP3",
"\t\tpaddd\t\tMSG, [SHA256CONSTANTS + 11*16]",
"\t\tsha256rnds2\tSTATE1, STATE0",
"\tmovdqa\t\tMSGTMP4, MSGTMP3",
"\tpalignr\t\tMSGTMP4, MSGTMP2, 4",
"\tpaddd\t\tMSGTMP0, MSGTMP4",
"\tsha256msg2\tMSGTMP0, MSGTMP3",
"\t\tpshufd \t\tMSG, MSG, 0x0E",
"\t\tsha256rnds2\tSTATE0, STATE1",
"\tsha256msg1\tMSGTMP2, MSGTMP3",
"",
"\t;; Rounds 48-51",
"\tmovdqa\t\tMSG, MSGTMP0",
"\t\tpaddd\t\tMSG, [SHA256CONSTANTS + 12*16]",
"\t\tsha256rnds2\tSTATE1, STATE0",
"\tmovdqa\t\tMSGTMP4, MSGTMP0",
"\tpalignr\t\tMSGTMP4, MSGTMP3, 4",
"\tpaddd\t\tMSGTMP1, MSGTMP4",
"\tsha256msg2\tMSGTMP1, MSGTMP0",
"\t\tpshufd \t\tMSG, MSG, 0x0E",
"\t\tsha256rnds2\tSTATE0, STATE1",
"\tsha256msg1\tMSGTMP3, MSGTMP0",
"",
"\t;; Rounds 52-55",
"\tmovdqa\t\tMSG, MSGTMP1",
"\t\tpaddd\t\tMSG, [SHA256CONSTANTS + 13*16]",
"\t\tsha256rnds2\tSTATE1, STATE0",
"\tmovdqa\t\tMSGTMP4, MSGTMP1",
"\tpalignr\t\tMSGTMP4, MSGTMP0, 4",
"\tpaddd\t\tMSGTMP2, MSGTMP4",
"\tsha256msg2\tMSGTMP2, MSGTMP1",
"\t\tpshufd \t\tMSG, MSG, 0x0E",
"\t\tsha256rnds2\tSTATE0, STATE1",
"",
"\t;; Rounds 56-59",
"\tmovdqa\t\tMSG, MSGTMP2",
"\t\tpaddd\t\tMSG, [SHA256CONSTANTS + 14*16]",
"\t\tsha256rnds2\tSTATE1, STATE0",
"\tmovdqa\t\tMSGTMP4, MSGTMP2",
"\tpalignr\t\tMSGTMP4, MSGTMP1, 4",
"\tpaddd\t\tMSGTMP3, MSGTMP4",
"\tsha256msg2\tMSGTMP3, MSGTMP2",
"\t\tpshufd \t\tMSG, MSG, 0x0E",
"\t\tsha256rnds2\tSTATE0, STATE1",
"",
"\t;; Rounds 60-63",
"\tmovdqa\t\tMSG, MSGTMP3",
"\t\tpaddd\t\tMSG, [SHA256CONSTANTS + 15*16]",
"\t\tsha256rnds2\tSTATE1, STATE0",
"\t\tpshufd \t\tMSG, MSG, 0x0E",
"\t\tsha256rnds2\tSTATE0, STATE1",
"",
"\t;; Add current hash values with previously saved",
"\tpaddd\t\tSTATE0, ABEF_SAVE",
"\tpaddd\t\tSTATE1, CDGH_SAVE",
"",
"        ;; Rounds with PADDING",
"\t;; Save hash values for addition after rounds",
"\tmovdqa\t\tABEF_SAVE, STATE0",
"\tmovdqa\t\tCDGH_SAVE, STATE1",
"",
"\t;; Rounds 0-3",
"\tmovdqa\t\tMSG, [SHA256PADDING + 0*16]",
"\t\tsha256rnds2\tSTATE1, STATE0",
"\t\tpshufd \t\tMSG, MSG, 0x0E",
"\t\tsha256rnds2\tSTATE0, STATE1",
"",
"\t;; Rounds 4-7",
"\tmovdqa\t\tMSG, [SHA256PADDING + 1*16]",
"\t\tsha256rnds2\tSTATE1, STATE0",
"\t\tpshufd \t\tMSG, MSG, 0x0E",
"\t\tsha256rnds2\tSTATE0, STATE1",
"",
"\t;; Rounds 8-11",
"\tmovdqa\t\tMSG, [SHA256PADDING + 2*16]",
"\t\tsha256rnds2\tSTATE1, STATE0",
"\t\tpshufd \t\tMSG, MSG, 0x0E",
"\t\tsha256rnds2\tSTATE0, STATE1",
"",
"\t;; Rounds 12-15",
"\tmovdqa\t\tMSG, [SHA256PADDING + 3*16]",
"\t\tsha256rnds2\tSTATE1, STATE0",
"\t\tpshufd \t\tMSG, MSG, 0x0E",
"\t\tsha256rnds2\tSTATE0, STATE1",
"",
"\t;; Rounds 16-19",
"\tmovdqa\t\tMSG, [SHA256PADDING + 4*16]",
"\t\tsha256rnds2\tSTATE1, STATE0",
"\t\tpshufd \t\tMSG, MSG, 0x0E",
"\t\tsha256rnds2\tSTATE0, STATE1",
"",
"\t;; Rounds 20-23",
"\tmovdqa\t\tMSG, [SHA256PADDING + 5*16]",
"\t\tsha256rnds2\tSTATE1, STATE0",
"\t\tpshufd \t\tMSG, MSG, 0x0E",
"\t\tsha256rnds2\tSTATE0, STATE1",
"",
"\t;; Rounds 24-27",
"\tmovdqa\t\tMSG, [SHA256PADDING + 6*16]",
"\t\tsha256rnds2\tSTATE1, STATE0",
"\t\tpshufd \t\tMSG, MSG, 0x0E",
"\t\tsha256rnds2\tSTATE0, STATE1",
"",
"\t;; Rounds 28-31",
"\tmovdqa\t\tMSG, [SHA256PADDING + 7*16]",
"\t\tsha256rnds2\tSTATE1, STATE0",
"\t\tpshufd \t\tMSG, MSG, 0x0E",
"\t\tsha256rnds2\tSTATE0, STATE1",
"",
"\t;; Rounds 32-35",
"\tmovdqa\t\tMSG, [SHA256PADDING + 8*16]",
"\t\tsha256rnds2\tSTATE1, STATE0",
"\t\tpshufd \t\tMSG, MSG, 0x0E",
"\t\tsha256rnds2\tSTATE0, STATE1",
"",
"\t;; Rounds 36-39",
"\tmovdqa\t\tMSG, [SHA256PADDING + 9*16]",
"\t\tsha256rnds2\tSTATE1, STATE0",
"\t\tpshufd \t\tMSG, MSG, 0x0E",
"\t\tsha256rnds2\tSTATE0, STATE1",
"",
"\t;; Rounds 40-43",
"\tmovdqa\t\tMSG, [SHA256PADDING + 10*16]",
"\t\tsha256rnds2\tSTATE1, STATE0",
"\t\tpshufd \t\tMSG, MSG, 0x0E",
"\t\tsha256rnds2\tSTATE0, STATE1",
"",
"\t;; Rounds 44-47",
"\tmovdqa\t\tMSG, [SHA256PADDING + 11*16]",
"\t\tsha256rnds2\tSTATE1, STATE0",
"\t\tpshufd \t\tMSG, MSG, 0x0E",
"\t\tsha256rnds2\tSTATE0, STATE1",
"",
"\t;; Rounds 48-51",
"\tmovdqa\t\tMSG, [SHA256PADDING + 12*16]",
"\t\tsha256rnds2\tSTATE1, STATE0",
"\t\tpshufd \t\tMSG, MSG, 0x0E",
"\t\tsha256rnds2\tSTATE0, STATE1",
"",
"\t;; Rounds 52-55",
"\tmovdqa\t\tMSG, [SHA256PADDING + 13*16]",
"\t\tsha256rnds2\tSTATE1, STATE0",
"\t\tpshufd \t\tMSG, MSG, 0x0E",
"\t\tsha256rnds2\tSTATE0, STATE1",
"",
"\t;; Rounds 56-59",
"\tmovdqa\t\tMSG, [SHA256PADDING + 14*16]",
"\t\tsha256rnds2\tSTATE1, STATE0",
"\t\tpshufd \t\tMSG, MSG, 0x0E",
"\t\tsha256rnds2\tSTATE0, STATE1",
"",
"\t;; Rounds 60-63",
"\tmovdqa\t\tMSG, [SHA256PADDING + 15*16]",
"\t\tsha256rnds2\tSTATE1, STATE0",
"\t\tpshufd \t\tMSG, MSG, 0x0E",
"\t\tsha256rnds2\tSTATE0, STATE1",
"",
"\t;; Add current hash values with previously saved",
"\tpaddd\t\tSTATE0, ABEF_SAVE",
"\tpaddd\t\tSTATE1, CDGH_SAVE",
"",
"\t;; Write hash values back in the correct order",
"\tpshufd\t\tSTATE0,  STATE0,  0x1B\t; FEBA",
"\tpshufd\t\tSTATE1,  STATE1,  0xB1\t; DCHG",
"\tmovdqa\t\tMSGTMP4, STATE0",
"\tpblendw\t\tSTATE0,  STATE1,  0xF0\t; DCBA",
"\tpalignr\t\tSTATE1,  MSGTMP4, 8\t; HGFE",
"",
"        pshufb          STATE0, SHUF_MASK",
"        pshufb          STATE1, SHUF_MASK",
"",
"\tmovdqu\t\t[OUTPUT_PTR + 0*16], STATE0",
"\tmovdqu\t\t[OUTPUT_PTR + 1*16], STATE1",
"",
".done_hash:",
"%ifdef WINABI",
"\tmovdqa\t\txmm6,  [rsp + frame.xmm_save + 0*16]",
"\tmovdqa\t\txmm7,  [rsp + frame.xmm_save + 1*16]",
"\tmovdqa\t\txmm8,  [rsp + frame.xmm_save + 2*16]",
"\tmovdqa\t\txmm9,  [rsp + frame.xmm_save + 3*16]",
"\tmovdqa\t\txmm10, [rsp + frame.xmm_save + 4*16]",
"\tmov\t\trsp, RSPSAVE",
"%endif",
"",
"\tret\t",
"\t",
"section .rodata",
"align 64",
"K256:",
"\tdd\t0x428a2f98,0x71374491,0xb5c0fbcf,0xe9b5dba5",
"\tdd\t0x3956c25b,0x59f111f1,0x923f82a4,0xab1c5ed5",
"\tdd\t0xd807aa98,0x12835b01,0x243185be,0x550c7dc3",
"\tdd\t0x72be5d74,0x80deb1fe,0x9bdc06a7,0xc19bf174",
"\tdd\t0xe49b69c1,0xefbe4786,0x0fc19dc6,0x240ca1cc",
"\tdd\t0x2de92c6f,0x4a7484aa,0x5cb0a9dc,0x76f988da",
"\tdd\t0x983e5152,0xa831c66d,0xb00327c8,0xbf597fc7",
"\tdd\t0xc6e00bf3,0xd5a79147,0x06ca6351,0x14292967",
"\tdd\t0x27b70a85,0x2e1b2138,0x4d2c6dfc,0x53380d13",
"\tdd\t0x650a7354,0x766a0abb,0x81c2c92e,0x92722c85",
"\tdd\t0xa2bfe8a1,0xa81a664b,0xc24b8b70,0xc76c51a3",
"\tdd\t0xd192e819,0xd6990624,0xf40e3585,0x106aa070",
"\tdd\t0x19a4c116,0x1e376c08,0x2748774c,0x34b0bcb5",
"\tdd\t0x391c0cb3,0x4ed8aa4a,0x5b9cca4f,0x682e6ff3",
"\tdd\t0x748f82ee,0x78a5636f,0x84c87814,0x8cc70208",
"\tdd\t0x90befffa,0xa4506ceb,0xbef9a3f7,0xc67178f2",
"",
"PSHUFFLE_BYTE_FLIP_MASK: ddq 0x0c0d0e0f08090a0b0405060700010203",
"",
"DIGEST:",
"        ddq      0x6a09e667bb67ae85510e527f9b05688c",
"        ddq      0x3c6ef372a54ff53a1f83d9ab5be0cd19",
"",
"PADDING:",
"        dd      0xc28a2f98, 0x71374491, 0xb5c0fbcf, 0xe9b5dba5",
"        dd      0x3956c25b, 0x59f111f1, 0x923f82a4, 0xab1c5ed5",
"        dd      0xd807aa98, 0x12835b01, 0x243185be, 0x550c7dc3",
"        dd      0x72be5d74, 0x80deb1fe, 0x9bdc06a7, 0xc19bf374",
"        dd      0x649b69c1, 0xf0fe4786, 0xfe1edc6, 0x240cf254",
"        dd      0x4fe9346f, 0x6cc984be, 0x61b9411e, 0x16f988fa",
"        dd      0xf2c65152, 0xa88e5a6d, 0xb019fc65, 0xb9d99ec7",
"        dd      0x9a1231c3, 0xe70eeaa0, 0xfdb1232b, 0xc7353eb0",
"        dd      0x3069bad5, 0xcb976d5f, 0x5a0f118f, 0xdc1eeefd",
"        dd      0xa35b689, 0xde0b7a04, 0x58f4ca9d, 0xe15d5b16",
"        dd      0x7f3e86, 0x37088980, 0xa507ea32, 0x6fab9537",
"        dd      0x17406110, 0xd8cd6f1, 0xcdaa3b6d, 0xc0bbbe37",
"        dd      0x83613bda, 0xdb48a363, 0xb02e931, 0x6fd15ca7",
"        dd      0x521afaca, 0x31338431, 0x6ed41a95, 0x6d437890",
"        dd      0xc39c91f2, 0x9eccabbd, 0xb5c9a0e6, 0x532fb63c",
"        dd      0xd2c741c6, 0x7237ea3, 0xa4954b68, 0x4c191d76",
"",
"section .data",
"",
"align 64",
"",
"ABEF_SAVEa:     dd      0x9b05688c, 0x510e527f, 0xbb67ae85, 0x6a09e667",
"CDGH_SAVEa:     dd      0x5be0cd19, 0x1f83d9ab, 0xa54ff53a, 0x3c6ef372",
"ABEF_SAVEb:     dd      0x9b05688c, 0x510e527f, 0xbb67ae85, 0x6a09e667",
"CDGH_SAVEb:     dd      0x5be0cd19, 0x1f83d9ab, 0xa54ff53a, 0x3c6ef372",
""]

end Mammon.Nasm.Text
