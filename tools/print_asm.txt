import Verif.Model.Sha256Code
/-! Prints the instruction lists and data sections of the model in the format of `nasm_expand.py` (see `compare_asm.sh`). -/
open Mammon Mammon.X86

def r64 : R → String
  | .rax => "rax" | .rbx => "rbx" | .rcx => "rcx" | .rdx => "rdx" | .rsi => "rsi" | .rdi => "rdi" | .rbp => "rbp" | .rsp => "rsp"
  | .r8 => "r8" | .r9 => "r9" | .r10 => "r10" | .r11 => "r11" | .r12 => "r12" | .r13 => "r13" | .r14 => "r14" | .r15 => "r15"
def r32 : R → String
  | .rax => "eax" | .rbx => "ebx" | .rcx => "ecx" | .rdx => "edx" | .rsi => "esi" | .rdi => "edi" | .rbp => "ebp" | .rsp => "esp"
  | .r8 => "r8d" | .r9 => "r9d" | .r10 => "r10d" | .r11 => "r11d" | .r12 => "r12d" | .r13 => "r13d" | .r14 => "r14d" | .r15 => "r15d"
def xn : X → String
  | .x0 => "0" | .x1 => "1" | .x2 => "2" | .x3 => "3" | .x4 => "4" | .x5 => "5" | .x6 => "6" | .x7 => "7"
  | .x8 => "8" | .x9 => "9" | .x10 => "10" | .x11 => "11" | .x12 => "12" | .x13 => "13" | .x14 => "14" | .x15 => "15"
def xw (w : Width) (x : X) : String := (match w with | .xmm => "xmm" | .ymm => "ymm") ++ xn x
def xx (x : X) := xw .xmm x
def sec : Region → String | .shaniRw => ".data" | .shaniRo => ".rodata" | _ => ".data"
def ad : Addr → String
  | .reg b d => s!"[{r64 b}+{d}]"
  | .idx b i d => s!"[{r64 b}+{r64 i}+{d}]"
  | .rel r o => s!"[{sec r}:{o}]"
def mv : Mov → String | .dqa => "dqa" | .dqu => "dqu" | .ups => "ups"
def vo : VOp → String | .paddd => "vpaddd" | .pxor => "vpxor" | .pand => "vpand" | .por => "vpor"
def vs : VSh → String | .pslld => "vpslld" | .psrld => "vpsrld" | .psrlq => "vpsrlq"
def ins : Instr → String
  | .endbranch64 => "endbranch64"
  | .push s => s!"push {r64 s}"
  | .pop s => s!"pop {r64 s}"
  | .mov d s => s!"mov {r64 d},{r64 s}"
  | .movLoad d a => s!"mov {r64 d},{ad a}"
  | .movStore a s => s!"mov {ad a},{r64 s}"
  | .addImm d n => s!"add {r64 d},{n}"
  | .subImm d n => s!"sub {r64 d},{n}"
  | .andLoad d a => s!"and {r64 d},{ad a}"
  | .xor d s => s!"xor {r64 d},{r64 s}"
  | .lea d a => s!"lea {r64 d},{ad a}"
  | .cmpImm s n => s!"cmp {r64 s},{n}"
  | .test s t => s!"test {r64 s},{r64 t}"
  | .dec d => s!"dec {r64 d}"
  | .mov32 d s => s!"mov {r32 d},{r32 s}"
  | .load32 d a => s!"mov {r32 d},{ad a}"
  | .store32 a s => s!"mov {ad a},{r32 s}"
  | .add32 d s => s!"add {r32 d},{r32 s}"
  | .addLoad32 d a => s!"add {r32 d},{ad a}"
  | .xor32 d s => s!"xor {r32 d},{r32 s}"
  | .and32 d s => s!"and {r32 d},{r32 s}"
  | .or32 d s => s!"or {r32 d},{r32 s}"
  | .shld32 d s n => s!"shld {r32 d},{r32 s},{n}"
  | .bswap32 d => s!"bswap {r32 d}"
  | .vmov w d s => s!"vmovdqa {xw w d},{xw w s}"
  | .vload m w d a => s!"vmov{mv m} {xw w d},{ad a}"
  | .vstore m w a s => s!"vmov{mv m} {ad a},{xw w s}"
  | .vop o w d s t => s!"{vo o} {xw w d},{xw w s},{xw w t}"
  | .vopLoad o w d s a => s!"{vo o} {xw w d},{xw w s},{ad a}"
  | .vshift o w d s n => s!"{vs o} {xw w d},{xw w s},{n}"
  | .vpshufb w d s t => s!"vpshufb {xw w d},{xw w s},{xw w t}"
  | .vpshufd w d s n => s!"vpshufd {xw w d},{xw w s},{n}"
  | .vpalignr w d s t n => s!"vpalignr {xw w d},{xw w s},{xw w t},{n}"
  | .vshufps w d s t n => s!"vshufps {xw w d},{xw w s},{xw w t},{n}"
  | .vinserti128 d s a n => s!"vinserti128 {xw .ymm d},{xw .ymm s},{ad a},{n}"
  | .vperm2f128 d s t n => s!"vperm2f128 {xw .ymm d},{xw .ymm s},{xw .ymm t},{n}"
  | .movdqa d s => s!"movdqa {xx d},{xx s}"
  | .movLoadX m d a => s!"mov{mv m} {xx d},{ad a}"
  | .movStoreX m a s => s!"mov{mv m} {ad a},{xx s}"
  | .paddd d s => s!"paddd {xx d},{xx s}"
  | .padddLoad d a => s!"paddd {xx d},{ad a}"
  | .pshufb d s => s!"pshufb {xx d},{xx s}"
  | .pshufd d s n => s!"pshufd {xx d},{xx s},{n}"
  | .palignr d s n => s!"palignr {xx d},{xx s},{n}"
  | .pblendw d s n => s!"pblendw {xx d},{xx s},{n}"
  | .sha256rnds2 d s => s!"sha256rnds2 {xx d},{xx s}"
  | .sha256msg1 d s => s!"sha256msg1 {xx d},{xx s}"
  | .sha256msg2 d s => s!"sha256msg2 {xx d},{xx s}"

/-- The names of the labels in the sources; "" for places that have no label there. -/
def lab : Label → String
  | .one => "sha256_1_avx"
  | .four => "sha256_4_avx" | .fourLoop => ".hash_4_blocks" | .fourXX => ".Lrounds_16_xx" | .fourPad => ".Lrounds_padding"
  | .fourTail => ".hash_1_block" | .fourDone => ".done_hash"
  | .eight => "sha256_8_avx2" | .eightLoop => ".hash_8_blocks" | .eightXX => ".Lrounds_16_xx" | .eightPad => ".Lrounds_padding"
  | .eightTail => ".hash_4_blocks"
  | .shani => "sha256_shani" | .shaniLoop => ".hash_2_blocks" | .shaniTail => ".hash_1_block" | .shaniDone => ".done_hash"
  | _ => ""

/-- The labels of a file in the order of the source; a jump to the next place is not printed unless the source has it. -/
def order : String → List Label
  | "one" => [.one]
  | "four" => [.four, .fourLoop, .fourBlocks, .fourXX, .fourMid, .fourPad, .fourTail, .fourCall, .fourBack, .fourDone]
  | "eight" => [.eight, .eightLoop, .eightBlocks, .eightXX, .eightMid, .eightPad, .eightTail, .eightBack]
  | _ => [.shani, .shaniLoop, .shaniTwo, .shaniTail, .shaniOne, .shaniDone]

/-- `nxt`: the place that follows in the source. Jumps to it are printed as `jmp?`, which the comparison treats as optional. -/
def term (nxt : Option Label) : Term → List String
  | .goto l => if some l = nxt then [s!"jmp? {lab l}"] else [s!"jmp {lab l}"]
  | .jl t n => s!"jl {lab t}" :: (if some n = nxt then [] else ["BAD"])
  | .jb t n => s!"jb {lab t}" :: (if some n = nxt then [] else ["BAD"])
  | .jz t n => s!"jz {lab t}" :: (if some n = nxt then [] else ["BAD"])
  | .call t n => s!"call {lab t}" :: (if some n = nxt then [] else ["BAD"])
  | .ret => ["ret"]

def listing : List Label → List String
  | [] => []
  | l :: ls => (if lab l = "" then [] else [s!"text label {lab l}"]) ++
      ((code l).body.map fun i => "text " ++ ins i) ++ ((term ls.head? (code l).term).map ("text " ++ ·)) ++ listing ls

def hex (w : BitVec 32) : String := String.ofList (Nat.toDigits 16 w.toNat)

def main (a : List String) : IO Unit := do
  for f in a do
    for s in listing (order f) do IO.println s
    let r : Region := match f with | "one" => .one | "four" => .four | "eight" => .eight | _ => .shaniRo
    for (w, i) in (sectionData r).zipIdx do IO.println s!"data {sec r} {4 * i} {hex w}"
