import Verif.Model.HashTree
import Verif.Spec.Call
/-!
# `ssz/hasher.hpp`, `ssz/hasher.cpp`: choice of the SHA-256 implementation

The result of `cpuid` is an arbitrary input. What a call of an assembly routine can do is taken from the machine model: a relation between
the bytes of the input and the bytes of the output, quantified over every address space, stack, register contents and alignment the call
may happen to be made with.
-/

namespace Mammon

/-- `Hasher::IMPL` (ssz/hasher.hpp:36-42): an `enum class` over `int`. -/
abbrev Impl := BitVec 32
/-- `IMPL::NONE` (ssz/hasher.hpp:37). -/
def Impl.NONE : Impl := 0
/-- `IMPL::SSE` (ssz/hasher.hpp:38). -/
def Impl.SSE : Impl := 1
/-- `IMPL::AVX` (ssz/hasher.hpp:39). -/
def Impl.AVX : Impl := 2
/-- `IMPL::AVX2` (ssz/hasher.hpp:40). -/
def Impl.AVX2 : Impl := 4
/-- `IMPL::SHA` (ssz/hasher.hpp:41). -/
def Impl.SHA : Impl := 8

/-- `operator |` (ssz/hasher.hpp:44-46). -/
def Impl.or (a b : Impl) : Impl := a ||| b
/-- `operator &` (ssz/hasher.hpp:48-50). -/
def Impl.and (a b : Impl) : Impl := a &&& b
/-- `operator !` (ssz/hasher.hpp:52). -/
def Impl.not (a : Impl) : Bool := a == Impl.NONE

/-- The functions a `SHA256_hasher` (ssz/hasher.hpp:66-67) can point to: `sha256_shani`, `sha256_8_avx2`, `sha256_4_avx` and
`Hasher::sha256_sse` (ssz/hasher.hpp:70-73). -/
inductive HashFn
  | shani | avx2 | avx | sse
  deriving DecidableEq, Repr

/-- The four registers `cpuid` returns (ssz/hasher.cpp:45). -/
structure CpuidRegs where
  a : BitVec 32
  b : BitVec 32
  c : BitVec 32
  d : BitVec 32

/-- What the processor answers: the highest basic leaf it supports (`__get_cpuid_max(0, 0)` of `<cpuid.h>`), leaf 1, and subleaf 0 of leaf
7. -/
structure Cpu where
  maxLeaf : BitVec 32
  leaf1 : CpuidRegs
  leaf7 : CpuidRegs

/-- `__get_cpuid` and `__get_cpuid_count` of `<cpuid.h>`: the registers are stored only if the leaf is supported. -/
def Cpu.get (cpu : Cpu) (leaf : BitVec 32) (regs : CpuidRegs) : Option CpuidRegs :=
  if cpu.maxLeaf = 0 ∨ cpu.maxLeaf < leaf then none else some regs

/-- `bit_SHA` of `<cpuid.h>` (leaf 7, `ebx`). -/
def bit_SHA : BitVec 32 := 1 <<< 29
/-- `bit_AVX2` of `<cpuid.h>` (leaf 7, `ebx`). -/
def bit_AVX2 : BitVec 32 := 1 <<< 5
/-- `bit_AVX` of `<cpuid.h>` (leaf 1, `ecx`). -/
def bit_AVX : BitVec 32 := 1 <<< 28
/-- `bit_SSE3` of `<cpuid.h>` (leaf 1, `ecx`). -/
def bit_SSE3 : BitVec 32 := 1 <<< 0

/-- The variable a register was stored to is read: undefined if nothing has been stored (ssz/hasher.cpp:47-48,51-52). -/
def readVar (v : Option (BitVec 32)) : Out (BitVec 32) :=
  match v with
  | some x => .ok x
  | none => .ub

/-- `Hasher::implemented` (ssz/hasher.cpp:43-55). The variables are uninitialised and the results of the `cpuid` functions are not tested, so
they keep their previous contents if the leaf is not supported. -/
def implemented (cpu : Cpu) : Out Impl :=
  let r7 := cpu.get 7 cpu.leaf7
  let r1 := (cpu.get 1 cpu.leaf1).or r7
  (readVar (r7.map (·.b))).bind fun b =>
  let ret := Impl.NONE
  let ret := if b &&& bit_SHA ≠ 0 then ret.or Impl.SHA else ret
  let ret := if b &&& bit_AVX2 ≠ 0 then ret.or Impl.AVX2 else ret
  (readVar (r1.map (·.c))).bind fun c =>
  let ret := if c &&& bit_AVX ≠ 0 then ret.or Impl.AVX else ret
  let ret := if c &&& bit_SSE3 ≠ 0 then ret.or Impl.SSE else ret
  .ok ret

/-- `Hasher::best_sha256_implementation` (ssz/hasher.cpp:57-63). -/
def bestImplementation (cpu : Cpu) : Out HashFn :=
  (implemented cpu).bind fun impl =>
  if !(impl.and Impl.SHA).not then .ok .shani
  else if !(impl.and Impl.AVX2).not then .ok .avx2
  else if !(impl.and Impl.AVX).not then .ok .avx
  else .ok .sse

/-- `Hasher::Hasher()` (ssz/hasher.hpp:54): the function stored in `_hash_64b_blocks`. -/
def hasherDefault (cpu : Cpu) : Out HashFn := bestImplementation cpu

/-- `Hasher::Hasher(IMPL)` (ssz/hasher.cpp:65-82). -/
def hasherOf (cpu : Cpu) (impl : Impl) : Out HashFn :=
  if impl = Impl.SHA then .ok .shani
  else if impl = Impl.AVX2 then .ok .avx2
  else if impl = Impl.AVX then .ok .avx
  else if impl = Impl.SSE then .ok .sse
  else bestImplementation cpu

/-! ## What the calls do -/

open X86

/-- A call of the assembly routine at label `l`, which needs `depth` bytes of stack, with `n` blocks of input `inp` can return with `out` in
the output. The pages have the permissions they are linked with (ssz/hasher.hpp:27-29, ssz/hasher.cpp:27). -/
def AsmCall (l : Label) (depth n : Nat) (inp out : List Byte) : Prop :=
  ∃ (env : Env) (s s' : State) (t ii oo : Nat), Entry env depth t ii oo n env.retAddr s ∧ env.writable = Region.writable ∧
    (l = .one ∨ s.r .rdx = BitVec.ofNat 64 n) ∧ bytesAt (s.mem .input) ii (64 * n) = inp ∧
    Reaches env code (.run l [] s) (.done s') ∧ bytesAt (s'.mem .output) oo (32 * n) = out

/-- `Hasher::sha256_sse` (ssz/hasher.cpp:34-41): one call of `sha256_1_avx` for every block; `inp` is the input from the current pointer on,
`out` what is stored from the current output pointer on. -/
def SseCall : (blocks : Nat) → (inp out : List Byte) → Prop
  | 0, _, out => out = []
  | blocks + 1, inp, out =>
    ∃ o, AsmCall .one 120 1 (inp.take (2 * BYTES_PER_CHUNK)) o ∧
      ∃ rest, SseCall blocks (inp.drop (2 * BYTES_PER_CHUNK)) rest ∧ out = o ++ rest

/-- A call of `hash_64b_blocks` (ssz/hasher.hpp:57-59) of a hasher with the function `f` for `n` blocks of input `inp` can store `out`. -/
def HashFn.Call (f : HashFn) (n : Nat) (inp out : List Byte) : Prop :=
  match f with
  | .shani => AsmCall .shani 0 n inp out
  | .avx2 => AsmCall .eight 1720 n inp out
  | .avx => AsmCall .four 536 n inp out
  | .sse => SseCall n inp out

/-- `f` computes `H` on one block: the function the model of the hash trees is parametric in (ssz/hashtree.cpp:33-40: `hash_2_chunks`). -/
def HashFn.Computes (f : HashFn) (H : Chunk → Chunk → Chunk) : Prop :=
  ∀ a b : Chunk, ∀ out, f.Call 1 (a.1 ++ b.1) out → out = (H a b).1

/-! ## Instruction set extensions -/

/-- The extensions of the x86-64 instruction set the routines use (ssz/hasher.cpp:47-52). -/
inductive Ext
  | base | ssse3 | sse41 | avx | avx2 | sha
  deriving DecidableEq, Repr

/-- The extension an instruction belongs to (Intel manual, volume 2). The integer operations on `ymm` registers are AVX2, moves and
floating-point shuffles of `ymm` registers AVX (for ssz/sha256_avx.asm, ssz/sha256_avx2.asm, ssz/sha256_avx_one_block.asm, ssz/sha256_shani.asm). -/
def X86.Instr.ext : Instr → Ext
  | .vmov .. | .vload .. | .vstore .. | .vshufps .. | .vperm2f128 .. => .avx
  | .vop _ w .. | .vopLoad _ w .. | .vshift _ w .. | .vpshufb w .. | .vpshufd w .. | .vpalignr w .. =>
    match w with
    | .xmm => .avx
    | .ymm => .avx2
  | .vinserti128 .. => .avx2
  | .pshufb .. | .palignr .. => .ssse3
  | .pblendw .. => .sse41
  | .sha256rnds2 .. | .sha256msg1 .. | .sha256msg2 .. => .sha
  | _ => .base

/-- Does the processor report the extension? Leaf 1, `ecx`: bit 9 is SSSE3, bit 19 SSE4.1, bit 28 AVX; leaf 7, `ebx`: bit 5 is AVX2, bit 29
SHA (Intel manual, volume 2, CPUID) (ssz/hasher.cpp:46-52). -/
def Cpu.reports (cpu : Cpu) : Ext → Bool
  | .base => true
  | .ssse3 => decide (1 ≤ cpu.maxLeaf.toNat) && cpu.leaf1.c.getLsbD 9
  | .sse41 => decide (1 ≤ cpu.maxLeaf.toNat) && cpu.leaf1.c.getLsbD 19
  | .avx => decide (1 ≤ cpu.maxLeaf.toNat) && cpu.leaf1.c.getLsbD 28
  | .avx2 => decide (7 ≤ cpu.maxLeaf.toNat) && cpu.leaf7.b.getLsbD 5
  | .sha => decide (7 ≤ cpu.maxLeaf.toNat) && cpu.leaf7.b.getLsbD 29

/-- Can instructions of the extension be executed? VEX-encoded instructions (AVX, AVX2) raise an exception unless the operating system has enabled
them: `CR4.OSXSAVE`, which leaf 1 reports as bit 27 of `ecx`, and the bits 1 and 2 of the register `xcr0` (Intel manual, volume 1, 14.3). The
code looks at neither (ssz/hasher.cpp:46-52). -/
def Cpu.usable (cpu : Cpu) (xcr0 : BitVec 64) (e : Ext) : Bool :=
  cpu.reports e &&
    match e with
    | .avx | .avx2 => cpu.leaf1.c.getLsbD 27 && xcr0.getLsbD 1 && xcr0.getLsbD 2
    | _ => true

/-- The label at which the routine behind the pointer begins (`sha256_sse` calls `sha256_1_avx`, ssz/hasher.cpp:36). -/
def HashFn.entry : HashFn → Label
  | .shani => .shani
  | .avx2 => .eight
  | .avx => .four
  | .sse => .one

end Mammon
