import Verif.Model.Basic
/-!
# The part of x86-64 used by the SHA-256 routines

Registers, memory, the instructions that occur in ssz/sha256_avx_one_block.asm, ssz/sha256_avx.asm, ssz/sha256_avx2.asm,
ssz/transpose_avx2.asm and ssz/sha256_shani.asm, and control flow between labels. The meaning of the instructions is that of the
Intel manual (volume 2). The `WINABI` variants of the sources are not modelled: the registers are those of the System V convention.
-/

namespace Mammon.X86

/-- The general registers (64 bits) (ssz/sha256_avx_one_block.asm:128-146, ssz/sha256_avx.asm:465-473). -/
inductive R
  | rax | rbx | rcx | rdx | rsi | rdi | rbp | rsp | r8 | r9 | r10 | r11 | r12 | r13 | r14 | r15
  deriving DecidableEq, Repr

/-- The vector registers `ymm0`..`ymm15`; `xmm` names the lower half (ssz/sha256_avx.asm:87-100, ssz/sha256_avx2.asm:408-421). -/
inductive X
  | x0 | x1 | x2 | x3 | x4 | x5 | x6 | x7 | x8 | x9 | x10 | x11 | x12 | x13 | x14 | x15
  deriving DecidableEq, Repr

/-- The contents of a vector register: lane `l` is bits `32 * l .. 32 * l + 31`. Only the lanes 0 to 7 exist; no instruction reads
a lane above 7 when it writes the lanes 0 to 7 (ssz/sha256_avx.asm:87-100, ssz/sha256_avx2.asm:408-421). -/
abbrev Lanes := Nat → BitVec 32

/-- Disjoint pieces of memory: the input and output buffers of a call, the stack from the deepest address the routine may use up to
and including the return address, and the data sections of the assembly files (ssz/hasher.hpp:27-29; ssz/sha256_avx.asm:110-120,309,
ssz/sha256_avx_one_block.asm:445, ssz/sha256_shani.asm:118). -/
inductive Region
  | input | output | stack | one | four | eight | shaniRo | shaniRw
  deriving DecidableEq, Repr

/-- All regions (ssz/hasher.hpp:27-29). -/
def Region.all : List Region := [.input, .output, .stack, .one, .four, .eight, .shaniRo, .shaniRw]

/-- The input is `const` (ssz/hasher.hpp:27-29) and ssz/sha256_shani.asm:973 is a read-only section; the other data sections are
`.data` (ssz/sha256_avx_one_block.asm:30, ssz/sha256_avx.asm:309, ssz/sha256_avx2.asm:70, ssz/sha256_shani.asm:1017). The machine below
takes the permissions as a parameter (`Env.writable`), so that a theorem can also say what a routine never tries to write. -/
def Region.writable : Region → Bool
  | .input => false
  | .shaniRo => false
  | _ => true

/-- Contents of memory: a byte for each offset in each region (ssz/hasher.hpp:27-29). -/
abbrev Mem := Region → Nat → Byte

/-- The labels at which control can arrive: the entry points, the labels in the routines that are jump targets, and the places after
a call or a conditional jump (ssz/sha256_avx.asm:470,517,598, ssz/sha256_avx2.asm:632). -/
inductive Label
  | one
  | four | fourLoop | fourBlocks | fourXX | fourMid | fourPad | fourTail | fourCall | fourBack | fourDone
  | eight | eightLoop | eightBlocks | eightXX | eightMid | eightPad | eightTail | eightBack
  | shani | shaniLoop | shaniTwo | shaniTail | shaniOne | shaniDone
  deriving DecidableEq, Repr

/-- Where things are in the address space: base and size of the regions, which of them may be written, the address of the instruction
at each label (what `call` pushes) and the return address of the outermost caller (ssz/hasher.hpp:27-29). -/
structure Env where
  base : Region → Nat
  size : Region → Nat
  writable : Region → Bool
  codeAddr : Label → BitVec 64
  retAddr : BitVec 64

/-- The address of offset `o` in region `r` (ssz/sha256_avx.asm:475). -/
def Env.ptr (env : Env) (r : Region) (o : Nat) : BitVec 64 := BitVec.ofNat 64 (env.base r + o)

/-- The region and offset of the `n` bytes at address `a`, if they lie in one region (ssz/sha256_avx.asm:218,475). -/
def Env.resolve (env : Env) (a : BitVec 64) (n : Nat) : Option (Region × Nat) :=
  (Region.all.find? fun r => decide (env.base r ≤ a.toNat ∧ a.toNat + n ≤ env.base r + env.size r)).map
    fun r => (r, a.toNat - env.base r)

/-- Replace the value of a function at one point (used by ssz/sha256_avx.asm:458-609, ssz/sha256_avx2.asm, ssz/sha256_avx_one_block.asm,
ssz/sha256_shani.asm). -/
def upd {α β : Type} [DecidableEq α] (f : α → β) (k : α) (v : β) : α → β := fun j => if j = k then v else f j

/-- The condition flags as far as they are tested: `zf`, `cf`, and `lt` for SF ≠ OF (ssz/sha256_avx.asm:469-470,516-517,597-598). -/
structure Flags where
  zf : Bool
  cf : Bool
  lt : Bool

/-- The machine state. `flags = none` when the flags hold something the model does not track (the routines never branch on it).
`fault` records that some access was outside the regions, to a read-only region, or misaligned for an instruction that requires
alignment (used by ssz/sha256_avx.asm:458-609, ssz/sha256_avx2.asm, ssz/sha256_avx_one_block.asm, ssz/sha256_shani.asm). -/
structure State where
  r : R → BitVec 64
  x : X → Lanes
  mem : Mem
  flags : Option Flags
  fault : Bool

/-- Little-endian 32-bit word at offset `o` (ssz/sha256_avx_one_block.asm:475-478). -/
def readWord (m : Nat → Byte) (o : Nat) : BitVec 32 := m (o + 3) ++ m (o + 2) ++ m (o + 1) ++ m o

/-- Byte `j` (from the least significant) of a word (ssz/sha256_avx.asm:218). -/
def byteOf (w : BitVec 32) (j : Nat) : Byte := (w >>> (8 * j)).setWidth 8

/-- Store the lanes `0 .. n - 1` at offset `o`, little endian (ssz/sha256_avx.asm:218). -/
def writeLanes (n : Nat) (m : Nat → Byte) (o : Nat) (v : Lanes) : Nat → Byte := fun i =>
  if o ≤ i ∧ i < o + 4 * n then byteOf (v ((i - o) / 4)) ((i - o) % 4) else m i

/-- Load lanes from address `a` (`n` of them must be accessible; zero if they are not, in which case a fault is recorded)
(ssz/sha256_avx.asm:250-251). -/
def Env.read (env : Env) (m : Mem) (a : BitVec 64) (n : Nat) : Lanes :=
  match env.resolve a (4 * n) with
  | some (r, o) => fun l => readWord (m r) (o + 4 * l)
  | none => fun _ => 0

/-- May `4 * n` bytes be read at `a`? (ssz/sha256_avx.asm:250-251) -/
def Env.canRead (env : Env) (a : BitVec 64) (n : Nat) : Bool := (env.resolve a (4 * n)).isSome

/-- Store `n` lanes at address `a` (nothing if inaccessible, in which case a fault is recorded) (ssz/sha256_avx.asm:218). -/
def Env.write (env : Env) (m : Mem) (a : BitVec 64) (n : Nat) (v : Lanes) : Mem :=
  match env.resolve a (4 * n) with
  | some (r, o) => upd m r (writeLanes n (m r) o v)
  | none => m

/-- May `4 * n` bytes be written at `a`? (ssz/sha256_avx.asm:218) -/
def Env.canWrite (env : Env) (a : BitVec 64) (n : Nat) : Bool :=
  match env.resolve a (4 * n) with
  | some (r, _) => env.writable r
  | none => false

/-- Memory operands: `[b + disp]`, `[b + i + disp]`, and `[rel label]` with the label given by its section and offset
(ssz/sha256_avx.asm:218,219,475). -/
inductive Addr
  | reg (b : R) (disp : Nat)
  | idx (b i : R) (disp : Nat)
  | rel (r : Region) (o : Nat)
  deriving DecidableEq, Repr

/-- The address denoted by a memory operand (ssz/sha256_avx.asm:218,219,475). -/
def State.ea (s : State) (env : Env) : Addr → BitVec 64
  | .reg b d => s.r b + BitVec.ofNat 64 d
  | .idx b i d => s.r b + s.r i + BitVec.ofNat 64 d
  | .rel r o => env.ptr r o

/-- Number of 32-bit lanes of an operand: `xmm` or `ymm` (ssz/sha256_avx.asm:87, ssz/sha256_avx2.asm:408). -/
inductive Width
  | xmm | ymm
  deriving DecidableEq, Repr

/-- Lanes of a width (ssz/sha256_avx.asm:87, ssz/sha256_avx2.asm:408). -/
def Width.lanes : Width → Nat
  | .xmm => 4
  | .ymm => 8

/-- `vmovdqa` faults on misaligned memory operands, `vmovdqu` and `vmovups` do not (ssz/sha256_avx.asm:123,218, ssz/sha256_avx_one_block.asm:87). -/
inductive Mov
  | dqa | dqu | ups
  deriving DecidableEq, Repr

/-- Lane-wise operations (ssz/sha256_avx.asm:213-237). -/
inductive VOp
  | paddd | pxor | pand | por
  deriving DecidableEq, Repr

/-- The operation on one lane (ssz/sha256_avx.asm:213-237). -/
def VOp.eval : VOp → BitVec 32 → BitVec 32 → BitVec 32
  | .paddd, a, b => a + b
  | .pxor, a, b => a ^^^ b
  | .pand, a, b => a &&& b
  | .por, a, b => a ||| b

/-- Shifts by a constant: `vpslld`, `vpsrld` on 32-bit lanes, `vpsrlq` on 64-bit lanes (ssz/sha256_avx.asm:179-180,
ssz/sha256_avx_one_block.asm:304). -/
inductive VSh
  | pslld | psrld | psrlq
  deriving DecidableEq, Repr

/-- The 64-bit lane containing 32-bit lane `l` (ssz/sha256_avx_one_block.asm:304). -/
def quad (v : Lanes) (l : Nat) : BitVec 64 := v (l / 2 * 2 + 1) ++ v (l / 2 * 2)

/-- A shift (ssz/sha256_avx.asm:179-180, ssz/sha256_avx_one_block.asm:304). -/
def VSh.eval : VSh → Lanes → Nat → Lanes
  | .pslld, v, n => fun l => v l <<< n
  | .psrld, v, n => fun l => v l >>> n
  | .psrlq, v, n => fun l => (quad v l >>> (n + 32 * (l % 2))).setWidth 32

/-- Keep the lanes of the width and clear the ones above: what VEX-encoded instructions write (ssz/sha256_avx.asm:213-237). -/
def zx (w : Width) (v : Lanes) : Lanes := fun l => if l < w.lanes then v l else 0

/-- Replace the lower four lanes and keep the ones above: what legacy SSE instructions write (ssz/sha256_shani.asm:148-168). -/
def low (old v : Lanes) : Lanes := fun l => if l < 4 then v l else old l

/-- Byte `k` of the 128-bit half that contains lane `l` (ssz/sha256_avx.asm:495). -/
def halfByte (v : Lanes) (l k : Nat) : Byte := byteOf (v (l / 4 * 4 + k / 4)) (k % 4)

/-- The word with the given bytes, least significant first (ssz/sha256_avx.asm:495). -/
def ofBytes (b : Nat → Byte) : BitVec 32 := b 3 ++ b 2 ++ b 1 ++ b 0

/-- `pshufb`: within each 128-bit half, byte `i` becomes the byte selected by the low four bits of byte `i` of the mask, or zero if
the mask byte has its top bit set (ssz/sha256_avx.asm:495). -/
def pshufb (v mask : Lanes) : Lanes := fun l => ofBytes fun j =>
  if (byteOf (mask l) j).getLsbD 7 then 0 else halfByte v l ((byteOf (mask l) j).toNat % 16)

/-- `pshufd`: within each 128-bit half, lane `i` becomes the lane selected by the bits `2 * i, 2 * i + 1` of the constant
(ssz/sha256_avx_one_block.asm:278, ssz/sha256_shani.asm:149). -/
def pshufd (v : Lanes) (n : Nat) : Lanes := fun l => v (l / 4 * 4 + n / 4 ^ (l % 4) % 4)

/-- `palignr`: within each 128-bit half, the concatenation `a:b` shifted right by `n` bytes (ssz/sha256_avx_one_block.asm:189,
ssz/sha256_shani.asm:201). -/
def palignr (a b : Lanes) (n : Nat) : Lanes := fun l => ofBytes fun j =>
  let k := 4 * (l % 4) + j + n
  if k < 16 then halfByte b l k else if k < 32 then halfByte a l (k - 16) else 0

/-- `shufps`: within each 128-bit half, the lower two lanes are selected from `a`, the upper two from `b` (ssz/sha256_avx.asm:146-150). -/
def shufps (a b : Lanes) (n : Nat) : Lanes := fun l =>
  (if l % 4 < 2 then a else b) (l / 4 * 4 + n / 4 ^ (l % 4) % 4)

/-- `vinserti128`: the half numbered by bit 0 of the constant is replaced by `b` (ssz/transpose_avx2.asm:77-80). -/
def vinserti128 (a b : Lanes) (n : Nat) : Lanes := fun l => if l / 4 = n % 2 then b (l % 4) else a l

/-- One half of `vperm2f128`, selected by four bits of the constant: 0, 1 the halves of `a`, 2, 3 the halves of `b`, zero if bit 3 is
set (ssz/transpose_avx2.asm:182-185). -/
def perm2half (a b : Lanes) (sel l : Nat) : BitVec 32 :=
  if sel / 8 % 2 = 1 then 0 else (if sel / 2 % 2 = 0 then a else b) (4 * (sel % 2) + l)

/-- `vperm2f128` (ssz/transpose_avx2.asm:182-185). -/
def vperm2f128 (a b : Lanes) (n : Nat) : Lanes := fun l => perm2half a b (n / 16 ^ (l / 4) % 16) (l % 4)

/-- `pblendw`: 16-bit word `i` is taken from `b` if bit `i` of the constant is set, else from `a` (ssz/sha256_shani.asm:624). -/
def pblendw (a b : Lanes) (n : Nat) : Lanes := fun l =>
  ((if n.testBit (2 * l + 1) then b l else a l) >>> 16).setWidth 16 ++ (if n.testBit (2 * l) then b l else a l).setWidth 16

/-- `Ch` in the description of the SHA instructions (ssz/sha256_shani.asm:148). -/
def iCh (e f g : BitVec 32) : BitVec 32 := (e &&& f) ^^^ (~~~e &&& g)
/-- `Maj` in the description of the SHA instructions (ssz/sha256_shani.asm:148). -/
def iMaj (a b c : BitVec 32) : BitVec 32 := (a &&& b) ^^^ (a &&& c) ^^^ (b &&& c)
/-- The upper case sigma 0 in the description of the SHA instructions (ssz/sha256_shani.asm:148). -/
def iS0 (a : BitVec 32) : BitVec 32 := a.rotateRight 2 ^^^ a.rotateRight 13 ^^^ a.rotateRight 22
/-- The upper case sigma 1 in the description of the SHA instructions (ssz/sha256_shani.asm:148). -/
def iS1 (e : BitVec 32) : BitVec 32 := e.rotateRight 6 ^^^ e.rotateRight 11 ^^^ e.rotateRight 25
/-- The lower case sigma 0 in the description of the SHA instructions (ssz/sha256_shani.asm:168). -/
def is0 (w : BitVec 32) : BitVec 32 := w.rotateRight 7 ^^^ w.rotateRight 18 ^^^ (w >>> 3)
/-- The lower case sigma 1 in the description of the SHA instructions (ssz/sha256_shani.asm:203). -/
def is1 (w : BitVec 32) : BitVec 32 := w.rotateRight 17 ^^^ w.rotateRight 19 ^^^ (w >>> 10)

/-- `sha256rnds2 dest, src` with `wk` = `xmm0`: `dest` holds C, D, G, H and `src` holds A, B, E, F, from the most significant lane
down; the result holds A, B, E, F after two rounds (ssz/sha256_shani.asm:148). -/
def sha256rnds2 (dest src wk : Lanes) : Lanes :=
  let a := src 3; let b := src 2; let e := src 1; let f := src 0
  let c := dest 3; let d := dest 2; let g := dest 1; let h := dest 0
  let a1 := iCh e f g + iS1 e + wk 0 + h + iMaj a b c + iS0 a
  let e1 := iCh e f g + iS1 e + wk 0 + h + d
  let a2 := iCh e1 e f + iS1 e1 + wk 1 + g + iMaj a1 a b + iS0 a1
  let e2 := iCh e1 e f + iS1 e1 + wk 1 + g + c
  fun l => match l with | 0 => e1 | 1 => e2 | 2 => a1 | _ => a2

/-- `sha256msg1 dest, src` (ssz/sha256_shani.asm:168). -/
def sha256msg1 (dest src : Lanes) : Lanes := fun l =>
  match l with
  | 0 => dest 0 + is0 (dest 1)
  | 1 => dest 1 + is0 (dest 2)
  | 2 => dest 2 + is0 (dest 3)
  | _ => dest 3 + is0 (src 0)

/-- `sha256msg2 dest, src` (ssz/sha256_shani.asm:203). -/
def sha256msg2 (dest src : Lanes) : Lanes :=
  let w16 := dest 0 + is1 (src 2)
  let w17 := dest 1 + is1 (src 3)
  let w18 := dest 2 + is1 w16
  let w19 := dest 3 + is1 w17
  fun l => match l with | 0 => w16 | 1 => w17 | 2 => w18 | _ => w19

/-- `bswap` of a 32-bit register (ssz/sha256_avx_one_block.asm:595-602). -/
def bswap (w : BitVec 32) : BitVec 32 := byteOf w 0 ++ byteOf w 1 ++ byteOf w 2 ++ byteOf w 3

/-- The instructions. Names ending in 32 act on the lower halves of the general registers (`eax`, ...) and clear the upper halves;
`v...` are the VEX-encoded vector instructions; `movdqa` to `sha256msg2` are the legacy SSE ones (used by ssz/sha256_avx.asm:458-609,
ssz/sha256_avx2.asm, ssz/sha256_avx_one_block.asm, ssz/sha256_shani.asm). -/
inductive Instr
  | endbranch64
  | push (s : R)
  | pop (d : R)
  | mov (d s : R)
  | movLoad (d : R) (a : Addr)
  | movStore (a : Addr) (s : R)
  | addImm (d : R) (n : Nat)
  | subImm (d : R) (n : Nat)
  | andLoad (d : R) (a : Addr)
  | xor (d s : R)
  | lea (d : R) (a : Addr)
  | cmpImm (s : R) (n : Nat)
  | test (s t : R)
  | dec (d : R)
  | mov32 (d s : R)
  | load32 (d : R) (a : Addr)
  | store32 (a : Addr) (s : R)
  | add32 (d s : R)
  | addLoad32 (d : R) (a : Addr)
  | xor32 (d s : R)
  | and32 (d s : R)
  | or32 (d s : R)
  | shld32 (d s : R) (n : Nat)
  | bswap32 (d : R)
  | vmov (w : Width) (d s : X)
  | vload (m : Mov) (w : Width) (d : X) (a : Addr)
  | vstore (m : Mov) (w : Width) (a : Addr) (s : X)
  | vop (o : VOp) (w : Width) (d s t : X)
  | vopLoad (o : VOp) (w : Width) (d s : X) (a : Addr)
  | vshift (o : VSh) (w : Width) (d s : X) (n : Nat)
  | vpshufb (w : Width) (d s t : X)
  | vpshufd (w : Width) (d s : X) (n : Nat)
  | vpalignr (w : Width) (d s t : X) (n : Nat)
  | vshufps (w : Width) (d s t : X) (n : Nat)
  | vinserti128 (d s : X) (a : Addr) (n : Nat)
  | vperm2f128 (d s t : X) (n : Nat)
  | movdqa (d s : X)
  | movLoadX (m : Mov) (d : X) (a : Addr)
  | movStoreX (m : Mov) (a : Addr) (s : X)
  | paddd (d s : X)
  | padddLoad (d : X) (a : Addr)
  | pshufb (d s : X)
  | pshufd (d s : X) (n : Nat)
  | palignr (d s : X) (n : Nat)
  | pblendw (d s : X) (n : Nat)
  | sha256rnds2 (d s : X)
  | sha256msg1 (d s : X)
  | sha256msg2 (d s : X)
  deriving DecidableEq, Repr

/-- Write a general register (used by ssz/sha256_avx.asm:458-609, ssz/sha256_avx2.asm, ssz/sha256_avx_one_block.asm, ssz/sha256_shani.asm). -/
def State.setR (s : State) (d : R) (v : BitVec 64) : State := { s with r := upd s.r d v }
/-- Write the lower half of a general register; the upper half becomes zero (ssz/sha256_avx_one_block.asm:189-400). -/
def State.setR32 (s : State) (d : R) (v : BitVec 32) : State := s.setR d (v.setWidth 64)
/-- The lower half of a general register (ssz/sha256_avx_one_block.asm:189-400). -/
def State.get32 (s : State) (d : R) : BitVec 32 := (s.r d).setWidth 32
/-- Write a vector register (used by ssz/sha256_avx.asm:458-609, ssz/sha256_avx2.asm, ssz/sha256_avx_one_block.asm, ssz/sha256_shani.asm). -/
def State.setX (s : State) (d : X) (v : Lanes) : State := { s with x := upd s.x d v }
/-- The flags are overwritten by something not tracked (ssz/sha256_avx.asm:465). -/
def State.clobber (s : State) : State := { s with flags := none }
/-- Record a fault unless the condition holds (used by ssz/sha256_avx.asm:458-609, ssz/sha256_avx2.asm, ssz/sha256_avx_one_block.asm,
ssz/sha256_shani.asm). -/
def State.check (s : State) (b : Bool) : State := { s with fault := s.fault || !b }

/-- Is the address aligned as the instruction demands (`n` lanes)? (ssz/sha256_avx.asm:218,250) -/
def Mov.aligned (m : Mov) (n : Nat) (a : BitVec 64) : Bool := m != .dqa || a.toNat % (4 * n) == 0

/-- The two lanes of a 64-bit value (ssz/sha256_avx_one_block.asm:433-440). -/
def lanes64 (v : BitVec 64) : Lanes := fun l => (v >>> (32 * l)).setWidth 32
/-- The 64-bit value of two lanes (ssz/sha256_avx_one_block.asm:630-637). -/
def of64 (v : Lanes) : BitVec 64 := v 1 ++ v 0

/-- A load into a vector register before masking: record a fault if inaccessible or misaligned (ssz/sha256_avx.asm:250). -/
def State.vread (s : State) (env : Env) (m : Mov) (n : Nat) (a : Addr) : State × Lanes :=
  (s.check (env.canRead (s.ea env a) n && m.aligned n (s.ea env a)), env.read s.mem (s.ea env a) n)

/-- A store of `n` lanes (ssz/sha256_avx.asm:218). -/
def State.vwrite (s : State) (env : Env) (m : Mov) (n : Nat) (p : BitVec 64) (v : Lanes) : State :=
  { s with mem := env.write s.mem p n v, fault := s.fault || !(env.canWrite p n && m.aligned n p) }

/-- Execute one instruction (used by ssz/sha256_avx.asm:458-609, ssz/sha256_avx2.asm, ssz/sha256_avx_one_block.asm, ssz/sha256_shani.asm). -/
def step (env : Env) (s : State) : Instr → State
  | .endbranch64 => s
  | .push r => (s.vwrite env .dqu 2 (s.r .rsp - 8) (lanes64 (s.r r))).setR .rsp (s.r .rsp - 8)
  | .pop d =>
    let p := s.vread env .dqu 2 (.reg .rsp 0)
    (p.1.setR .rsp (s.r .rsp + 8)).setR d (of64 p.2)
  | .mov d t => s.setR d (s.r t)
  | .movLoad d a => let p := s.vread env .dqu 2 a; p.1.setR d (of64 p.2)
  | .movStore a t => s.vwrite env .dqu 2 (s.ea env a) (lanes64 (s.r t))
  | .addImm d n => (s.setR d (s.r d + BitVec.ofNat 64 n)).clobber
  | .subImm d n => (s.setR d (s.r d - BitVec.ofNat 64 n)).clobber
  | .andLoad d a => let p := s.vread env .dqu 2 a; (p.1.setR d (s.r d &&& of64 p.2)).clobber
  | .xor d t => (s.setR d (s.r d ^^^ s.r t)).clobber
  | .lea d a => s.setR d (s.ea env a)
  | .cmpImm t n =>
    { s with flags := some ⟨s.r t == BitVec.ofNat 64 n, (s.r t).ult (BitVec.ofNat 64 n), (s.r t).slt (BitVec.ofNat 64 n)⟩ }
  | .test t u => { s with flags := some ⟨s.r t &&& s.r u == 0, false, (s.r t &&& s.r u).msb⟩ }
  | .dec d => (s.setR d (s.r d - 1)).clobber
  | .mov32 d t => s.setR32 d (s.get32 t)
  | .load32 d a => let p := s.vread env .dqu 1 a; p.1.setR32 d (p.2 0)
  | .store32 a t => s.vwrite env .dqu 1 (s.ea env a) fun _ => s.get32 t
  | .add32 d t => (s.setR32 d (s.get32 d + s.get32 t)).clobber
  | .addLoad32 d a => let p := s.vread env .dqu 1 a; (p.1.setR32 d (s.get32 d + p.2 0)).clobber
  | .xor32 d t => (s.setR32 d (s.get32 d ^^^ s.get32 t)).clobber
  | .and32 d t => (s.setR32 d (s.get32 d &&& s.get32 t)).clobber
  | .or32 d t => (s.setR32 d (s.get32 d ||| s.get32 t)).clobber
  | .shld32 d t n => (s.setR32 d ((s.get32 d <<< n) ||| (s.get32 t >>> (32 - n)))).clobber
  | .bswap32 d => s.setR32 d (bswap (s.get32 d))
  | .vmov w d t => s.setX d (zx w (s.x t))
  | .vload m w d a => let p := s.vread env m w.lanes a; p.1.setX d (zx w p.2)
  | .vstore m w a t => s.vwrite env m w.lanes (s.ea env a) (s.x t)
  | .vop o w d t u => s.setX d (zx w fun l => o.eval (s.x t l) (s.x u l))
  | .vopLoad o w d t a => let p := s.vread env .dqu w.lanes a; p.1.setX d (zx w fun l => o.eval (s.x t l) (p.2 l))
  | .vshift o w d t n => s.setX d (zx w (o.eval (s.x t) n))
  | .vpshufb w d t u => s.setX d (zx w (X86.pshufb (s.x t) (s.x u)))
  | .vpshufd w d t n => s.setX d (zx w (X86.pshufd (s.x t) n))
  | .vpalignr w d t u n => s.setX d (zx w (X86.palignr (s.x t) (s.x u) n))
  | .vshufps w d t u n => s.setX d (zx w (shufps (s.x t) (s.x u) n))
  | .vinserti128 d t a n => let p := s.vread env .dqu 4 a; p.1.setX d (zx .ymm (X86.vinserti128 (s.x t) p.2 n))
  | .vperm2f128 d t u n => s.setX d (zx .ymm (X86.vperm2f128 (s.x t) (s.x u) n))
  | .movdqa d t => s.setX d (low (s.x d) (s.x t))
  | .movLoadX m d a => let p := s.vread env m 4 a; p.1.setX d (low (s.x d) p.2)
  | .movStoreX m a t => s.vwrite env m 4 (s.ea env a) (s.x t)
  | .paddd d t => s.setX d (low (s.x d) fun l => s.x d l + s.x t l)
  | .padddLoad d a => let p := s.vread env .dqa 4 a; p.1.setX d (low (s.x d) fun l => s.x d l + p.2 l)
  | .pshufb d t => s.setX d (low (s.x d) (X86.pshufb (s.x d) (s.x t)))
  | .pshufd d t n => s.setX d (low (s.x d) (X86.pshufd (s.x t) n))
  | .palignr d t n => s.setX d (low (s.x d) (X86.palignr (s.x d) (s.x t) n))
  | .pblendw d t n => s.setX d (low (s.x d) (X86.pblendw (s.x d) (s.x t) n))
  | .sha256rnds2 d t => s.setX d (low (s.x d) (X86.sha256rnds2 (s.x d) (s.x t) (s.x .x0)))
  | .sha256msg1 d t => s.setX d (low (s.x d) (X86.sha256msg1 (s.x d) (s.x t)))
  | .sha256msg2 d t => s.setX d (low (s.x d) (X86.sha256msg2 (s.x d) (s.x t)))

/-- Execute a sequence of instructions without jumps (used by ssz/sha256_avx.asm:458-609, ssz/sha256_avx2.asm, ssz/sha256_avx_one_block.asm,
ssz/sha256_shani.asm). -/
def exec (env : Env) : List Instr → State → State
  | [], s => s
  | i :: is, s => exec env is (step env s i)

/-- How a piece of straight-line code ends: fall through or `jmp`, a conditional jump with its target and the place after it, a call
with the place after it, a return (ssz/sha256_avx.asm:470,508,517,594,598,599,609). -/
inductive Term
  | goto (l : Label)
  | jl (target next : Label)
  | jb (target next : Label)
  | jz (target next : Label)
  | call (target next : Label)
  | ret

/-- A piece of straight-line code (ssz/sha256_avx.asm:458-609). -/
structure Block where
  body : List Instr
  term : Term

/-- Execution: at a label with the labels the pending calls return to, returned to the outermost caller, or failed (a fault, a jump
on flags not tracked, or a return to another address than the caller's) (ssz/sha256_avx.asm:458-609). -/
inductive Conf
  | run (l : Label) (callers : List Label) (s : State)
  | done (s : State)
  | fail

/-- Conditional jump (ssz/sha256_avx.asm:470,517,598). -/
def branch (cs : List Label) (s : State) (cond : Flags → Bool) (target next : Label) : Conf :=
  match s.flags with
  | some f => .run (if cond f then target else next) cs s
  | none => .fail

/-- What happens at the end of a piece of straight-line code (ssz/sha256_avx.asm:470,508,517,594,598,599,609). -/
def finish (env : Env) (cs : List Label) (s : State) : Term → Conf
  | .goto l => .run l cs s
  | .jl t n => branch cs s Flags.lt t n
  | .jb t n => branch cs s Flags.cf t n
  | .jz t n => branch cs s Flags.zf t n
  | .call t n =>
    let s' := (s.vwrite env .dqu 2 (s.r .rsp - 8) (lanes64 (env.codeAddr n))).setR .rsp (s.r .rsp - 8)
    if s'.fault then .fail else .run t (n :: cs) s'
  | .ret =>
    let p := s.vread env .dqu 2 (.reg .rsp 0)
    let s' := p.1.setR .rsp (s.r .rsp + 8)
    if s'.fault then .fail
    else match cs with
      | [] => if of64 p.2 = env.retAddr then .done s' else .fail
      | n :: cs => if of64 p.2 = env.codeAddr n then .run n cs s' else .fail

/-- Execute one piece of straight-line code and its final jump (ssz/sha256_avx.asm:458-609). -/
def advance (env : Env) (code : Label → Block) : Conf → Conf
  | .run l cs s =>
    let s' := exec env (code l).body s
    if s'.fault then .fail else finish env cs s' (code l).term
  | c => c

/-- Execute `n` pieces (ssz/sha256_avx.asm:458-609). -/
def steps (env : Env) (code : Label → Block) : Nat → Conf → Conf
  | 0, c => c
  | n + 1, c => steps env code n (advance env code c)

end Mammon.X86
