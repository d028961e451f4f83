import Verif.Model.X86
/-!
# `sha256_shani` (ssz/sha256_shani.asm)

The sixteen groups of four rounds are written out in the source; here a group is a function of its number and of the registers of the block.
-/

namespace Mammon.X86.Shani

/-- `K256` (ssz/sha256_shani.asm:975-991). -/
def k256 : List (BitVec 32) :=
  [0x428a2f98, 0x71374491, 0xb5c0fbcf, 0xe9b5dba5, 0x3956c25b, 0x59f111f1, 0x923f82a4, 0xab1c5ed5,
   0xd807aa98, 0x12835b01, 0x243185be, 0x550c7dc3, 0x72be5d74, 0x80deb1fe, 0x9bdc06a7, 0xc19bf174,
   0xe49b69c1, 0xefbe4786, 0x0fc19dc6, 0x240ca1cc, 0x2de92c6f, 0x4a7484aa, 0x5cb0a9dc, 0x76f988da,
   0x983e5152, 0xa831c66d, 0xb00327c8, 0xbf597fc7, 0xc6e00bf3, 0xd5a79147, 0x06ca6351, 0x14292967,
   0x27b70a85, 0x2e1b2138, 0x4d2c6dfc, 0x53380d13, 0x650a7354, 0x766a0abb, 0x81c2c92e, 0x92722c85,
   0xa2bfe8a1, 0xa81a664b, 0xc24b8b70, 0xc76c51a3, 0xd192e819, 0xd6990624, 0xf40e3585, 0x106aa070,
   0x19a4c116, 0x1e376c08, 0x2748774c, 0x34b0bcb5, 0x391c0cb3, 0x4ed8aa4a, 0x5b9cca4f, 0x682e6ff3,
   0x748f82ee, 0x78a5636f, 0x84c87814, 0x8cc70208, 0x90befffa, 0xa4506ceb, 0xbef9a3f7, 0xc67178f2]

/-- `PADDING` (ssz/sha256_shani.asm:999-1015). -/
def padding : List (BitVec 32) :=
  [0xc28a2f98, 0x71374491, 0xb5c0fbcf, 0xe9b5dba5, 0x3956c25b, 0x59f111f1, 0x923f82a4, 0xab1c5ed5,
   0xd807aa98, 0x12835b01, 0x243185be, 0x550c7dc3, 0x72be5d74, 0x80deb1fe, 0x9bdc06a7, 0xc19bf374,
   0x649b69c1, 0xf0fe4786, 0x0fe1edc6, 0x240cf254, 0x4fe9346f, 0x6cc984be, 0x61b9411e, 0x16f988fa,
   0xf2c65152, 0xa88e5a6d, 0xb019fc65, 0xb9d99ec7, 0x9a1231c3, 0xe70eeaa0, 0xfdb1232b, 0xc7353eb0,
   0x3069bad5, 0xcb976d5f, 0x5a0f118f, 0xdc1eeefd, 0x0a35b689, 0xde0b7a04, 0x58f4ca9d, 0xe15d5b16,
   0x007f3e86, 0x37088980, 0xa507ea32, 0x6fab9537, 0x17406110, 0x0d8cd6f1, 0xcdaa3b6d, 0xc0bbbe37,
   0x83613bda, 0xdb48a363, 0x0b02e931, 0x6fd15ca7, 0x521afaca, 0x31338431, 0x6ed41a95, 0x6d437890,
   0xc39c91f2, 0x9eccabbd, 0xb5c9a0e6, 0x532fb63c, 0xd2c741c6, 0x07237ea3, 0xa4954b68, 0x4c191d76]

/-- The section `.rodata` in 32-bit words (ssz/sha256_shani.asm:975-1015): `K256`, `PSHUFFLE_BYTE_FLIP_MASK`, `DIGEST`, `PADDING`; the 128-bit
constants are given from the least significant word up. -/
def data : List (BitVec 32) :=
  k256 ++ [0x00010203, 0x04050607, 0x08090a0b, 0x0c0d0e0f] ++
  [0x9b05688c, 0x510e527f, 0xbb67ae85, 0x6a09e667, 0x5be0cd19, 0x1f83d9ab, 0xa54ff53a, 0x3c6ef372] ++ padding

/-- Offset of `K256` (ssz/sha256_shani.asm:975). -/
abbrev K256 : Nat := 0
/-- Offset of `PSHUFFLE_BYTE_FLIP_MASK` (ssz/sha256_shani.asm:993). -/
abbrev FLIP_MASK : Nat := 256
/-- Offset of `DIGEST` (ssz/sha256_shani.asm:995). -/
abbrev DIGEST : Nat := 272
/-- Offset of `PADDING` (ssz/sha256_shani.asm:999). -/
abbrev PADDING : Nat := 304
/-- Offset of `ABEF_SAVEa` in the section `.data` (ssz/sha256_shani.asm:1021). -/
abbrev ABEF_SAVEa : Nat := 0
/-- Offset of `CDGH_SAVEa` in the section `.data` (ssz/sha256_shani.asm:1022). -/
abbrev CDGH_SAVEa : Nat := 16
/-- Offset of `ABEF_SAVEb` in the section `.data` (ssz/sha256_shani.asm:1023). -/
abbrev ABEF_SAVEb : Nat := 32
/-- Offset of `CDGH_SAVEb` in the section `.data` (ssz/sha256_shani.asm:1024). -/
abbrev CDGH_SAVEb : Nat := 48

/-- `OUTPUT_PTR` (ssz/sha256_shani.asm:64). -/
abbrev OUTPUT_PTR : R := .rdi
/-- `DATA_PTR` (ssz/sha256_shani.asm:65). -/
abbrev DATA_PTR : R := .rsi
/-- `NUM_BLKS` (ssz/sha256_shani.asm:66). -/
abbrev NUM_BLKS : R := .rdx
/-- `SHA256PADDING` (ssz/sha256_shani.asm:67). -/
abbrev SHA256PADDING : R := .rcx
/-- `SHA256CONSTANTS` (ssz/sha256_shani.asm:70). -/
abbrev SHA256CONSTANTS : R := .rax
/-- `MSG` (ssz/sha256_shani.asm:81). -/
abbrev MSG : X := .x0
/-- `SHUF_MASK` (ssz/sha256_shani.asm:90). -/
abbrev SHUF_MASK : X := .x8
/-- `ABEF_SAVE` (ssz/sha256_shani.asm:92). -/
abbrev ABEF_SAVE : X := .x9
/-- `CDGH_SAVE` (ssz/sha256_shani.asm:93). -/
abbrev CDGH_SAVE : X := .x10

/-- The registers used for one block: `STATE0`, `STATE1`, `MSGTMP0`..`MSGTMP4` (ssz/sha256_shani.asm:81-101). -/
structure Regs where
  s0 : X
  s1 : X
  m0 : X
  m1 : X
  m2 : X
  m3 : X
  m4 : X

/-- `STATE0`, `STATE1`, `MSGTMP0`..`MSGTMP4` (ssz/sha256_shani.asm:82-88). -/
def ra : Regs := ⟨.x1, .x2, .x3, .x4, .x5, .x6, .x7⟩
/-- `STATE0b`, `STATE1b`, `MSGTMP0b`..`MSGTMP4b` (ssz/sha256_shani.asm:95-101). -/
def rb : Regs := ⟨.x9, .x10, .x11, .x12, .x13, .x14, .x15⟩

/-- `MSGTMP(k mod 4)`: holds the schedule words of group `k` (ssz/sha256_shani.asm:84-87,97-100). -/
def Regs.m (v : Regs) (k : Nat) : X :=
  match k % 4 with
  | 0 => v.m0
  | 1 => v.m1
  | 2 => v.m2
  | _ => v.m3

/-- The schedule words of group `k` into `MSG`: from the input (at `[DATA_PTR + o]`) in the first four groups, where they are also copied to
`MSGTMP(k)`, else from `MSGTMP(k mod 4)` (for example ssz/sha256_shani.asm:145-147, 213, 660-662, 706). -/
def head (v : Regs) (k o : Nat) : List Instr :=
  if k < 4 then [.movLoadX .dqu MSG (.reg DATA_PTR o), .pshufb MSG SHUF_MASK, .movdqa (v.m k) MSG] else [.movdqa MSG (v.m k)]

/-- The final step of the computation of the schedule words of group `k + 1`, in the groups 3 to 14 (for example
ssz/sha256_shani.asm:193-196, 695-698). -/
def sched2 (v : Regs) (k : Nat) : List Instr :=
  if 3 ≤ k ∧ k < 15 then
    [.movdqa v.m4 (v.m k), .palignr v.m4 (v.m (k + 3)) 4, .paddd (v.m (k + 1)) v.m4, .sha256msg2 (v.m (k + 1)) (v.m k)]
  else []

/-- The first step of the computation of the schedule words of group `k + 3`, in the groups 1 to 12 (for example
ssz/sha256_shani.asm:171, 199, 674, 701). -/
def sched1 (v : Regs) (k : Nat) : List Instr :=
  if 1 ≤ k ∧ k < 13 then [.sha256msg1 (v.m (k + 3)) (v.m k)] else []

/-- Group `k` of four rounds on a block (ssz/sha256_shani.asm:144-470, 659-837). -/
def group (v : Regs) (k o : Nat) : List Instr :=
  head v k o ++ ([.padddLoad MSG (.reg SHA256CONSTANTS (k * 16)), .sha256rnds2 v.s1 v.s0] ++ (sched2 v k ++
  ([.pshufd MSG MSG 0x0E, .sha256rnds2 v.s0 v.s1] ++ sched1 v k)))

/-- The rounds on two blocks, `n` groups from group `k` on (ssz/sha256_shani.asm:144-470). -/
def groups2 : (n k : Nat) → List Instr
  | 0, _ => []
  | n + 1, k => group ra k (k * 16) ++ (group rb k ((k + 4) * 16) ++ groups2 n (k + 1))

/-- The rounds on one block, `n` groups from group `k` on (ssz/sha256_shani.asm:659-837). -/
def groups1 : (n k : Nat) → List Instr
  | 0, _ => []
  | n + 1, k => group ra k (k * 16) ++ groups1 n (k + 1)

/-- Group `k` of four rounds with the padding, for two blocks (for example ssz/sha256_shani.asm:486-491). -/
def padGroup2 (k : Nat) : List Instr :=
  [.movLoadX .dqa MSG (.reg SHA256PADDING (k * 16)), .sha256rnds2 ra.s1 ra.s0, .sha256rnds2 rb.s1 rb.s0, .pshufd MSG MSG 0x0E,
   .sha256rnds2 ra.s0 ra.s1, .sha256rnds2 rb.s0 rb.s1]

/-- Group `k` of four rounds with the padding, for one block (for example ssz/sha256_shani.asm:849-852). -/
def padGroup1 (k : Nat) : List Instr :=
  [.movLoadX .dqa MSG (.reg SHA256PADDING (k * 16)), .sha256rnds2 ra.s1 ra.s0, .pshufd MSG MSG 0x0E, .sha256rnds2 ra.s0 ra.s1]

/-- The rounds with the padding, for two blocks (ssz/sha256_shani.asm:485-609). -/
def padGroups2 : (n k : Nat) → List Instr
  | 0, _ => []
  | n + 1, k => padGroup2 k ++ padGroups2 n (k + 1)

/-- The rounds with the padding, for one block (ssz/sha256_shani.asm:848-942). -/
def padGroups1 : (n k : Nat) → List Instr
  | 0, _ => []
  | n + 1, k => padGroup1 k ++ padGroups1 n (k + 1)

/-- Entry (ssz/sha256_shani.asm:128-130). -/
def entry : List Instr :=
  [.movLoadX .dqa SHUF_MASK (.rel .shaniRo FLIP_MASK), .lea SHA256CONSTANTS (.rel .shaniRo K256), .lea SHA256PADDING (.rel .shaniRo PADDING)]

/-- Loading the initial hash value for two blocks (ssz/sha256_shani.asm:137-141). -/
def load2 : List Instr :=
  [.movLoadX .dqa ra.s0 (.rel .shaniRo DIGEST), .movLoadX .dqa ra.s1 (.rel .shaniRo (DIGEST + 16)),
   .movLoadX .dqa rb.s0 (.rel .shaniRo DIGEST), .movLoadX .dqa rb.s1 (.rel .shaniRo (DIGEST + 16))]

/-- Adding the initial hash value and saving the sums in the static variables (ssz/sha256_shani.asm:472-483). -/
def mid2 : List Instr :=
  [.padddLoad ra.s0 (.rel .shaniRo DIGEST), .padddLoad ra.s1 (.rel .shaniRo (DIGEST + 16)),
   .padddLoad rb.s0 (.rel .shaniRo DIGEST), .padddLoad rb.s1 (.rel .shaniRo (DIGEST + 16)),
   .movStoreX .dqa (.rel .shaniRw ABEF_SAVEa) ra.s0, .movStoreX .dqa (.rel .shaniRw CDGH_SAVEa) ra.s1,
   .movStoreX .dqa (.rel .shaniRw ABEF_SAVEb) rb.s0, .movStoreX .dqa (.rel .shaniRw CDGH_SAVEb) rb.s1]

/-- Adding the saved values and writing the result for two blocks (ssz/sha256_shani.asm:611-644). -/
def end2 : List Instr :=
  [.padddLoad ra.s0 (.rel .shaniRw ABEF_SAVEa), .padddLoad ra.s1 (.rel .shaniRw CDGH_SAVEa),
   .padddLoad rb.s0 (.rel .shaniRw ABEF_SAVEb), .padddLoad rb.s1 (.rel .shaniRw CDGH_SAVEb),
   .pshufd ra.s0 ra.s0 0x1B, .pshufd ra.s1 ra.s1 0xB1, .pshufd rb.s0 rb.s0 0x1B, .pshufd rb.s1 rb.s1 0xB1,
   .movdqa ra.m4 ra.s0, .movdqa rb.m4 rb.s0, .pblendw ra.s0 ra.s1 0xF0, .pblendw rb.s0 rb.s1 0xF0,
   .palignr ra.s1 ra.m4 8, .palignr rb.s1 rb.m4 8,
   .pshufb ra.s0 SHUF_MASK, .pshufb rb.s0 SHUF_MASK, .pshufb ra.s1 SHUF_MASK, .pshufb rb.s1 SHUF_MASK,
   .movStoreX .dqu (.reg OUTPUT_PTR (0 * 16)) ra.s0, .movStoreX .dqu (.reg OUTPUT_PTR (1 * 16)) ra.s1,
   .movStoreX .dqu (.reg OUTPUT_PTR (2 * 16)) rb.s0, .movStoreX .dqu (.reg OUTPUT_PTR (3 * 16)) rb.s1,
   .addImm DATA_PTR 128, .addImm OUTPUT_PTR 64, .subImm NUM_BLKS 2]

/-- Two blocks (ssz/sha256_shani.asm:137-644). -/
def two : List Instr := load2 ++ (groups2 16 0 ++ (mid2 ++ (padGroups2 16 0 ++ end2)))

/-- Loading the initial hash value for one block (ssz/sha256_shani.asm:652-657). -/
def load1 : List Instr :=
  [.movLoadX .dqa ra.s0 (.rel .shaniRo DIGEST), .movLoadX .dqa ra.s1 (.rel .shaniRo (DIGEST + 16)),
   .movdqa ABEF_SAVE ra.s0, .movdqa CDGH_SAVE ra.s1]

/-- Adding the initial hash value and saving the sum (ssz/sha256_shani.asm:840-846). -/
def mid1 : List Instr :=
  [.paddd ra.s0 ABEF_SAVE, .paddd ra.s1 CDGH_SAVE, .movdqa ABEF_SAVE ra.s0, .movdqa CDGH_SAVE ra.s1]

/-- Adding the saved value and writing the result for one block (ssz/sha256_shani.asm:945-959). -/
def end1 : List Instr :=
  [.paddd ra.s0 ABEF_SAVE, .paddd ra.s1 CDGH_SAVE, .pshufd ra.s0 ra.s0 0x1B, .pshufd ra.s1 ra.s1 0xB1, .movdqa ra.m4 ra.s0,
   .pblendw ra.s0 ra.s1 0xF0, .palignr ra.s1 ra.m4 8, .pshufb ra.s0 SHUF_MASK, .pshufb ra.s1 SHUF_MASK,
   .movStoreX .dqu (.reg OUTPUT_PTR (0 * 16)) ra.s0, .movStoreX .dqu (.reg OUTPUT_PTR (1 * 16)) ra.s1]

/-- One block (ssz/sha256_shani.asm:652-959). -/
def one : List Instr := load1 ++ (groups1 16 0 ++ (mid1 ++ (padGroups1 16 0 ++ end1)))

/-- `sha256_shani` (ssz/sha256_shani.asm:115-971), cut at the labels and jumps. -/
def code : Label → Block
  | .shani => ⟨entry, .goto .shaniLoop⟩
  | .shaniLoop => ⟨[.cmpImm NUM_BLKS 2], .jl .shaniTail .shaniTwo⟩
  | .shaniTwo => ⟨two, .goto .shaniLoop⟩
  | .shaniTail => ⟨[.test NUM_BLKS NUM_BLKS], .jz .shaniDone .shaniOne⟩
  | .shaniOne => ⟨one, .goto .shaniDone⟩
  | _ => ⟨[], .ret⟩

end Mammon.X86.Shani
