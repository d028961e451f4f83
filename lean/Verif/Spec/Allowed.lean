import Verif.Spec.Trace
/-!
# Which accesses to memory are allowed

Independent of the way the machine looks up addresses: an access is allowed if all its bytes lie in one region, the region may be written if the access is a store,
and the address is a multiple of what the instruction demands.
-/

namespace Mammon.X86

/-- No two regions share an address. -/
def Env.Separate (env : Env) : Prop :=
  ∀ r r' o o', o < env.size r → o' < env.size r' → env.base r + o = env.base r' + o' → r = r'

/-- The alignment an instruction demands of its memory operand: that of the operand for `vmovdqa`, 16 for `movdqa` and for the memory operands of
SSE instructions; none for the other VEX-encoded instructions and the general ones (Intel manual, volume 1, 14.9). -/
def Instr.alignment : Instr → Nat
  | .vload .dqa .xmm _ _ | .vstore .dqa .xmm _ _ => 16
  | .vload .dqa .ymm _ _ | .vstore .dqa .ymm _ _ => 32
  | .movLoadX .dqa _ _ | .movStoreX .dqa _ _ => 16
  | .padddLoad _ _ => 16
  | _ => 1

/-- Is the access allowed, if the instruction demands the alignment `al`? -/
def Access.Allowed (env : Env) (al : Nat) (a : Access) : Prop :=
  (∃ r, env.base r ≤ a.addr.toNat ∧ a.addr.toNat + a.bytes ≤ env.base r + env.size r ∧ (a.write = true → env.writable r = true)) ∧
    a.addr.toNat % al = 0

/-- Executing the instructions `is` from the state `s` makes an access that is not allowed. -/
def Violates (env : Env) (is : List Instr) (s : State) : Prop :=
  ∃ pre i post, is = pre ++ i :: post ∧ ∃ a ∈ i.access env (exec env pre s), ¬ a.Allowed env i.alignment

/-- The call or return at the end of a piece of code makes an access that is not allowed. -/
def TermViolates (env : Env) (s : State) (t : Term) : Prop := ∃ a ∈ t.access s, ¬ a.Allowed env 1

/-- A return finds another address than that of the pending call, at offset `o` of the region `r`. -/
def WrongReturn (env : Env) (cs : List Label) (s : State) (t : Term) : Prop :=
  t = .ret ∧ ∃ r o, (s.r .rsp).toNat = env.base r + o ∧ o + 8 ≤ env.size r ∧
    (readWord (s.mem r) (o + 4) ++ readWord (s.mem r) o : BitVec 64) ≠ retTo env cs

/-- A conditional jump depends on flags that the model does not track. -/
def Untracked (s : State) (t : Term) : Prop :=
  s.flags = none ∧ ∃ l n, t = .jl l n ∨ t = .jb l n ∨ t = .jz l n

/-- An access a routine must be allowed to make: relative to a register at the entry, with the alignment it must have. -/
structure Need where
  reg : R
  off : Int
  bytes : Nat
  write : Bool
  al : Nat
  deriving DecidableEq, Repr

/-- The access itself. -/
def Need.access (s : State) (x : Need) : Access := ⟨s.r x.reg + BitVec.ofInt 64 x.off, x.bytes, x.write⟩

/-- What `sha256_1_avx` needs: seven registers are saved below the return address (ssz/sha256_avx_one_block.asm:431-443), then 64 bytes are reserved, of
which the first 16 receive message words by `vmovdqa` (`_XFER`) and the last 32 the intermediate hash value (`_DIGEST`); 16 bytes between them are never
used (ssz/sha256_avx_one_block.asm:150-151); the four quarters of the block are read without alignment (ssz/sha256_avx_one_block.asm:475-478) and
eight words of output are written (ssz/sha256_avx_one_block.asm:605-612). -/
def oneNeeds : List Need :=
  (List.range 7).map (fun k => ⟨.rsp, -(8 * (k + 1)), 8, true, 1⟩) ++ ⟨.rsp, -120, 16, true, 16⟩ ::
    (List.range 8).map (fun k => ⟨.rsp, -88 + 4 * k, 4, true, 1⟩) ++ (List.range 4).map (fun k => ⟨.rsi, 16 * k, 16, false, 1⟩) ++
    (List.range 8).map (fun k => ⟨.rdi, 4 * k, 4, true, 1⟩)

/-- The data section of a file is where the linker must put it. -/
structure Placed (env : Env) (r : Region) : Prop where
  align : env.base r % 64 = 0
  size : 4 * (sectionData r).length ≤ env.size r

end Mammon.X86
