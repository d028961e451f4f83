import Verif.Spec.Call
/-!
# What an observer of the timing of a routine can see

The usual model of a timing attacker: the attacker learns which instructions are executed, in which order, and which addresses they access, but not the
values. None of the instructions of the routines takes a time that depends on the values of its operands (there is no division and no shift
by a register).
-/

namespace Mammon.X86

/-- An access to memory. -/
structure Access where
  addr : BitVec 64
  bytes : Nat
  write : Bool
  deriving DecidableEq, Repr

/-- The accesses of an instruction executed in a state. -/
def Instr.access (env : Env) (s : State) : Instr → List Access
  | .push _ => [⟨s.r .rsp - 8, 8, true⟩]
  | .pop _ => [⟨s.r .rsp, 8, false⟩]
  | .movLoad _ a => [⟨s.ea env a, 8, false⟩]
  | .movStore a _ => [⟨s.ea env a, 8, true⟩]
  | .andLoad _ a => [⟨s.ea env a, 8, false⟩]
  | .load32 _ a => [⟨s.ea env a, 4, false⟩]
  | .store32 a _ => [⟨s.ea env a, 4, true⟩]
  | .addLoad32 _ a => [⟨s.ea env a, 4, false⟩]
  | .vload _ w _ a => [⟨s.ea env a, 4 * w.lanes, false⟩]
  | .vstore _ w a _ => [⟨s.ea env a, 4 * w.lanes, true⟩]
  | .vopLoad _ w _ _ a => [⟨s.ea env a, 4 * w.lanes, false⟩]
  | .vinserti128 _ _ a _ => [⟨s.ea env a, 16, false⟩]
  | .movLoadX _ _ a => [⟨s.ea env a, 16, false⟩]
  | .movStoreX _ a _ => [⟨s.ea env a, 16, true⟩]
  | .padddLoad _ a => [⟨s.ea env a, 16, false⟩]
  | _ => []

/-- The accesses of a piece of straight-line code. -/
def accesses (env : Env) : List Instr → State → List Access
  | [], _ => []
  | i :: is, s => i.access env s ++ accesses env is (step env s i)

/-- The access of a jump: `call` stores the return address, `ret` loads it. -/
def Term.access (s : State) : Term → List Access
  | .call _ _ => [⟨s.r .rsp - 8, 8, true⟩]
  | .ret => [⟨s.r .rsp, 8, false⟩]
  | _ => []

/-- What is seen of the execution of one piece of code: which piece, hence which instructions, and the accesses. -/
structure Seen where
  label : Label
  accesses : List Access
  deriving DecidableEq, Repr

/-- What is seen of the execution of one piece of code from a state. -/
def seen (env : Env) (code : Label → Block) (l : Label) (s : State) : Seen :=
  ⟨l, X86.accesses env (code l).body s ++ (code l).term.access (exec env (code l).body s)⟩

/-- What is seen of the execution of `m` pieces. -/
def trace (env : Env) (code : Label → Block) : Nat → Conf → List Seen
  | m + 1, .run l cs s => seen env code l s :: trace env code m (advance env code (.run l cs s))
  | _, _ => []

/-- The labels of the next `m` pieces that are executed. -/
def path (env : Env) (code : Label → Block) : Nat → Conf → List Label
  | m + 1, .run l cs s => l :: path env code m (advance env code (.run l cs s))
  | _, _ => []

/-- `n` times the same labels. -/
def rep (n : Nat) (p : List Label) : List Label := (List.replicate n p).flatten

/-- A batch of four blocks: the test, the rounds 0 to 15, three times sixteen rounds, the hash value of the block, the padding
(ssz/sha256_avx.asm:468-594). -/
def fourBatch : List Label := [.fourLoop, .fourBlocks, .fourXX, .fourXX, .fourXX, .fourMid, .fourPad]
/-- One of the blocks that remain: the test and the call of `sha256_1_avx` (ssz/sha256_avx.asm:596-603). -/
def fourSingle : List Label := [.fourTail, .fourCall, .one, .fourBack]
/-- The way of `sha256_4_avx` for `n` blocks (ssz/sha256_avx.asm:462-608). -/
def fourPath (n : Nat) : List Label := .four :: (rep (n / 4) fourBatch ++ (.fourLoop :: (rep (n % 4) fourSingle ++ [.fourTail, .fourDone])))

/-- A batch of eight blocks (ssz/sha256_avx2.asm:630-780). -/
def eightBatch : List Label := [.eightLoop, .eightBlocks, .eightXX, .eightXX, .eightXX, .eightMid, .eightPad]
/-- The way of `sha256_8_avx2` for `n` blocks: `sha256_4_avx` is called for what remains, even if that is nothing
(ssz/sha256_avx2.asm:618-793). -/
def eightPath (n : Nat) : List Label := .eight :: (rep (n / 8) eightBatch ++ (.eightLoop :: .eightTail :: (fourPath (n % 8) ++ [.eightBack])))

/-- The way of `sha256_shani` for `n` blocks (ssz/sha256_shani.asm:127-135,640-650,961). -/
def shaniPath (n : Nat) : List Label :=
  .shani :: (rep (n / 2) [.shaniLoop, .shaniTwo] ++ (.shaniLoop :: .shaniTail :: (rep (n % 2) [.shaniOne] ++ [.shaniDone])))

/-- The two states have the same contents at the addresses of an access. -/
def Access.Same (env : Env) (a : Access) (s s' : State) : Prop :=
  ∀ r o, env.resolve a.addr a.bytes = some (r, o) → ∀ j, o ≤ j → j < o + a.bytes → s.mem r j = s'.mem r j

/-- The byte at offset `j` of region `r` is among those of an access. -/
def Access.Covers (env : Env) (a : Access) (r : Region) (j : Nat) : Prop :=
  ∃ o, env.resolve a.addr a.bytes = some (r, o) ∧ o ≤ j ∧ j < o + a.bytes

end Mammon.X86
