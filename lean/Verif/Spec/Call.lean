import Verif.Spec.Memory
import Verif.Spec.SHA256
import Verif.Model.Sha256Code
/-!
# What a call of a SHA-256 routine must establish, and what it must deliver

The System V calling convention: arguments in `rdi`, `rsi`, `rdx`; the return address on top of the stack, which is 8 below a multiple of 16;
`rbx`, `rbp`, `r12` to `r15` are the caller's.
-/

namespace Mammon.X86

/-- The bytes at the offsets `o .. o + n - 1`. -/
def bytesAt (m : Nat → Byte) (o n : Nat) : List Byte := (List.range n).map fun i => m (o + i)

/-- The data sections have been loaded at 64-byte boundaries. (The scratch memory of `sha256_shani` may be missing if it is not to be written.) -/
structure Loaded (env : Env) (mem : Mem) : Prop where
  align : ∀ r ∈ [Region.one, .four, .eight, .shaniRo, .shaniRw], env.base r % 64 = 0
  size : ∀ r ∈ [Region.one, .four, .eight, .shaniRo], 4 * (sectionData r).length ≤ env.size r
  sizeRw : env.writable .shaniRw = true → 64 ≤ env.size .shaniRw
  data : ∀ r ∈ [Region.one, .four, .eight, .shaniRo], ∀ i, i < (sectionData r).length → readWord (mem r) (4 * i) = (sectionData r).getD i 0

/-- The registers a called function must preserve, except `rsp`. -/
def calleeSaved : List R := [.rbx, .rbp, .r12, .r13, .r14, .r15]

/-- The state when a routine that uses at most `depth` bytes of stack is entered: the return address `ret` is at offset `t` of the stack, the
routine is asked to hash `n` blocks of 64 bytes at offset `ii` of the input to offset `oo` of the output. Nothing is said of the alignment of
the stack. -/
structure Called (env : Env) (depth t ii oo n : Nat) (ret : BitVec 64) (s : State) : Prop where
  valid : env.Valid
  loaded : Loaded env s.mem
  fault : s.fault = false
  rsp : s.r .rsp = env.ptr .stack t
  depth : depth ≤ t
  top : t + 8 ≤ env.size .stack
  ret : of64 (fun l => readWord (s.mem .stack) (t + 4 * l)) = ret
  rdi : s.r .rdi = env.ptr .output oo
  rsi : s.r .rsi = env.ptr .input ii
  input : ii + 64 * n ≤ env.size .input
  output : oo + 32 * n ≤ env.size .output

/-- The same, with the stack aligned as the calling convention demands. -/
structure Entry (env : Env) (depth t ii oo n : Nat) (ret : BitVec 64) (s : State) : Prop extends Called env depth t ii oo n ret s where
  align : (env.base .stack + t) % 16 = 8

/-- What has happened when the routine has returned to its caller: the blocks are hashed, `rsp` is above the return address, the registers of
the caller are as before, memory has changed only in the output, on the stack below the return address and in the regions `own`. -/
structure Exit (env : Env) (own : List Region) (t ii oo n : Nat) (s s' : State) : Prop where
  fault : s'.fault = false
  rsp : s'.r .rsp = env.ptr .stack (t + 8)
  saved : ∀ r ∈ calleeSaved, s'.r r = s.r r
  hash : ∀ i, i < n → bytesAt (s'.mem .output) (oo + 32 * i) 32 = Spec.SHA256.sha256 (bytesAt (s.mem .input) (ii + 64 * i) 64)
  output : ∀ p, p < oo ∨ oo + 32 * n ≤ p → s'.mem .output p = s.mem .output p
  stack : ∀ p, t ≤ p → s'.mem .stack p = s.mem .stack p
  other : ∀ r, r ≠ .output → r ≠ .stack → r ∉ own → s'.mem r = s.mem r

/-- The address a routine returns to, given the pending calls. -/
def retTo (env : Env) : List Label → BitVec 64
  | [] => env.retAddr
  | n :: _ => env.codeAddr n

/-- The configuration after the return. -/
def back (s : State) : List Label → Conf
  | [] => .done s
  | n :: cs => .run n cs s

/-- Execution from `c` arrives at `c'`. -/
def Reaches (env : Env) (code : Label → Block) (c c' : Conf) : Prop := ∃ n, steps env code n c = c'

end Mammon.X86
