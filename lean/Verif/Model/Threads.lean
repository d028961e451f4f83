import Verif.Model.Hasher
/-!
# Several threads in the SHA-256 routines

Threads have their own registers, stacks, inputs and outputs and share the data sections of the assembly files, among them the scratch
memory of `sha256_shani` (`ABEF_SAVEa` to `CDGH_SAVEb`, ssz/sha256_shani.asm:1017-1024), which exists once for the whole process. One
instruction of one thread is executed at a time, and its effect on memory is visible to the other threads at once (sequential
consistency). The weaker ordering of real processors is in Model/Tso.
-/

namespace Mammon.X86

/-- The regions all threads share (the `.data` sections: ssz/sha256_shani.asm:1017, ssz/sha256_avx.asm:309, ssz/sha256_avx2.asm:70). -/
def Region.shared : Region → Bool
  | .input => false
  | .output => false
  | .stack => false
  | _ => true

/-- A thread between two instructions: the instructions left in the current piece of code, how it ends, the pending calls and the state; or
finished; or failed (ssz/hasher.hpp:57-59 called by several threads). -/
inductive Pos
  | at (todo : List Instr) (term : Term) (callers : List Label) (s : State)
  | done (s : State)
  | fail

/-- The thread at the beginning of a piece of code (ssz/hasher.hpp:57-59 called by several threads). -/
def Pos.ofConf (code : Label → Block) : Conf → Pos
  | .run l cs s => .at (code l).body (code l).term cs s
  | .done s => .done s
  | .fail => .fail

/-- One instruction of a thread (ssz/hasher.hpp:57-59 called by several threads). -/
def tick (env : Env) (code : Label → Block) : Pos → Pos
  | .at (i :: is) tm cs s => if (step env s i).fault then .fail else .at is tm cs (step env s i)
  | .at [] tm cs s => Pos.ofConf code (finish env cs s tm)
  | p => p

/-- `n` instructions of a thread (ssz/hasher.hpp:57-59 called by several threads). -/
def ticks (env : Env) (code : Label → Block) : Nat → Pos → Pos
  | 0, p => p
  | n + 1, p => ticks env code n (tick env code p)

/-- The memory a thread sees: its own regions and the shared ones (ssz/hasher.hpp:57-59 called by several threads). -/
def merge (own shared : Mem) : Mem := fun r => if r.shared then shared r else own r

/-- A thread takes notice of the current contents of the shared regions (ssz/hasher.hpp:57-59 called by several threads). -/
def Pos.see (shared : Mem) : Pos → Pos
  | .at is tm cs s => .at is tm cs { s with mem := merge s.mem shared }
  | .done s => .done { s with mem := merge s.mem shared }
  | .fail => .fail

/-- The contents of the shared regions after a step that led to the given position (unchanged if the thread has failed) (ssz/hasher.hpp:57-59 called
by several threads). -/
def Pos.leave (shared : Mem) : Pos → Mem
  | .at _ _ _ s => merge shared s.mem
  | .done s => merge shared s.mem
  | .fail => shared

/-- A process: threads, named by `ι`, and the shared memory (ssz/hasher.hpp:57-59 called by several threads). -/
structure Process (ι : Type) where
  pos : ι → Pos
  shared : Mem

/-- Thread `i` executes one instruction (ssz/hasher.hpp:57-59 called by several threads). -/
def Process.tick {ι : Type} [DecidableEq ι] (env : ι → Env) (code : Label → Block) (i : ι) (p : Process ι) : Process ι :=
  let q := X86.tick (env i) code ((p.pos i).see p.shared)
  { pos := upd p.pos i q, shared := q.leave p.shared }

/-- The threads execute instructions in the given order (ssz/hasher.hpp:57-59 called by several threads). -/
def Process.run {ι : Type} [DecidableEq ι] (env : ι → Env) (code : Label → Block) : List ι → Process ι → Process ι
  | [], p => p
  | i :: is, p => Process.run env code is (p.tick env code i)

end Mammon.X86
