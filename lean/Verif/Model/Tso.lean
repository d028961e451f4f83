import Verif.Model.Threads
import Verif.Spec.Trace
/-!
# Several threads with store buffers

The memory of an x86-64 processor (Intel manual, volume 3, 9.2; Owens, Sarkar, Sewell, "A better x86 memory model: x86-TSO"): what a thread stores to
shared memory first enters a queue of its own, from which it later reaches memory, oldest first; a thread reads the newest entry of its own queue
and memory otherwise. The routines contain no fences and no locked instructions (ssz/sha256_avx_one_block.asm, ssz/sha256_avx.asm,
ssz/sha256_avx2.asm, ssz/sha256_shani.asm), so the queues are never forced to be emptied. Stores of 16 and 32 bytes are not atomic: they enter the
queue byte by byte. The regions that are not shared (Model/Threads) are accessed by their thread only and need no queue.
-/

namespace Mammon.X86

/-- A byte on its way to shared memory (ssz/hasher.hpp:57-59 called by several threads). -/
structure Pending where
  region : Region
  offset : Nat
  value : Byte

/-- Memory after the bytes of a queue, oldest first, have arrived (ssz/hasher.hpp:57-59 called by several threads). -/
def overlay : List Pending → Mem → Mem
  | [], m => m
  | e :: es, m => overlay es (upd m e.region (upd (m e.region) e.offset e.value))

/-- The bytes of an access that go to shared memory; `m` is memory after the store (ssz/hasher.hpp:57-59 called by several threads). -/
def Access.pending (env : Env) (m : Mem) (a : Access) : List Pending :=
  if a.write then
    match env.resolve a.addr a.bytes with
    | some (r, o) => if r.shared then (List.range a.bytes).map fun j => ⟨r, o + j, m r (o + j)⟩ else []
    | none => []
  else []

/-- What the next instruction of a thread accesses (ssz/hasher.hpp:57-59 called by several threads). -/
def Pos.access (env : Env) : Pos → List Access
  | .at (i :: _) _ _ s => i.access env s
  | .at [] tm _ s => tm.access s
  | _ => []

/-- What a thread that goes from `p` to `q` by one instruction adds to its queue (ssz/hasher.hpp:57-59 called by several threads). -/
def Pos.pending (env : Env) (p q : Pos) : List Pending :=
  match q with
  | .at _ _ _ s => (p.access env).flatMap (·.pending env s.mem)
  | .done s => (p.access env).flatMap (·.pending env s.mem)
  | .fail => []

/-- A process: threads, their queues and the shared memory (ssz/hasher.hpp:57-59 called by several threads). -/
structure TsoProcess (ι : Type) where
  pos : ι → Pos
  queue : ι → List Pending
  shared : Mem

/-- What can happen: a thread executes an instruction, or the oldest byte of its queue reaches memory (ssz/hasher.hpp:57-59 called by several
threads). -/
inductive Event (ι : Type)
  | exec (i : ι)
  | arrive (i : ι)

/-- One event (ssz/hasher.hpp:57-59 called by several threads). -/
def TsoProcess.tick {ι : Type} [DecidableEq ι] (env : ι → Env) (code : Label → Block) : Event ι → TsoProcess ι → TsoProcess ι
  | .exec i, p =>
    let before := (p.pos i).see (overlay (p.queue i) p.shared)
    let after := X86.tick (env i) code before
    { pos := upd p.pos i after, queue := upd p.queue i (p.queue i ++ before.pending (env i) after), shared := p.shared }
  | .arrive i, p =>
    match p.queue i with
    | [] => p
    | e :: es => { p with queue := upd p.queue i es, shared := overlay [e] p.shared }

/-- The events happen in the given order (ssz/hasher.hpp:57-59 called by several threads). -/
def TsoProcess.run {ι : Type} [DecidableEq ι] (env : ι → Env) (code : Label → Block) : List (Event ι) → TsoProcess ι → TsoProcess ι
  | [], p => p
  | e :: es, p => TsoProcess.run env code es (p.tick env code e)

/-- How many instructions thread `i` executes (ssz/hasher.hpp:57-59 called by several threads). -/
def executed {ι : Type} [DecidableEq ι] (i : ι) : List (Event ι) → Nat
  | [] => 0
  | .exec j :: es => (if j = i then 1 else 0) + executed i es
  | .arrive _ :: es => executed i es

end Mammon.X86
