import Verif.Model.HashTreeRoot
/-!
# The calls of the hasher and the node buffers that `hash_tree()` asks for

`hash_tree()` once more, with a record of the calls of `hash_64b_blocks` (ssz/hasher.hpp:57-59) and of the sizes of the node buffers
(ssz/hashtree.cpp:119). `Proofs/HashCalls.lean` shows that without the record it is `hashTree` of `Model/HashTreeRoot.lean`.
-/

namespace Mammon

/-- What is recorded: `hash_tree_.resize(nodes)` (ssz/hashtree.cpp:119) and `hash_64b_blocks(_, _, blocks)` (ssz/hashtree.cpp:38,81,86). -/
inductive HashEvent
  | alloc (nodes : Nat)
  | call (blocks : Nat)
  deriving DecidableEq, Repr

/-- The events of a computation in order, and its outcome (for the statements of ssz/hashtree.cpp:77-129). -/
structure Hashing (α : Type) where
  events : List HashEvent
  out : Out α

namespace Hashing

/-- Only an outcome, no event (as ssz/hashtree.cpp:78-80). -/
def of {α : Type} (x : Out α) : Hashing α := ⟨[], x⟩

/-- One event, then an outcome (ssz/hashtree.cpp:38,81,86,119). -/
def event {α : Type} (e : HashEvent) (x : Out α) : Hashing α := ⟨[e], x⟩

/-- One statement after the other: the second is executed only if the first one ends normally (as in ssz/hashtree.cpp:77-129). -/
def bind {α β : Type} (x : Hashing α) (f : α → Hashing β) : Hashing β :=
  match x.out with
  | .ok a => ⟨x.events ++ (f a).events, (f a).out⟩
  | .throws e => ⟨x.events, .throws e⟩
  | .ub => ⟨x.events, .ub⟩

end Hashing

open Hashing

/-- `merkleLoop` (ssz/hashtree.cpp:85-93): a call for the pairs of the layer, and one for its last node if there is an odd one. -/
def merkleLoopE (H : Chunk → Chunk → Chunk) (buf : List Chunk) (first last height : Nat) : Hashing (List Chunk × Nat × Nat) :=
  let dist := last - first
  if 1 < dist then
    (event (.call (dist / 2)) (hashBlocksInPlace H (dist / 2) last first buf)).bind fun buf =>
    let first' := last
    let last' := last + (dist + 1) / 2
    (if dist % 2 = 1 then
      (of (zeroHashAt H height)).bind fun z => (of (getAt buf (first' - 1))).bind fun c => event (.call 1) (setAt buf (last' - 1) (H c z))
    else of (.ok buf)).bind fun buf => merkleLoopE H buf first' last' (height + 1)
  else of (.ok (buf, last, height))
termination_by last - first
decreasing_by simp only [dist] at *; omega

/-- `extendLoop` (ssz/hashtree.cpp:94-98): a call per level. -/
def extendLoopE (H : Chunk → Chunk → Chunk) (depth : Nat) (buf : List Chunk) (last height : Nat) : Hashing (List Chunk × Nat) :=
  if height < depth then
    (of (zeroHashAt H height)).bind fun z => (of (getAt buf (last - 1))).bind fun c => (event (.call 1) (setAt buf last (H c z))).bind fun buf =>
    extendLoopE H depth buf (last + 1) (height + 1)
  else of (.ok (buf, last))
termination_by depth - height

/-- `merkleize` (ssz/hashtree.cpp:77-100). -/
def merkleizeE (H : Chunk → Chunk → Chunk) (vec buf : List Chunk) (limit : BitVec 64) : Hashing (List Chunk) :=
  let depth := log2ceil 64 limit
  let last := (vec.length + 1) / 2
  (if 1 < vec.length then event (.call (vec.length / 2)) (hashBlocks H vec (vec.length / 2) 0 0 buf) else of (.ok buf)).bind fun buf =>
  (if vec.length % 2 = 1 then (of (getAt vec (vec.length - 1))).bind fun c => event (.call 1) (setAt buf (last - 1) (H c zeroHash))
    else of (.ok buf)).bind fun buf =>
  (merkleLoopE H buf 0 last 1).bind fun r =>
  (extendLoopE H depth r.1 r.2.1 r.2.2).bind fun r =>
  of (.ok (r.1.take r.2 ++ List.replicate (r.2 - r.1.length) zeroHash))

/-- `HashTree::HashTree(chunks, limit)` (ssz/hashtree.cpp:108-124). -/
def hashTreeOfChunksE (H : Chunk → Chunk → Chunk) (chunks : List Chunk) (limit : BitVec 64) : Hashing (List Chunk) :=
  if limit ≤ 1#64 ∧ chunks.length = 1 then of (.ok chunks)
  else if chunks = [] then of (.throws .outOfRange)
  else
    let effectiveDepth := log2ceil 64 (BitVec.ofNat 64 chunks.length)
    let depth := if limit = 0#64 then effectiveDepth else log2ceil 64 limit
    (of (bitCeil chunks.length)).bind fun bc =>
    (event (.alloc (max (cacheSize depth effectiveDepth bc) 1)) (.ok (List.replicate (max (cacheSize depth effectiveDepth bc) 1) zeroHash))).bind fun buf =>
    merkleizeE H chunks buf (if limit = 0#64 then BitVec.ofNat 64 bc else limit)

/-- `HashTree::HashTree(vec, limit)` from bytes (ssz/hashtree.cpp:131). -/
def hashTreeOfBytesE (H : Chunk → Chunk → Chunk) (bs : List Byte) (limit : BitVec 64) : Hashing (List Chunk) :=
  hashTreeOfChunksE H (packAndPad bs) limit

/-- `HashTree::mix_in` (ssz/hashtree.cpp:126-129). -/
def mixInE (H : Chunk → Chunk → Chunk) (tree : List Chunk) (length : Nat) : Hashing (List Chunk) :=
  (of (treeRoot tree)).bind fun r => event (.call 1) (.ok (tree ++ [H r (lengthChunk length)]))

/-- The loops collecting the roots of parts (common/containers.hpp:51,113,177-178). -/
def rootsLoopE {α : Type} (f : α → Hashing (List Chunk)) : List α → Hashing (List Chunk)
  | [] => of (.ok [])
  | x :: xs => (f x).bind fun tree => (of (treeRoot tree)).bind fun r => (rootsLoopE f xs).bind fun rs => of (.ok (r :: rs))

/-- `Bitlist::hash_tree` (common/bitlist.cpp:35-43). -/
def bitlistHashTreeE (H : Chunk → Chunk → Chunk) (limit : Nat) (bits : List Bool) : Hashing (List Chunk) :=
  if 2 ^ 31 ≤ bits.length then of .ub
  else
    let ret := orBitsFrom (List.replicate ((bits.length + BITS_PER_BYTE - 1) / BITS_PER_BYTE) 0#8) 0 bits
    let limit := (BitVec.ofNat 64 limit + 256#64 - 1#64) / 256#64
    (hashTreeOfBytesE H ret limit).bind fun ht => mixInE H ht bits.length

/-- `listTree` (common/containers.hpp:114-120,179-185). -/
def listTreeE (H : Chunk → Chunk → Chunk) (limit : Nat) (chunks : List Chunk) (size : Nat) : Hashing (List Chunk) :=
  (hashTreeOfChunksE H (orZeroChunk chunks) (BitVec.ofNat 64 limit)).bind fun ht => mixInE H ht size

mutual
/-- `hash_tree()` of each class, as `hashTree` (common/slot.hpp:48-53, ssz/ssz_container.cpp:108-125, common/bitlist.cpp:35-43,
common/containers.hpp:46-59,103-122,174-186). -/
def hashTreeE (H : Chunk → Chunk → Chunk) : (t : Ty) → t.denote → Hashing (List Chunk)
  | .uint64, v => of (.ok [slotChunk v])
  | .boolean, v => (of (serialize .boolean v)).bind fun bs => hashTreeOfBytesE H bs 0#64
  | .bytes n, v => (of (serialize (.bytes n) v)).bind fun bs => hashTreeOfBytesE H bs 0#64
  | .bitvector n, v => (of (serialize (.bitvector n) v)).bind fun bs => hashTreeOfBytesE H bs 0#64
  | .bitlist limit, v => bitlistHashTreeE H limit v
  | .vector t n, v =>
    if isBasicObject t then (of (serialize (.vector t n) v)).bind fun bs => hashTreeOfBytesE H bs 0#64
    else (rootsLoopE (fun x => hashTreeE H t x) v.1).bind fun chunks =>
      if n = 1 then of (.ok chunks) else hashTreeOfChunksE H chunks 0#64
  | .listF t limit, v =>
    if isBasicObject t then (of (serialize (.listF t limit) v)).bind fun ser =>
      let limit := (BitVec.ofNat 64 limit * BitVec.ofNat 64 t.sszSize + 32#64 - 1#64) / 32#64
      (hashTreeOfBytesE H ser limit).bind fun ht => mixInE H ht (v : List t.denote).length
    else (rootsLoopE (fun x => hashTreeE H t x) v).bind fun chunks => listTreeE H limit chunks (v : List t.denote).length
  | .listV t limit, v =>
    (rootsLoopE (fun x => hashTreeE H t x) v).bind fun chunks => listTreeE H limit chunks (v : List t.denote).length
  | .container _ _ ps, v =>
    match ps with
    | .nil => of (.ok [])
    | .cons name t ps => (hashTreePartsE H (.cons name t ps) v).bind fun chunks => hashTreeOfChunksE H chunks 0#64

/-- The transform in `Container::hash_tree_` (ssz/ssz_container.cpp:119-121). -/
def hashTreePartsE (H : Chunk → Chunk → Chunk) : (ps : Parts) → ps.denote → Hashing (List Chunk)
  | .nil, _ => of (.ok [])
  | .cons _ t ps, v =>
    (hashTreeE H t v.1).bind fun tree => (of (treeRoot tree)).bind fun r => (hashTreePartsE H ps v.2).bind fun rs => of (.ok (r :: rs))
end

end Mammon
