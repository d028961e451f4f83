import Verif.Model.Codec
import Verif.Model.HashTree
/-!
# `hash_tree()` and `hash_tree_root()` of every class
-/

namespace Mammon

/-- The concept `BasicObject` (common/containers.hpp:37-38): of the classes in `Ty` only `Slot` satisfies it. -/
def isBasicObject : Ty → Bool
  | .uint64 => true
  | _ => false

/-- `Slot::hash_tree` (common/slot.hpp:48-53). -/
def slotChunk (v : BitVec 64) : Chunk := lengthChunk v.toNat

/-- The loops and transforms collecting `part.hash_tree_root()` of a sequence of parts (common/containers.hpp:51,113,177-178), where `f` is the
`hash_tree()` of a part and `hash_tree_root()` is its last element (ssz/ssz_container.hpp:57). -/
def rootsLoop {α : Type} (f : α → Out (List Chunk)) : List α → Out (List Chunk)
  | [] => .ok []
  | x :: xs => (f x).bind fun tree => (treeRoot tree).bind fun r => (rootsLoop f xs).map fun rs => r :: rs

/-- `if (chunks.empty()) chunks.push_back(Chunk{})` (common/containers.hpp:114-117,179-182). -/
def orZeroChunk (chunks : List Chunk) : List Chunk := if chunks = [] then [zeroHash] else chunks

/-- `Bitlist::hash_tree` (common/bitlist.cpp:35-43). The `int` loop counter overflows for `2 ^ 31` bits or more; the limit is computed in
`std::size_t`. -/
def bitlistHashTree (H : Chunk → Chunk → Chunk) (limit : Nat) (bits : List Bool) : Out (List Chunk) :=
  if 2 ^ 31 ≤ bits.length then .ub
  else
    let ret := orBitsFrom (List.replicate ((bits.length + BITS_PER_BYTE - 1) / BITS_PER_BYTE) 0#8) 0 bits
    let limit := (BitVec.ofNat 64 limit + 256#64 - 1#64) / 256#64
    (hashTreeOfBytes H ret limit).bind fun ht => mixIn H ht bits.length

/-- The part of `ListFixedSizedParts::hash_tree_x` and `ListVariableSizedParts::hash_tree` after collecting the roots of the elements
(common/containers.hpp:114-120,179-185). -/
def listTree (H : Chunk → Chunk → Chunk) (limit : Nat) (chunks : List Chunk) (size : Nat) : Out (List Chunk) :=
  (hashTreeOfChunks H (orZeroChunk chunks) (BitVec.ofNat 64 limit)).bind fun ht => mixIn H ht size

mutual
/-- `hash_tree()` of each class: common/slot.hpp:48-53; `Container::hash_tree` (ssz/ssz_container.cpp:108-111) for `Boolean`, `Bytes` and `Bitvector`;
common/bitlist.cpp:35-43; common/containers.hpp:46-59 (vectors), 103-122 and 174-186 (lists); `Container::hash_tree_` (ssz/ssz_container.cpp:113-125) for
the structs. -/
def hashTree (H : Chunk → Chunk → Chunk) : (t : Ty) → t.denote → Out (List Chunk)
  | .uint64, v => .ok [slotChunk v]
  | .boolean, v => (serialize .boolean v).bind fun bs => hashTreeOfBytes H bs 0#64
  | .bytes n, v => (serialize (.bytes n) v).bind fun bs => hashTreeOfBytes H bs 0#64
  | .bitvector n, v => (serialize (.bitvector n) v).bind fun bs => hashTreeOfBytes H bs 0#64
  | .bitlist limit, v => bitlistHashTree H limit v
  | .vector t n, v =>
    if isBasicObject t then (serialize (.vector t n) v).bind fun bs => hashTreeOfBytes H bs 0#64
    else (rootsLoop (fun x => hashTree H t x) v.1).bind fun chunks =>
      if n = 1 then .ok chunks else hashTreeOfChunks H chunks 0#64
  | .listF t limit, v =>
    if isBasicObject t then (serialize (.listF t limit) v).bind fun ser =>
      let limit := (BitVec.ofNat 64 limit * BitVec.ofNat 64 t.sszSize + 32#64 - 1#64) / 32#64
      (hashTreeOfBytes H ser limit).bind fun ht => mixIn H ht (v : List t.denote).length
    else (rootsLoop (fun x => hashTree H t x) v).bind fun chunks => listTree H limit chunks (v : List t.denote).length
  | .listV t limit, v =>
    (rootsLoop (fun x => hashTree H t x) v).bind fun chunks => listTree H limit chunks (v : List t.denote).length
  | .container _ _ ps, v =>
    match ps with
    | .nil => .ok []
    | .cons name t ps => (hashTreeParts H (.cons name t ps) v).bind fun chunks => hashTreeOfChunks H chunks 0#64

/-- The transform in `Container::hash_tree_` (ssz/ssz_container.cpp:119-121): the roots of the parts. -/
def hashTreeParts (H : Chunk → Chunk → Chunk) : (ps : Parts) → ps.denote → Out (List Chunk)
  | .nil, _ => .ok []
  | .cons _ t ps, v => (hashTree H t v.1).bind fun tree => (treeRoot tree).bind fun r => (hashTreeParts H ps v.2).map fun rs => r :: rs
end

/-- `Container::hash_tree_root` (ssz/ssz_container.hpp:57). -/
def hashTreeRoot (H : Chunk → Chunk → Chunk) (t : Ty) (v : t.denote) : Out Chunk := (hashTree H t v).bind treeRoot

end Mammon
