import Verif.Model.HashTreeRoot
/-!
# `hash_tree()` with the iterators of `pack_and_pad` checked

`pack_and_pad` (ssz/hashtree.cpp:62-75) computes `it + 32` in every round. Beyond the end of the vector that is undefined behaviour in C++, although
compilers for x86-64 give it a harmless meaning, which is the one in `Model/HashTree.lean`. Here it is undefined.
-/

namespace Mammon

/-- The loop of `pack_and_pad` (ssz/hashtree.cpp:68-72) on the range `bs` from `it` to the end: `it + 32` (70) and `it += 32` (68) must not pass the end. -/
def packStrict (bs : List Byte) : Out (List Chunk) :=
  if bs = [] then .ok []
  else if bs.length < BYTES_PER_CHUNK then .ub
  else (packStrict (bs.drop BYTES_PER_CHUNK)).map fun cs => packChunk bs :: cs
termination_by bs.length
decreasing_by
  simp only [List.length_drop, BYTES_PER_CHUNK] at *
  omega

/-- `HashTree::HashTree(vec, limit)` from bytes (ssz/hashtree.cpp:62-75,131). -/
def hashTreeOfBytesStrict (H : Chunk → Chunk → Chunk) (bs : List Byte) (limit : BitVec 64) : Out (List Chunk) :=
  (if bs = [] then .ok [zeroHash] else packStrict bs).bind fun chunks => hashTreeOfChunks H chunks limit

/-- `Bitlist::hash_tree` (common/bitlist.cpp:35-43). -/
def bitlistHashTreeStrict (H : Chunk → Chunk → Chunk) (limit : Nat) (bits : List Bool) : Out (List Chunk) :=
  if 2 ^ 31 ≤ bits.length then .ub
  else
    let ret := orBitsFrom (List.replicate ((bits.length + BITS_PER_BYTE - 1) / BITS_PER_BYTE) 0#8) 0 bits
    let limit := (BitVec.ofNat 64 limit + 256#64 - 1#64) / 256#64
    (hashTreeOfBytesStrict H ret limit).bind fun ht => mixIn H ht bits.length

mutual
/-- `hash_tree()` of each class, as `hashTree` (common/slot.hpp:48-53, ssz/ssz_container.cpp:108-125, common/bitlist.cpp:35-43,
common/containers.hpp:46-59,103-122,174-186). -/
def hashTreeStrict (H : Chunk → Chunk → Chunk) : (t : Ty) → t.denote → Out (List Chunk)
  | .uint64, v => .ok [slotChunk v]
  | .boolean, v => (serialize .boolean v).bind fun bs => hashTreeOfBytesStrict H bs 0#64
  | .bytes n, v => (serialize (.bytes n) v).bind fun bs => hashTreeOfBytesStrict H bs 0#64
  | .bitvector n, v => (serialize (.bitvector n) v).bind fun bs => hashTreeOfBytesStrict H bs 0#64
  | .bitlist limit, v => bitlistHashTreeStrict H limit v
  | .vector t n, v =>
    if isBasicObject t then (serialize (.vector t n) v).bind fun bs => hashTreeOfBytesStrict H bs 0#64
    else (rootsLoop (fun x => hashTreeStrict H t x) v.1).bind fun chunks =>
      if n = 1 then .ok chunks else hashTreeOfChunks H chunks 0#64
  | .listF t limit, v =>
    if isBasicObject t then (serialize (.listF t limit) v).bind fun ser =>
      let limit := (BitVec.ofNat 64 limit * BitVec.ofNat 64 t.sszSize + 32#64 - 1#64) / 32#64
      (hashTreeOfBytesStrict H ser limit).bind fun ht => mixIn H ht (v : List t.denote).length
    else (rootsLoop (fun x => hashTreeStrict H t x) v).bind fun chunks => listTree H limit chunks (v : List t.denote).length
  | .listV t limit, v =>
    (rootsLoop (fun x => hashTreeStrict H t x) v).bind fun chunks => listTree H limit chunks (v : List t.denote).length
  | .container _ _ ps, v =>
    match ps with
    | .nil => .ok []
    | .cons name t ps => (hashTreePartsStrict H (.cons name t ps) v).bind fun chunks => hashTreeOfChunks H chunks 0#64

/-- The transform in `Container::hash_tree_` (ssz/ssz_container.cpp:119-121). -/
def hashTreePartsStrict (H : Chunk → Chunk → Chunk) : (ps : Parts) → ps.denote → Out (List Chunk)
  | .nil, _ => .ok []
  | .cons _ t ps, v =>
    (hashTreeStrict H t v.1).bind fun tree => (treeRoot tree).bind fun r => (hashTreePartsStrict H ps v.2).map fun rs => r :: rs
end

end Mammon
