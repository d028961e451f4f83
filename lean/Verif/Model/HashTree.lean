import Verif.Model.Math
import Verif.Model.BytesOps
/-!
# `ssz/hashtree.cpp`

Everything is parametric in `H`, the function a `Hasher` computes on one 64-byte block given as two chunks: `hash_64b_blocks(out, in, k)` stores
`H` of the `i`-th 64-byte block of the input in the `i`-th chunk of the output (the assembly routines are modelled separately). A vector
of chunks is contiguous memory; all accesses are checked against its size.
-/

namespace Mammon

/-- `zero_hash` (ssz/hashtree.cpp:43). -/
def zeroHash : Chunk := ⟨List.replicate 32 0#8, List.length_replicate⟩

/-- `ZERO_HASH_DEPTH` (ssz/hashtree.cpp:42). -/
abbrev ZERO_HASH_DEPTH : Nat := 42

/-- The loop of `zero_hash_array_helper` (ssz/hashtree.cpp:50): `k` entries beginning with `c`, each the hash of twice its predecessor. -/
def zeroHashesFrom (H : Chunk → Chunk → Chunk) (c : Chunk) : Nat → List Chunk
  | 0 => []
  | k + 1 => c :: zeroHashesFrom H (H c c) k

/-- `zero_hash_array` (ssz/hashtree.cpp:45-55). Its initialisation before first use is not modelled. -/
def zeroHashArray (H : Chunk → Chunk → Chunk) : List Chunk := zeroHashesFrom H zeroHash ZERO_HASH_DEPTH

/-- `zero_hash_array[height]`: indexing outside the array is undefined (ssz/hashtree.cpp:55,90,95). -/
def zeroHashAt (H : Chunk → Chunk → Chunk) (height : Nat) : Out Chunk :=
  match (zeroHashArray H)[height]? with
  | some c => .ok c
  | none => .ub

/-- `std::array` of the (at most 32) bytes from index `i` on, padded with zeros: one round of the loop of `pack_and_pad`
(ssz/hashtree.cpp:69-70): `Chunk chunk{}` and the copy of `[it, min(it + 32, end))` to its beginning. -/
def packChunk (bs : List Byte) : Chunk :=
  ⟨bs.take BYTES_PER_CHUNK ++ List.replicate (BYTES_PER_CHUNK - (bs.take BYTES_PER_CHUNK).length) 0#8, by
    simp only [List.length_append, List.length_replicate, List.length_take, BYTES_PER_CHUNK]; omega⟩

/-- The loop of `pack_and_pad` (ssz/hashtree.cpp:68-72); `bs` is the range from `it` to the end. In the last round the code forms the iterator
`it + 32`, possibly beyond the end (and compares it); that is tolerated here as it is by gcc on x86-64. -/
def packLoop (bs : List Byte) : List Chunk :=
  if bs = [] then [] else packChunk bs :: packLoop (bs.drop BYTES_PER_CHUNK)
termination_by bs.length
decreasing_by
  rename_i h
  have := List.length_pos_iff.2 h
  simp only [List.length_drop, BYTES_PER_CHUNK]
  omega

/-- `pack_and_pad` (ssz/hashtree.cpp:62-75). -/
def packAndPad (bs : List Byte) : List Chunk := if bs = [] then [zeroHash] else packLoop bs

/-- `hasher.hash_64b_blocks(&dst[di], &src[si], k)` for distinct buffers `dst` and `src` (ssz/hashtree.cpp:81): reading or writing outside the
buffers is undefined. -/
def hashBlocks (H : Chunk → Chunk → Chunk) (src : List Chunk) : (k di si : Nat) → (dst : List Chunk) → Out (List Chunk)
  | 0, _, _, dst => .ok dst
  | k + 1, di, si, dst =>
    match src[si]?, src[si + 1]? with
    | some a, some b => if di < dst.length then hashBlocks H src k (di + 1) (si + 2) (dst.set di (H a b)) else .ub
    | _, _ => .ub

/-- `hasher.hash_64b_blocks(&buf[di], &buf[si], k)` within one buffer (ssz/hashtree.cpp:86). Overlap of input and output is outside the contract
of the routines: undefined. -/
def hashBlocksInPlace (H : Chunk → Chunk → Chunk) (k di si : Nat) (buf : List Chunk) : Out (List Chunk) :=
  if si + 2 * k ≤ di ∨ di + k ≤ si then hashBlocks H buf k di si buf else .ub

/-- `buf[i] = c`, checked (ssz/hashtree.cpp:82,86,90,95). -/
def setAt (buf : List Chunk) (i : Nat) (c : Chunk) : Out (List Chunk) := if i < buf.length then .ok (buf.set i c) else .ub

/-- `buf[i]`, checked (ssz/hashtree.cpp:82,86,90,95). -/
def getAt (buf : List Chunk) (i : Nat) : Out Chunk :=
  match buf[i]? with
  | some c => .ok c
  | none => .ub

/-- The first loop of `merkleize` (ssz/hashtree.cpp:85-93). `first` and `last` are the distances of the iterators from `hash_tree.begin()`;
`dist` is `last - first` throughout. Result: the buffer, `last` and `height`. -/
def merkleLoop (H : Chunk → Chunk → Chunk) (buf : List Chunk) (first last height : Nat) : Out (List Chunk × Nat × Nat) :=
  let dist := last - first
  if 1 < dist then
    (hashBlocksInPlace H (dist / 2) last first buf).bind fun buf =>
    let first' := last
    let last' := last + (dist + 1) / 2
    (if dist % 2 = 1 then
      (zeroHashAt H height).bind fun z => (getAt buf (first' - 1)).bind fun c => setAt buf (last' - 1) (H c z)
    else .ok buf).bind fun buf => merkleLoop H buf first' last' (height + 1)
  else .ok (buf, last, height)
termination_by last - first
decreasing_by simp only [dist] at *; omega

/-- The second loop of `merkleize` (ssz/hashtree.cpp:94-98). `last` is positive (`std::prev(last)` is in the buffer). -/
def extendLoop (H : Chunk → Chunk → Chunk) (depth : Nat) (buf : List Chunk) (last height : Nat) : Out (List Chunk × Nat) :=
  if height < depth then
    (zeroHashAt H height).bind fun z => (getAt buf (last - 1)).bind fun c => (setAt buf last (H c z)).bind fun buf =>
    extendLoop H depth buf (last + 1) (height + 1)
  else .ok (buf, last)
termination_by depth - height

/-- `merkleize` (ssz/hashtree.cpp:77-100): the contents of `hash_tree` afterwards. For an empty `vec` (excluded by the only caller)
`std::prev(last)` etc. would be out of range. -/
def merkleize (H : Chunk → Chunk → Chunk) (vec buf : List Chunk) (limit : BitVec 64) : Out (List Chunk) :=
  let depth := log2ceil 64 limit
  let last := (vec.length + 1) / 2
  (if 1 < vec.length then hashBlocks H vec (vec.length / 2) 0 0 buf else .ok buf).bind fun buf =>
  (if vec.length % 2 = 1 then (getAt vec (vec.length - 1)).bind fun c => setAt buf (last - 1) (H c zeroHash) else .ok buf).bind fun buf =>
  (merkleLoop H buf 0 last 1).bind fun (buf, last, height) =>
  (extendLoop H depth buf last height).bind fun (buf, last) =>
  .ok (buf.take last ++ List.replicate (last - buf.length) zeroHash)

/-- `std::bit_ceil` on `std::size_t` (std; used in ssz/hashtree.cpp:116,121): the least power of two not below `n`, found by doubling from `p`;
undefined if it is not representable. -/
def bitCeilFrom (n : Nat) : (fuel p : Nat) → Out Nat
  | 0, _ => .ub
  | fuel + 1, p => if n ≤ p then .ok p else bitCeilFrom n fuel (2 * p)

/-- `std::bit_ceil` of a 64-bit value: the candidates are `2 ^ 0` to `2 ^ 63` (ssz/hashtree.cpp:116,121). -/
def bitCeil (n : Nat) : Out Nat := bitCeilFrom n 64 1

/-- The value of `cache_size` (ssz/hashtree.cpp:116-118). `depth - effective_depth` is an `int`, converted to `std::size_t` for the addition, which
is modulo `2 ^ 64`. -/
def cacheSize (depth effectiveDepth bitCeil : Nat) : Nat :=
  let c := (((depth : Int) - effectiveDepth + bitCeil - 1) % 2 ^ 64).toNat
  if depth > effectiveDepth then (c + 1) % 2 ^ 64 else c

/-- `HashTree::HashTree(chunks, limit)` (ssz/hashtree.cpp:108-124): the contents of `hash_tree_`. -/
def hashTreeOfChunks (H : Chunk → Chunk → Chunk) (chunks : List Chunk) (limit : BitVec 64) : Out (List Chunk) :=
  if limit ≤ 1#64 ∧ chunks.length = 1 then .ok chunks
  else if chunks = [] then .throws .outOfRange
  else
    let effectiveDepth := log2ceil 64 (BitVec.ofNat 64 chunks.length)
    let depth := if limit = 0#64 then effectiveDepth else log2ceil 64 limit
    (bitCeil chunks.length).bind fun bc =>
    let buf := List.replicate (max (cacheSize depth effectiveDepth bc) 1) zeroHash
    let limit := if limit = 0#64 then BitVec.ofNat 64 bc else limit
    merkleize H chunks buf limit

/-- `HashTree::HashTree(vec, limit)` from bytes (ssz/hashtree.cpp:131). -/
def hashTreeOfBytes (H : Chunk → Chunk → Chunk) (bs : List Byte) (limit : BitVec 64) : Out (List Chunk) :=
  hashTreeOfChunks H (packAndPad bs) limit

/-- `hash_tree_.back()` (ssz/hashtree.hpp:44, ssz/ssz_container.hpp:57): undefined for an empty vector. -/
def treeRoot (tree : List Chunk) : Out Chunk :=
  match tree.getLast? with
  | some c => .ok c
  | none => .ub

/-- `eth::Bytes32(length).to_array()` for a `std::size_t` (common/bytes.hpp:45-53,73-74; ssz/hashtree.cpp:127). -/
def lengthChunk (n : Nat) : Chunk := ⟨leBytes 8 n ++ List.replicate 24 0#8, by
  have : ∀ k n, (leBytes k n).length = k := by
    intro k
    induction k with
    | zero => intro n; rfl
    | succ k ih => intro n; simp [leBytes, ih]
  simp [this]⟩

/-- `HashTree::mix_in` (ssz/hashtree.cpp:126-129): the contents of `hash_tree_` afterwards. -/
def mixIn (H : Chunk → Chunk → Chunk) (tree : List Chunk) (length : Nat) : Out (List Chunk) :=
  (treeRoot tree).map fun r => tree ++ [H r (lengthChunk length)]

end Mammon
