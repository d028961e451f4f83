import Verif.Model.Basic
/-!
# Merkle trees of the SSZ specification

`ssz/simple-serialize.md`, "Merkleization". `H` is the hash of the concatenation of two chunks.
-/

namespace Mammon.Spec

/-- 32 zero bytes. -/
def zeroChunk : Chunk := ⟨List.replicate 32 0#8, List.length_replicate⟩

/-- The root of the perfect binary tree of depth `d` over the leaves `leaf 0, ..., leaf (2 ^ d - 1)`. -/
def perfect (H : Chunk → Chunk → Chunk) : (d : Nat) → (leaf : Nat → Chunk) → Chunk
  | 0, leaf => leaf 0
  | d + 1, leaf => H (perfect H d leaf) (perfect H d fun i => leaf (2 ^ d + i))

/-- The chunks followed by zero chunks. -/
def padded (chunks : List Chunk) (i : Nat) : Chunk := chunks.getD i zeroChunk

/-- The depth of the smallest perfect tree with at least `n` leaves: the exponent of `next_pow_of_two(n)`. -/
def depthFor (n : Nat) : Nat := if n ≤ 1 then 0 else depthFor ((n + 1) / 2) + 1

/-- `merkleize(chunks, limit)` for `len(chunks) <= limit`; without a limit, `limit` is `len(chunks)`. -/
def merkleize (H : Chunk → Chunk → Chunk) (chunks : List Chunk) (limit : Nat) : Chunk := perfect H (depthFor limit) (padded chunks)

/-- The number of nodes at height `h` of a tree over `n` leaves, not counting subtrees of padding: `n / 2 ^ h` rounded up. -/
def layerSize (n h : Nat) : Nat := (n + 2 ^ h - 1) / 2 ^ h

/-- The number of nodes at heights 1 to `d`. -/
def treeSize (n d : Nat) : Nat := ((List.range d).map fun h => layerSize n (h + 1)).sum

/-- The nodes at heights 1 to `d`, bottom up and from left to right in each layer, without subtrees of padding: node `i` at height `h`
is the root of the perfect tree of depth `h` over the leaves from `i * 2 ^ h` on. -/
def layers (H : Chunk → Chunk → Chunk) (chunks : List Chunk) (d : Nat) : List Chunk :=
  (List.range d).flatMap fun h => (List.range (layerSize chunks.length (h + 1))).map fun i =>
    perfect H (h + 1) fun j => padded chunks (i * 2 ^ (h + 1) + j)

/-- `pack`: the bytes in chunks of 32, the last one padded with zeros. Chunk number `i` holds the bytes `32 * i, ..., 32 * i + 31`. -/
def pack (bs : List Byte) : List Chunk :=
  (List.range ((bs.length + 31) / 32)).map fun i => ⟨(List.range 32).map fun j => bs.getD (32 * i + j) 0#8, by simp⟩

/-- `mix_in_length`: the length as a 256-bit little-endian integer. -/
def mixInLength (H : Chunk → Chunk → Chunk) (root : Chunk) (n : Nat) : Chunk :=
  H root ⟨(List.range 32).map fun i => BitVec.ofNat 8 (n / 256 ^ i), by simp⟩

end Mammon.Spec
