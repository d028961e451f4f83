import Verif.Spec.SSZ
import Verif.Spec.Merkle
/-!
# `hash_tree_root` of the SSZ specification

`ssz/simple-serialize.md`, "Merkleization", over the values of the model.
-/

namespace Mammon.Spec

/-- "basic types": `uintN` and `boolean`. -/
def isBasic : Ty → Bool
  | .uint64 => true
  | .boolean => true
  | _ => false

/-- The type `boolean`. -/
def isBoolean : Ty → Bool
  | .boolean => true
  | _ => false

/-- Number of parts. -/
def partCount : Parts → Nat
  | .nil => 0
  | .cons _ _ ps => partCount ps + 1

/-- `chunk_count(type)`; `Bytes<N>` is `Vector[byte, N]`. -/
def chunkCount : Ty → Nat
  | .uint64 => 1
  | .boolean => 1
  | .bytes n => (n + 31) / 32
  | .bitvector n => (n + 255) / 256
  | .bitlist n => (n + 255) / 256
  | .vector t n => if isBasic t then (n * fixedSize t + 31) / 32 else n
  | .listF t n => if isBasic t then (n * fixedSize t + 31) / 32 else n
  | .listV t n => if isBasic t then (n * fixedSize t + 31) / 32 else n
  | .container _ _ ps => partCount ps

/-- `pack_bits`: the bits of a bit list in bytes, without the delimiter, in chunks. -/
def bitlistBytes (bits : List Bool) : List Byte := packBits ((bits.length + 7) / 8) fun i => bits.getD i false

mutual
/-- `hash_tree_root(value)`. -/
def root (H : Chunk → Chunk → Chunk) : (t : Ty) → t.denote → Chunk
  | .uint64, v => merkleize H (pack (encode .uint64 v)) 1
  | .boolean, v => merkleize H (pack (encode .boolean v)) 1
  | .bytes n, v => merkleize H (pack v.1) (chunkCount (.bytes n))
  | .bitvector n, v => merkleize H (pack (bitvector n v.1)) (chunkCount (.bitvector n))
  | .bitlist n, v => mixInLength H (merkleize H (pack (bitlistBytes v)) (chunkCount (.bitlist n))) (v : List Bool).length
  | .vector t n, v =>
    if isBasic t then merkleize H (pack (v.1.map fun x => encode t x).flatten) (chunkCount (.vector t n))
    else merkleize H (v.1.map fun x => root H t x) (chunkCount (.vector t n))
  | .listF t n, v =>
    if isBasic t then mixInLength H (merkleize H (pack (List.map (fun x => encode t x) v).flatten) (chunkCount (.listF t n))) (v : List t.denote).length
    else mixInLength H (merkleize H (List.map (fun x => root H t x) v) (chunkCount (.listF t n))) (v : List t.denote).length
  | .listV t n, v =>
    if isBasic t then mixInLength H (merkleize H (pack (List.map (fun x => encode t x) v).flatten) (chunkCount (.listV t n))) (v : List t.denote).length
    else mixInLength H (merkleize H (List.map (fun x => root H t x) v) (chunkCount (.listV t n))) (v : List t.denote).length
  | .container s e ps, v => merkleize H (rootParts H ps v) (chunkCount (.container s e ps))

/-- The roots of the parts. -/
def rootParts (H : Chunk → Chunk → Chunk) : (ps : Parts) → ps.denote → List Chunk
  | .nil, _ => []
  | .cons _ t ps, v => root H t v.1 :: rootParts H ps v.2
end

mutual
/-- The types for which the code's `hash_tree_root` is meant to work: at most `2 ^ 42` chunks per tree, no empty vectors or containers,
no sequences of `Boolean` (which the code does not pack). -/
def hashable : Ty → Bool
  | .uint64 => true
  | .boolean => true
  | .bytes n => decide (chunkCount (.bytes n) ≤ 2 ^ 42)
  | .bitvector n => decide (chunkCount (.bitvector n) ≤ 2 ^ 42)
  | .bitlist n => decide (chunkCount (.bitlist n) ≤ 2 ^ 42)
  | .vector t n => hashable t && !isBoolean t && decide (0 < n) && decide (chunkCount (.vector t n) ≤ 2 ^ 42)
  | .listF t n => hashable t && !isBoolean t && decide (chunkCount (.listF t n) ≤ 2 ^ 42)
  | .listV t n => hashable t && !isBasic t && decide (chunkCount (.listV t n) ≤ 2 ^ 42)
  | .container s e ps => hashableParts ps && decide (0 < partCount ps) && decide (chunkCount (.container s e ps) ≤ 2 ^ 42)

/-- `hashable` for all parts. -/
def hashableParts : Parts → Bool
  | .nil => true
  | .cons _ t ps => hashable t && hashableParts ps
end

end Mammon.Spec
