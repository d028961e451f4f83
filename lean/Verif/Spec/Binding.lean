import Verif.Spec.HashTreeRoot
/-!
# The inputs of the hash function in a root computation
-/

namespace Mammon.Spec

/-- `(a, b)` is hashed while computing `perfect H d leaf`. -/
def perfectHashes (H : Chunk → Chunk → Chunk) : (d : Nat) → (leaf : Nat → Chunk) → Chunk → Chunk → Prop
  | 0, _, _, _ => False
  | d + 1, leaf, a, b =>
    (a = perfect H d leaf ∧ b = perfect H d fun i => leaf (2 ^ d + i)) ∨
    perfectHashes H d leaf a b ∨ perfectHashes H d (fun i => leaf (2 ^ d + i)) a b

/-- `(a, b)` is hashed while computing `merkleize H chunks limit`. -/
def merkleHashes (H : Chunk → Chunk → Chunk) (chunks : List Chunk) (limit : Nat) : Chunk → Chunk → Prop :=
  perfectHashes H (depthFor limit) (padded chunks)

/-- `(a, b)` is hashed while computing `mixInLength H root n`. -/
def mixHashes (root : Chunk) (n : Nat) (a b : Chunk) : Prop :=
  a = root ∧ b = ⟨(List.range 32).map fun i => BitVec.ofNat 8 (n / 256 ^ i), by simp⟩

mutual
/-- `(a, b)` is hashed while computing `root H t v`. -/
def rootHashes (H : Chunk → Chunk → Chunk) : (t : Ty) → t.denote → Chunk → Chunk → Prop
  | .uint64, v, a, b => merkleHashes H (pack (encode .uint64 v)) 1 a b
  | .boolean, v, a, b => merkleHashes H (pack (encode .boolean v)) 1 a b
  | .bytes n, v, a, b => merkleHashes H (pack v.1) (chunkCount (.bytes n)) a b
  | .bitvector n, v, a, b => merkleHashes H (pack (bitvector n v.1)) (chunkCount (.bitvector n)) a b
  | .bitlist n, v, a, b =>
    mixHashes (merkleize H (pack (bitlistBytes v)) (chunkCount (.bitlist n))) (v : List Bool).length a b ∨
    merkleHashes H (pack (bitlistBytes v)) (chunkCount (.bitlist n)) a b
  | .vector t n, v, a, b =>
    if isBasic t then merkleHashes H (pack (v.1.map fun x => encode t x).flatten) (chunkCount (.vector t n)) a b
    else merkleHashes H (v.1.map fun x => root H t x) (chunkCount (.vector t n)) a b ∨ ∃ x ∈ v.1, rootHashes H t x a b
  | .listF t n, v, a, b =>
    if isBasic t then
      mixHashes (merkleize H (pack (List.map (fun x => encode t x) v).flatten) (chunkCount (.listF t n))) (v : List t.denote).length a b ∨
      merkleHashes H (pack (List.map (fun x => encode t x) v).flatten) (chunkCount (.listF t n)) a b
    else
      mixHashes (merkleize H (List.map (fun x => root H t x) v) (chunkCount (.listF t n))) (v : List t.denote).length a b ∨
      merkleHashes H (List.map (fun x => root H t x) v) (chunkCount (.listF t n)) a b ∨ ∃ x ∈ (v : List t.denote), rootHashes H t x a b
  | .listV t n, v, a, b =>
    if isBasic t then
      mixHashes (merkleize H (pack (List.map (fun x => encode t x) v).flatten) (chunkCount (.listV t n))) (v : List t.denote).length a b ∨
      merkleHashes H (pack (List.map (fun x => encode t x) v).flatten) (chunkCount (.listV t n)) a b
    else
      mixHashes (merkleize H (List.map (fun x => root H t x) v) (chunkCount (.listV t n))) (v : List t.denote).length a b ∨
      merkleHashes H (List.map (fun x => root H t x) v) (chunkCount (.listV t n)) a b ∨ ∃ x ∈ (v : List t.denote), rootHashes H t x a b
  | .container s e ps, v, a, b => merkleHashes H (rootParts H ps v) (chunkCount (.container s e ps)) a b ∨ rootHashesParts H ps v a b

/-- `(a, b)` is hashed while computing the root of some part. -/
def rootHashesParts (H : Chunk → Chunk → Chunk) : (ps : Parts) → ps.denote → Chunk → Chunk → Prop
  | .nil, _, _, _ => False
  | .cons _ t ps, v, a, b => rootHashes H t v.1 a b ∨ rootHashesParts H ps v.2 a b
end

/-- Two different inputs, one hashed by each of two computations, with the same hash. -/
def Collision (H : Chunk → Chunk → Chunk) (P Q : Chunk → Chunk → Prop) : Prop :=
  ∃ a b c d, P a b ∧ Q c d ∧ (a, b) ≠ (c, d) ∧ H a b = H c d

end Mammon.Spec
