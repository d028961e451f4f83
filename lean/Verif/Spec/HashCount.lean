import Verif.Spec.HashTreeRoot
import Verif.Model.HashCalls
/-!
# How many hashes a hash tree root takes

Of an object without any sharing: one hash per node above the chunks, where subtrees of padding are not hashed.
-/

namespace Mammon.Spec

/-- The blocks of the calls that hash the layers at heights 0 to `d - 1` over `n` chunks: the pairs of a layer together, then its last node if it has
no right neighbour (paired with the root of padding). -/
def calls (n d : Nat) : List Nat :=
  (List.range d).flatMap fun h =>
    (if 2 ≤ layerSize n h then [layerSize n h / 2] else []) ++ (if layerSize n h % 2 = 1 then [1] else [])

/-- The blocks hashed in all calls. -/
def blocks (es : List HashEvent) : Nat := (es.map fun e => match e with | .call k => k | .alloc _ => 0).sum

/-- The hashes for `n` chunks, padded to `limit`. -/
def treeHashes (n limit : Nat) : Nat := treeSize n (depthFor (max n limit))

mutual
/-- The hashes for an object: a sequence of no elements takes a chunk of zeros; the length of a list takes one hash. -/
def hashCount : (t : Ty) → t.denote → Nat
  | .uint64, _ => 0
  | .boolean, _ => 0
  | .bytes n, _ => treeHashes (chunkCount (.bytes n)) 0
  | .bitvector n, _ => treeHashes (chunkCount (.bitvector n)) 0
  | .bitlist n, v => treeHashes (max 1 (((v : List Bool).length + 255) / 256)) (chunkCount (.bitlist n)) + 1
  | .vector t n, v =>
    if isBasic t then treeHashes (chunkCount (.vector t n)) 0 else (v.1.map fun x => hashCount t x).sum + treeHashes n 0
  | .listF t n, v =>
    if isBasic t then treeHashes (max 1 (((v : List t.denote).length * fixedSize t + 31) / 32)) (chunkCount (.listF t n)) + 1
    else (List.map (fun x => hashCount t x) v).sum + treeHashes (max 1 (v : List t.denote).length) n + 1
  | .listV t n, v => (List.map (fun x => hashCount t x) v).sum + treeHashes (max 1 (v : List t.denote).length) n + 1
  | .container _ _ ps, v => hashCountParts ps v + treeHashes (partCount ps) 0

/-- `hashCount` of all parts. -/
def hashCountParts : (ps : Parts) → ps.denote → Nat
  | .nil, _ => 0
  | .cons _ t ps, v => hashCount t v.1 + hashCountParts ps v.2
end

end Mammon.Spec
