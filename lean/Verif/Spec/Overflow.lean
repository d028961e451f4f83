import Verif.Spec.HashTreeRoot
/-!
# Hashing of objects whose lists may exceed their limits

The SSZ specification does not define a root for them. What one gets by computing on regardless: the tree is as deep as the elements need.
-/

namespace Mammon.Spec

/-- The nodes over `n` chunks fit into a buffer that is sized for them and then changed by the difference of the depths for `limit` and for `n`: one
entry less per level that `n` needs more than `limit`. (Within the limit there is always room. Limit 0 means none.) -/
def fits (n limit : Nat) : Bool :=
  n ≤ limit || limit = 0 || treeSize n (depthFor n) ≤ max (2 ^ depthFor n - 1 - (depthFor n - depthFor limit)) 1

mutual
/-- Every bit list has fewer than 2^31 bits, and the nodes over every list fit. -/
def roomy : (t : Ty) → t.denote → Bool
  | .uint64, _ => true
  | .boolean, _ => true
  | .bytes _, _ => true
  | .bitvector _, _ => true
  | .bitlist n, v => decide ((v : List Bool).length < 2 ^ 31) && fits (((v : List Bool).length + 255) / 256) (chunkCount (.bitlist n))
  | .vector t _, v => v.1.all fun x => roomy t x
  | .listF t n, v =>
    (if isBasic t then fits (((v : List t.denote).length * fixedSize t + 31) / 32) (chunkCount (.listF t n)) else fits (v : List t.denote).length n) &&
      (v : List t.denote).all fun x => roomy t x
  | .listV t n, v => fits (v : List t.denote).length n && (v : List t.denote).all fun x => roomy t x
  | .container _ _ ps, v => roomyParts ps v

/-- `roomy` for all parts. -/
def roomyParts : (ps : Parts) → ps.denote → Bool
  | .nil, _ => true
  | .cons _ t ps, v => roomy t v.1 && roomyParts ps v.2
end

mutual
/-- `root`, where the depth of a list is the one for the limit or for the number of chunks, whichever is larger. -/
def rootAny (H : Chunk → Chunk → Chunk) : (t : Ty) → t.denote → Chunk
  | .uint64, v => root H .uint64 v
  | .boolean, v => root H .boolean v
  | .bytes n, v => root H (.bytes n) v
  | .bitvector n, v => root H (.bitvector n) v
  | .bitlist n, v =>
    mixInLength H (merkleize H (pack (bitlistBytes v)) (max (((v : List Bool).length + 255) / 256) (chunkCount (.bitlist n)))) (v : List Bool).length
  | .vector t n, v =>
    if isBasic t then root H (.vector t n) v else merkleize H (v.1.map fun x => rootAny H t x) n
  | .listF t n, v =>
    if isBasic t then mixInLength H (merkleize H (pack (List.map (fun x => encode t x) v).flatten)
      (max (((v : List t.denote).length * fixedSize t + 31) / 32) (chunkCount (.listF t n)))) (v : List t.denote).length
    else mixInLength H (merkleize H (List.map (fun x => rootAny H t x) v) (max (v : List t.denote).length n)) (v : List t.denote).length
  | .listV t n, v => mixInLength H (merkleize H (List.map (fun x => rootAny H t x) v) (max (v : List t.denote).length n)) (v : List t.denote).length
  | .container _ _ ps, v => merkleize H (rootAnyParts H ps v) (partCount ps)

/-- The roots of the parts. -/
def rootAnyParts (H : Chunk → Chunk → Chunk) : (ps : Parts) → ps.denote → List Chunk
  | .nil, _ => []
  | .cons _ t ps, v => rootAny H t v.1 :: rootAnyParts H ps v.2
end

mutual
/-- No list has more than 2^42 elements. -/
def listsSmall : (t : Ty) → t.denote → Bool
  | .uint64, _ => true
  | .boolean, _ => true
  | .bytes _, _ => true
  | .bitvector _, _ => true
  | .bitlist _, _ => true
  | .vector t _, v => v.1.all fun x => listsSmall t x
  | .listF t _, v => decide ((v : List t.denote).length ≤ 2 ^ 42) && (v : List t.denote).all fun x => listsSmall t x
  | .listV t _, v => decide ((v : List t.denote).length ≤ 2 ^ 42) && (v : List t.denote).all fun x => listsSmall t x
  | .container _ _ ps, v => listsSmallParts ps v

/-- `listsSmall` for all parts. -/
def listsSmallParts : (ps : Parts) → ps.denote → Bool
  | .nil, _ => true
  | .cons _ t ps, v => listsSmall t v.1 && listsSmallParts ps v.2
end

end Mammon.Spec
