import Verif.Model.Types
/-!
# Objects whose leaves fill whole chunks
-/

namespace Mammon.Spec

/-- Unsigned integers. -/
def isInteger : Ty → Bool
  | .uint64 => true
  | _ => false

mutual
/-- Every byte string that is packed into chunks when the value is hashed has a length that is a multiple of 32. Integers are not packed on their own,
only in vectors and lists, four to a chunk. -/
def WholeChunks : (t : Ty) → t.denote → Prop
  | .uint64, _ => True
  | .boolean, _ => False
  | .bytes n, _ => 32 ∣ n
  | .bitvector n, _ => 32 ∣ (n + 7) / 8
  | .bitlist _, v => 32 ∣ ((v : List Bool).length + 7) / 8
  | .vector t n, v => if isInteger t then 32 ∣ 8 * n else ∀ x ∈ v.1, WholeChunks t x
  | .listF t _, v => if isInteger t then 32 ∣ 8 * (v : List t.denote).length else ∀ x ∈ (v : List t.denote), WholeChunks t x
  | .listV t _, v => ∀ x ∈ (v : List t.denote), WholeChunks t x
  | .container _ _ ps, v => WholeChunksParts ps v

/-- For every part. -/
def WholeChunksParts : (ps : Parts) → ps.denote → Prop
  | .nil, _ => True
  | .cons _ t ps, v => WholeChunks t v.1 ∧ WholeChunksParts ps v.2
end

end Mammon.Spec
