import Verif.Spec.SSZ
/-!
# Where the offsets of an encoding are, and what they should be
-/

namespace Mammon.Spec

/-- The 32-bit little-endian integer at position `i`. -/
def readOffset (bs : List Byte) (i : Nat) : Nat :=
  (bs.getD i 0#8).toNat + 2 ^ 8 * (bs.getD (i + 1) 0#8).toNat + 2 ^ 16 * (bs.getD (i + 2) 0#8).toNat +
    2 ^ 24 * (bs.getD (i + 3) 0#8).toNat

/-- The positions of the offsets in the fixed section of a container that starts at position `i`. -/
def offsetPositions : Parts → Nat → List Nat
  | .nil, _ => []
  | .cons _ t ps, i => if isVariable t then i :: offsetPositions ps (i + 4) else offsetPositions ps (i + fixedSize t)

/-- The offsets stored in an encoded container. -/
def offsets (ps : Parts) (bs : List Byte) : List Nat := (offsetPositions ps 0).map (readOffset bs)

/-- The encodings of the variable-size parts of a container. -/
def variableEncodings (ps : Parts) (v : ps.denote) : List (List Byte) := ((encodeParts ps v).filter (·.1)).map (·.2)

/-- The offsets stored in a nonempty encoded list of variable-size elements: as many as the first one says. -/
def listOffsets (bs : List Byte) : List Nat := (List.range (readOffset bs 0 / 4)).map fun k => readOffset bs (4 * k)

/-- Where byte strings laid out one behind the other from position `i` start. -/
def starts (i : Nat) : List (List Byte) → List Nat
  | [] => []
  | b :: bs => i :: starts (i + b.length) bs

/-- The `n` words at the start of an encoded list of `n` variable-size elements. -/
def leadingOffsets (n : Nat) (bs : List Byte) : List Nat := (List.range n).map fun k => readOffset bs (4 * k)

end Mammon.Spec
