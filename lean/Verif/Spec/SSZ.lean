import Verif.Model.Types
/-!
# Specification of SSZ serialization

Transcribed from the Ethereum consensus specification, `ssz/simple-serialize.md` ("Serialization"), over the values of the model. It uses
unbounded naturals and none of the functions of the model; the *declared* sizes of containers play no role here. There is one list type: the
two list classes of the code are not distinguished.
-/

namespace Mammon.Spec

/-- `uintN`: `value.to_bytes(k, "little")`. -/
def uintLE (k n : Nat) : List Byte := (List.range k).map fun i => BitVec.ofNat 8 (n / 256 ^ i)

/-- The byte whose bit `j` is `f j`. -/
def byteOfBits (f : Nat → Bool) : Byte :=
  BitVec.ofNat 8 (((List.range 8).map fun j => (f j).toNat * 2 ^ j).sum)

/-- `len` bytes whose bits, in order, are `f 0, f 1, ...`. -/
def packBits (len : Nat) (f : Nat → Bool) : List Byte :=
  (List.range len).map fun k => byteOfBits fun j => f (8 * k + j)

/-- `Bitvector[N]`. -/
def bitvector (n : Nat) (bits : List Bool) : List Byte := packBits ((n + 7) / 8) fun i => bits.getD i false

/-- `Bitlist[N]`: one delimiter bit `1` is added at the end. -/
def bitlist (bits : List Bool) : List Byte :=
  packBits (bits.length / 8 + 1) fun i => (bits ++ [true]).getD i false

mutual
/-- "variable-size types: lists, unions, Bitlist and all composite types that contain a variable-size type". -/
def isVariable : Ty → Bool
  | .uint64 => false
  | .boolean => false
  | .bytes _ => false
  | .bitvector _ => false
  | .bitlist _ => true
  | .vector t _ => isVariable t
  | .listF _ _ => true
  | .listV _ _ => true
  | .container _ _ ps => anyVariable ps

/-- Some part is of variable size. -/
def anyVariable : Parts → Bool
  | .nil => false
  | .cons _ t ps => isVariable t || anyVariable ps
end

/-- "Vectors, containers, lists": the given parts, each flagged as variable-size or not, with offsets in place of the variable-size ones,
then the variable-size ones. -/
def assemble (parts : List (Bool × List Byte)) : List Byte :=
  let fixedLength := (parts.map fun p => if p.1 then 4 else p.2.length).sum
  let variableLength := fun i => ((parts.take i).map fun p => if p.1 then p.2.length else 0).sum
  let fixedParts := parts.zipIdx.map fun p => if p.1.1 then uintLE 4 (fixedLength + variableLength p.2) else p.1.2
  let variableParts := parts.map fun p => if p.1 then p.2 else []
  fixedParts.flatten ++ variableParts.flatten

mutual
/-- `serialize(value)`. -/
def encode : (t : Ty) → t.denote → List Byte
  | .uint64, v => uintLE 8 v.toNat
  | .boolean, v => [if v then 1#8 else 0#8]
  | .bytes _, v => v.1
  | .bitvector n, v => bitvector n v.1
  | .bitlist _, v => bitlist v
  | .vector t _, v => assemble (v.1.map fun x => (isVariable t, encode t x))
  | .listF t _, v => assemble (v.map fun x => (isVariable t, encode t x))
  | .listV t _, v => assemble (v.map fun x => (isVariable t, encode t x))
  | .container _ _ ps, v => assemble (encodeParts ps v)

/-- The parts of a container, flagged. -/
def encodeParts : (ps : Parts) → ps.denote → List (Bool × List Byte)
  | .nil, _ => []
  | .cons _ t ps, v => (isVariable t, encode t v.1) :: encodeParts ps v.2
end

mutual
/-- The size in bytes of every value of a fixed-size type. -/
def fixedSize : Ty → Nat
  | .uint64 => 8
  | .boolean => 1
  | .bytes n => n
  | .bitvector n => (n + 7) / 8
  | .bitlist _ => 0
  | .vector t n => n * fixedSize t
  | .listF _ _ => 0
  | .listV _ _ => 0
  | .container _ _ ps => fixedSizeParts ps

/-- The size of the fixed-size section of a container: 4 bytes for each variable-size part. -/
def fixedSizeParts : Parts → Nat
  | .nil => 0
  | .cons _ t ps => (if isVariable t then 4 else fixedSize t) + fixedSizeParts ps
end

mutual
/-- Legal types: no empty vectors or containers (as in the specification), vectors and `ListFixedSizedParts` over fixed-size
types, `ListVariableSizedParts` over variable-size types, declared sizes that agree with the structure of the type,
fixed sections addressable by 32-bit offsets. -/
def wf : Ty → Bool
  | .uint64 => true
  | .boolean => true
  | .bytes n => decide (0 < n)
  | .bitvector n => decide (0 < n)
  | .bitlist _ => true
  | .vector t n => wf t && !isVariable t && decide (0 < n)
  | .listF t _ => wf t && !isVariable t
  | .listV t _ => wf t && isVariable t
  | .container s _ ps =>
    wfParts ps && decide (0 < fixedSizeParts ps) && decide (fixedSizeParts ps < 2 ^ 32) &&
      decide (s = if anyVariable ps then 0 else fixedSizeParts ps)

/-- All parts are legal. -/
def wfParts : Parts → Bool
  | .nil => true
  | .cons _ t ps => wf t && wfParts ps
end

end Mammon.Spec
