import Verif.Model.Yaml
import Verif.Spec.Hex
import Verif.Spec.Classes
import Verif.Spec.SSZ
import Mathlib.Data.List.Forall2
/-!
# Specification of the textual forms, and which types the YAML properties speak of
-/

namespace Mammon.Spec

/-- `s` is `0x` followed by two hexadecimal digits (of either case) for each of the bytes, the more significant one first. -/
def IsHexText (s bs : List Byte) : Prop :=
  ∃ cs ds, s = 0x30#8 :: 0x78#8 :: cs ∧ cs.map (fun c => hexDigit c.toNat) = ds.map some ∧ cs.length = 2 * bs.length ∧
    pairDigits ds = bs.map (·.toNat)

mutual
/-- There is no bit list inside the value, and every bit vector inside is zero. -/
def noBitsSet : (t : Ty) → t.denote → Bool
  | .uint64, _ => true
  | .boolean, _ => true
  | .bytes _, _ => true
  | .bitvector _, v => v.1.all fun b => !b
  | .bitlist _, _ => false
  | .vector t _, v => v.1.all fun x => noBitsSet t x
  | .listF t _, v => v.all fun x => noBitsSet t x
  | .listV t _, v => v.all fun x => noBitsSet t x
  | .container _ _ ps, v => noBitsSetParts ps v

/-- `noBitsSet` for all parts. -/
def noBitsSetParts : (ps : Parts) → ps.denote → Bool
  | .nil, _ => true
  | .cons _ t ps, v => noBitsSet t v.1 && noBitsSetParts ps v.2
end

mutual
/-- There is no bit list and no bit vector inside the type. -/
def noBits : Ty → Bool
  | .uint64 => true
  | .boolean => true
  | .bytes _ => true
  | .bitvector _ => false
  | .bitlist _ => false
  | .vector t _ => noBits t
  | .listF t _ => noBits t
  | .listV t _ => noBits t
  | .container _ _ ps => noBitsParts ps

/-- `noBits` for all parts. -/
def noBitsParts : Parts → Bool
  | .nil => true
  | .cons _ t ps => noBits t && noBitsParts ps
end

/-- The names of the parts. -/
def names : Parts → List String
  | .nil => []
  | .cons n _ ps => n :: names ps

/-- The parts: their names and types. -/
def partsList : Parts → List (String × Ty)
  | .nil => []
  | .cons n t ps => (n, t) :: partsList ps

mutual
/-- Within each container the parts have different names, made of 7-bit characters; bit vectors have fewer than 2^31 bits. -/
def wellNamed : Ty → Bool
  | .uint64 => true
  | .boolean => true
  | .bytes _ => true
  | .bitvector n => decide (n < 2 ^ 31)
  | .bitlist _ => true
  | .vector t _ => wellNamed t
  | .listF t _ => wellNamed t
  | .listV t _ => wellNamed t
  | .container _ _ ps => wellNamedParts ps

/-- As `wellNamed`, for the parts of one container. -/
def wellNamedParts : Parts → Bool
  | .nil => true
  | .cons n t ps => decide (n ∉ names ps) && n.toList.all (fun c => decide (c.toNat < 128)) && wellNamed t && wellNamedParts ps
end

/-- `s` is one of the scalars in the tree (keys of maps not counted). -/
inductive HasScalar : Yaml.Node → List Byte → Prop
  | self (s : List Byte) : HasScalar (.scalar s) s
  | elem {l : List Yaml.Node} {n : Yaml.Node} {s : List Byte} : n ∈ l → HasScalar n s → HasScalar (.seq l) s
  | value {l : List (Yaml.Node × Yaml.Node)} {e : Yaml.Node × Yaml.Node} {s : List Byte} : e ∈ l → HasScalar e.2 s → HasScalar (.map l) s

/-- The last two characters exist, and one of them is a hexadecimal digit other than 0. -/
def EndsNonzero (s : List Byte) : Prop :=
  ∃ cs c d, s = cs ++ [c, d] ∧ ¬ ((hexDigit c.toNat).getD 0 = 0 ∧ (hexDigit d.toNat).getD 0 = 0)

/-- The digit characters, as a number. -/
def digitsValue (s : List Byte) : Nat := s.foldl (fun n c => 10 * n + (c.toNat - 0x30)) 0

/-- `s` is the number `n` written in decimal: at least one digit, and the first one is 0 only if it is the only one. -/
def IsDecimal (s : List Byte) (n : Nat) : Prop :=
  s ≠ [] ∧ (∀ c ∈ s, 0x30 ≤ c.toNat ∧ c.toNat ≤ 0x39) ∧ (s.head? = some 0x30#8 → s.length = 1) ∧ digitsValue s = n

/-- The characters of a 7-bit string. -/
def ascii (s : String) : List Byte := s.toList.map fun c => BitVec.ofNat 8 c.toNat

mutual
/-- The tree denotes the value, in the form of the `value.yaml` files of the consensus specification: integers in decimal, `true` and `false`, `0x` and
hexadecimal digits for byte arrays and for the encodings of bit fields, sequences for vectors and lists, and maps from the names of the members for
containers. A map may have further keys; of several equal keys the first counts. -/
def Denotes : (t : Ty) → t.denote → Yaml.Node → Prop
  | .uint64, v, n => ∃ s, n = .scalar s ∧ IsDecimal s v.toNat
  | .boolean, v, n => n = .scalar (ascii (if v then "true" else "false"))
  | .bytes _, v, n => ∃ s, n = .scalar s ∧ IsHexText s v.1
  | .bitvector k, v, n => ∃ s, n = .scalar s ∧ IsHexText s (bitvector k v.1)
  | .bitlist _, v, n => ∃ s, n = .scalar s ∧ IsHexText s (bitlist v)
  | .vector t _, v, n => ∃ l, n = .seq l ∧ List.Forall₂ (fun x m => Denotes t x m) v.1 l
  | .listF t _, v, n => ∃ l, n = .seq l ∧ List.Forall₂ (fun x m => Denotes t x m) v l
  | .listV t _, v, n => ∃ l, n = .seq l ∧ List.Forall₂ (fun x m => Denotes t x m) v l
  | .container _ _ ps, v, n => ∃ l, n = .map l ∧ DenotesParts ps v l

/-- `Denotes` for each part of a container. -/
def DenotesParts : (ps : Parts) → ps.denote → List (Yaml.Node × Yaml.Node) → Prop
  | .nil, _, _ => True
  | .cons name t ps, v, l =>
    (∃ a m b, l = a ++ (.scalar (ascii name), m) :: b ∧ (∀ e ∈ a, e.1 ≠ .scalar (ascii name)) ∧ Denotes t v.1 m) ∧ DenotesParts ps v.2 l
end

end Mammon.Spec
