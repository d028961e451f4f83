import Verif.Spec.Yaml
/-!
# Which trees `decode` takes for which values

More than the trees of the specification (`Denotes`): other bases, signs and blanks for integers, other words for Booleans, hexadecimal text that is too
short or has other characters, lists beyond the limit.
-/

namespace Mammon.Spec

/-- The characters are the digits `ds`, of the given base (at most 16). -/
def IsDigits (base : Nat) (cs : List Byte) (ds : List Nat) : Prop :=
  cs.map (fun c => hexDigit c.toNat) = ds.map some ∧ ∀ d ∈ ds, d < base

/-- The number with the given digits, the most significant first. -/
def value (base : Nat) (ds : List Nat) : Nat := ds.foldl (fun n d => base * n + d) 0

/-- A number without sign: decimal not beginning with `0`, hexadecimal after `0x` or `0X`, or octal after `0`. -/
def IsMagnitude (cs : List Byte) (n : Nat) : Prop :=
  (∃ ds, cs ≠ [] ∧ cs.head? ≠ some 0x30#8 ∧ IsDigits 10 cs ds ∧ n = value 10 ds) ∨
  (∃ x hs ds, cs = 0x30#8 :: x :: hs ∧ (x = 0x78#8 ∨ x = 0x58#8) ∧ hs ≠ [] ∧ IsDigits 16 hs ds ∧ n = value 16 ds) ∨
  (∃ os ds, cs = 0x30#8 :: os ∧ IsDigits 8 os ds ∧ n = value 8 ds)

/-- White space: blank, tabulators, line feed, form feed, carriage return. -/
def IsBlank (c : Byte) : Prop := c.toNat ∈ [0x20, 0x09, 0x0a, 0x0b, 0x0c, 0x0d]

/-- A number, perhaps with `+` in front and with white space behind. -/
def IsNumeral (s : List Byte) (n : Nat) : Prop :=
  ∃ sign cs blanks, s = sign ++ cs ++ blanks ∧ (sign = [] ∨ sign = [0x2b#8]) ∧ IsMagnitude cs n ∧ ∀ c ∈ blanks, IsBlank c

/-- The words for `true` and `false`. -/
def boolWords : Bool → List String
  | true => ["y", "Y", "yes", "Yes", "YES", "true", "True", "TRUE", "on", "On", "ON"]
  | false => ["n", "N", "no", "No", "NO", "false", "False", "FALSE", "off", "Off", "OFF"]

/-- `s` is `0x` and 7-bit characters for the bytes `bs`, two for each (a last single one is a byte by itself): characters other than
hexadecimal digits count as 0. -/
def IsLooseHex (s bs : List Byte) : Prop :=
  ∃ cs, s = 0x30#8 :: 0x78#8 :: cs ∧ (∀ c ∈ cs, c.toNat < 128) ∧
    bs = (pairDigits (cs.map fun c => (hexDigit c.toNat).getD 0)).map (BitVec.ofNat 8)

/-- The byte stored at number `q` (8 bits each) of a bit vector given the bytes of its text, fewer than 2^30: bits are numbered by 32-bit integers, so
the bytes from number 2^29 on are stored over the first ones. -/
def storedByte (bs : List Byte) (q : Nat) : Byte :=
  if 2 ^ 29 ≤ q then 0#8 else if 2 ^ 29 + q < bs.length then bs.getD (2 ^ 29 + q) 0#8 else bs.getD q 0#8

mutual
/-- `decode` takes the tree for the value. -/
def Accepts : (t : Ty) → t.denote → Yaml.Node → Prop
  | .uint64, v, n => ∃ s, n = .scalar s ∧ IsNumeral s v.toNat
  | .boolean, v, n => ∃ w ∈ boolWords v, n = .scalar (ascii w)
  | .bytes k, v, n => ∃ s bs, n = .scalar s ∧ IsLooseHex s bs ∧ bs.length ≤ k ∧ v.1 = bs ++ List.replicate (k - bs.length) 0#8
  | .bitvector k, v, n => ∃ s bs, n = .scalar s ∧ IsLooseHex s bs ∧ s.length % 2 = 0 ∧ s.length < 2 ^ 31 ∧
      ∀ i < k, v.1[i]? = some ((storedByte bs (i / 8)).getLsbD (i % 8))
  | .bitlist _, v, n => ∃ s, n = .scalar s ∧ IsLooseHex s (bitlist v) ∧ s.length % 2 = 0 ∧ s.length < 2 ^ 31
  | .vector t _, v, n => ∃ l, n = .seq l ∧ List.Forall₂ (fun x m => Accepts t x m) v.1 l
  | .listF t _, v, n => ∃ l, n = .seq l ∧ List.Forall₂ (fun x m => Accepts t x m) v l
  | .listV t _, v, n => ∃ l, n = .seq l ∧ List.Forall₂ (fun x m => Accepts t x m) v l
  | .container _ _ ps, v, n => ∃ l, n = .map l ∧ AcceptsParts ps v l

/-- `Accepts` for each part of a container. -/
def AcceptsParts : (ps : Parts) → ps.denote → List (Yaml.Node × Yaml.Node) → Prop
  | .nil, _, _ => True
  | .cons name t ps, v, l =>
    (∃ a m b, l = a ++ (.scalar (ascii name), m) :: b ∧ (∀ e ∈ a, e.1 ≠ .scalar (ascii name)) ∧ Accepts t v.1 m) ∧ AcceptsParts ps v.2 l
end

mutual
/-- There is no container without parts inside the type. -/
def noEmpty : Ty → Bool
  | .uint64 => true
  | .boolean => true
  | .bytes _ => true
  | .bitvector _ => true
  | .bitlist _ => true
  | .vector t _ => noEmpty t
  | .listF t _ => noEmpty t
  | .listV t _ => noEmpty t
  | .container _ _ .nil => false
  | .container _ _ (.cons _ t ps) => noEmpty t && noEmptyParts ps

/-- `noEmpty` for all parts. -/
def noEmptyParts : Parts → Bool
  | .nil => true
  | .cons _ t ps => noEmpty t && noEmptyParts ps
end

end Mammon.Spec
