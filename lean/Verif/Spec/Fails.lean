import Verif.Spec.Accepts
/-!
# What decoding does with trees it does not take

The first place, in the order in which the tree is read, where the tree is not as it should be decides.
-/

namespace Mammon.Spec

/-- The ways in which decoding fails. -/
inductive Failure
  | returnsFalse
  | throws (e : Exc)
  | undefined
  deriving DecidableEq

/-- How an element of a list or vector fails: instead of returning false, `YAML::TypedBadConversion` is thrown. -/
def Failure.ofElement : Failure → Failure
  | .returnsFalse => .throws .yamlBadConversion
  | f => f

/-- The text begins with `0x`. -/
def HexMarked (s : List Byte) : Prop := ∃ cs, s = 0x30#8 :: 0x78#8 :: cs

/-- One of the characters after `0x` is not a 7-bit character. -/
def HasHigh (s : List Byte) : Prop := ∃ c ∈ s.drop 2, 128 ≤ c.toNat

/-- The node is not a scalar. -/
def NotScalar (n : Yaml.Node) : Prop := ∀ s, n ≠ .scalar s

/-- The node is not a sequence. -/
def NotSeq (n : Yaml.Node) : Prop := ∀ l, n ≠ .seq l

/-- How the text of a bit field fails before the bits are looked at. -/
def HexFails (s : List Byte) (f : Failure) : Prop :=
  (f = .throws .invalidArgument ∧ (¬ HexMarked s ∨ s.length % 2 = 1)) ∨
  (f = .undefined ∧ HexMarked s ∧ s.length % 2 = 0 ∧ (2 ^ 31 ≤ s.length ∨ HasHigh s))

/-- The first element that fails decides. -/
def SeqFails (R : Yaml.Node → Failure → Prop) (l : List Yaml.Node) (f : Failure) : Prop :=
  ∃ a m b g, l = a ++ m :: b ∧ (∀ x ∈ a, ∀ h, ¬ R x h) ∧ R m g ∧ f = g.ofElement

mutual
/-- Decoding the tree as an object of the type fails in the way given. -/
def Fails : Ty → Yaml.Node → Failure → Prop
  | .uint64, n, f => f = .returnsFalse ∧ ¬ ∃ s k, n = .scalar s ∧ IsNumeral s k ∧ k < 2 ^ 64
  | .boolean, n, f => f = .returnsFalse ∧ ¬ ∃ b, ∃ w ∈ boolWords b, n = .scalar (ascii w)
  | .bytes k, n, f => (f = .returnsFalse ∧ NotScalar n) ∨ ∃ s, n = .scalar s ∧
      ((f = .throws .invalidArgument ∧ ¬ HexMarked s) ∨
       (f = .throws .outOfRange ∧ HexMarked s ∧ 2 * k + 2 < s.length) ∨
       (f = .undefined ∧ HexMarked s ∧ s.length ≤ 2 * k + 2 ∧ HasHigh s))
  | .bitvector _, n, f => (f = .returnsFalse ∧ NotScalar n) ∨ ∃ s, n = .scalar s ∧ HexFails s f
  | .bitlist _, n, f => (f = .returnsFalse ∧ NotScalar n) ∨ ∃ s, n = .scalar s ∧
      (HexFails s f ∨ (f = .undefined ∧ HexMarked s ∧ s.length % 2 = 0 ∧ ¬ EndsNonzero (s.drop 2)))
  | .vector t k, n, f => (f = .returnsFalse ∧ ∀ l, n = .seq l → l.length ≠ k) ∨ ∃ l, n = .seq l ∧ l.length = k ∧ SeqFails (fun m g => Fails t m g) l f
  | .listF t _, n, f => (f = .returnsFalse ∧ NotSeq n) ∨ ∃ l, n = .seq l ∧ SeqFails (fun m g => Fails t m g) l f
  | .listV t _, n, f => (f = .returnsFalse ∧ NotSeq n) ∨ ∃ l, n = .seq l ∧ SeqFails (fun m g => Fails t m g) l f
  | .container _ _ ps, n, f =>
      (f = .throws .yamlInvalidNode ∧ (n = .null ∨ ∃ l, n = .seq l)) ∨ (f = .throws .yamlBadSubscript ∧ ∃ s, n = .scalar s) ∨
      ∃ l, n = .map l ∧ FailsParts ps l f

/-- Decoding the members in order fails in the way given: the first member that is missing or fails decides. -/
def FailsParts : Parts → List (Yaml.Node × Yaml.Node) → Failure → Prop
  | .nil, _, _ => False
  | .cons name t ps, l, f =>
    (f = .throws .yamlInvalidNode ∧ ∀ e ∈ l, e.1 ≠ .scalar (ascii name)) ∨
    ∃ a m b, l = a ++ (.scalar (ascii name), m) :: b ∧ (∀ e ∈ a, e.1 ≠ .scalar (ascii name)) ∧
      (Fails t m f ∨ ((∀ g, ¬ Fails t m g) ∧ FailsParts ps l f))
end

end Mammon.Spec
