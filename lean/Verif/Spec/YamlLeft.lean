import Verif.Spec.Fails
/-!
# What an object holds after decoding a tree returned false
-/

namespace Mammon.Spec

/-- The text begins with the number `n`, written with as many digits as there are, and `rest` follows: hexadecimal after `0x` or `0X`, octal after `0`,
otherwise decimal. -/
def Begins (s : List Byte) (n : Nat) (rest : List Byte) : Prop :=
  ∃ base pre hs ds, s = pre ++ hs ++ rest ∧ IsDigits base hs ds ∧ n = value base ds ∧
    (∀ c ∈ rest.head?, ∀ d, hexDigit c.toNat = some d → base ≤ d) ∧
    (base = 16 ∧ (pre = ascii "0x" ∨ pre = ascii "0X") ∧ hs ≠ [] ∨
     base = 8 ∧ pre = ascii "0" ∧ (∀ c ∈ (hs ++ rest).head?, c ≠ 0x78#8 ∧ c ≠ 0x58#8) ∨
     base = 10 ∧ pre = [] ∧ hs ≠ [] ∧ hs.head? ≠ some 0x30#8)

/-- The text without a `+` in front. -/
def unsigned (s : List Byte) : List Byte := if s.head? = some 0x2b#8 then s.tail else s

/-- What an integer is after its text was not accepted: unchanged if the text begins with `-`, 0 if there is no number, the greatest integer if the number
is too large, and the number if something other than white space follows it. -/
def IntLeft (s : List Byte) (old w : BitVec 64) : Prop :=
  (s.head? = some 0x2d#8 ∧ w = old) ∨
  (s.head? ≠ some 0x2d#8 ∧ (∀ n rest, ¬ Begins (unsigned s) n rest) ∧ w.toNat = 0) ∨
  (s.head? ≠ some 0x2d#8 ∧ ∃ n rest, Begins (unsigned s) n rest ∧
    ((2 ^ 64 ≤ n ∧ w.toNat = 2 ^ 64 - 1) ∨ (n < 2 ^ 64 ∧ (∃ c ∈ rest, ¬ IsBlank c) ∧ w.toNat = n)))

mutual
/-- Decoding the tree into an object that holds `old` returns false and leaves `w`. -/
def Left : (t : Ty) → t.denote → Yaml.Node → t.denote → Prop
  | .uint64, old, n, w => (NotScalar n ∧ w = old) ∨ ∃ s, n = .scalar s ∧ IntLeft s old w
  | .boolean, old, n, w => (¬ ∃ b, ∃ x ∈ boolWords b, n = .scalar (ascii x)) ∧ w = old
  | .bytes _, old, n, w => NotScalar n ∧ w = old
  | .bitvector _, old, n, w => NotScalar n ∧ w = old
  | .bitlist _, old, n, w => NotScalar n ∧ w = old
  | .vector _ k, old, n, w => (∀ l, n = .seq l → l.length ≠ k) ∧ w = old
  | .listF _ _, old, n, w => NotSeq n ∧ w = old
  | .listV _ _, old, n, w => NotSeq n ∧ w = old
  | .container _ _ ps, old, n, w => ∃ l, n = .map l ∧ LeftParts ps old l w

/-- The members before the one that fails have their new values, that one holds what its decoder leaves, those after it are unchanged. -/
def LeftParts : (ps : Parts) → ps.denote → List (Yaml.Node × Yaml.Node) → ps.denote → Prop
  | .nil, _, _, _ => False
  | .cons name t ps, old, l, w =>
    ∃ a m b, l = a ++ (.scalar (ascii name), m) :: b ∧ (∀ e ∈ a, e.1 ≠ .scalar (ascii name)) ∧
      ((Left t old.1 m w.1 ∧ w.2 = old.2) ∨ (Accepts t w.1 m ∧ LeftParts ps old.2 l w.2))
end

end Mammon.Spec
