/-!
# Hexadecimal byte strings

Characters are ASCII codes.
-/

namespace Mammon.Spec

/-- The value of a hexadecimal digit, `none` for all other characters. -/
def hexDigit (c : Nat) : Option Nat :=
  if 0x30 ≤ c ∧ c ≤ 0x39 then some (c - 0x30)
  else if 0x41 ≤ c ∧ c ≤ 0x46 then some (c - 0x41 + 10)
  else if 0x61 ≤ c ∧ c ≤ 0x66 then some (c - 0x61 + 10)
  else none

/-- The bytes denoted by a sequence of digit values: two digits per byte, the more significant first; a last unpaired digit is a byte by itself. -/
def pairDigits : List Nat → List Nat
  | [] => []
  | [d] => [d]
  | d :: e :: ds => (16 * d + e) :: pairDigits ds

end Mammon.Spec
