import Verif.Model.Basic
/-!
# `helpers/math.hpp`

Values of the unsigned type `T` of `w` bits are naturals below `2 ^ w`. Where the C++ arithmetic on `T` would wrap around (or, for types narrower
than `int`, be carried out in `int`), the model gives `ub`; a theorem with outcome `ok` thus says in particular that no wrap-around takes place.
-/

namespace Mammon

/-- `a + b` on a `w`-bit unsigned type (helpers/math.hpp:37,46,54); a carry out of the type counts as `ub`. -/
def addW (w a b : Nat) : Out Nat := if a + b < 2 ^ w then .ok (a + b) else .ub

/-- `a * b` on a `w`-bit unsigned type (helpers/math.hpp:54,55); a carry out of the type counts as `ub`. -/
def mulW (w a b : Nat) : Out Nat := if a * b < 2 ^ w then .ok (a * b) else .ub

/-- `sqrt_helper` (helpers/math.hpp:33-42). `fuel` bounds the recursion depth; `none` stands for exceeding it. -/
def sqrtHelper (w x : Nat) : (fuel : Nat) → (lo hi : Nat) → Option (Out Nat)
  | 0, _, _ => none
  | fuel + 1, lo, hi =>
    if lo = hi then some (.ok lo)
    else match (addW w lo hi).bind fun s => addW w s 1 with
      | .ok s =>
        let mid := s / 2
        if mid = 0 then some .ub
        else if x / mid < mid then sqrtHelper w x fuel lo (mid - 1)
        else sqrtHelper w x fuel mid hi
      | .throws e => some (.throws e)
      | .ub => some .ub

/-- `ct_sqrt` (helpers/math.hpp:44-47), with recursion depth limited to `fuel`. -/
def ctSqrt (w fuel x : Nat) : Option (Out Nat) :=
  match addW w (x / 2) 1 with
  | .ok hi => sqrtHelper w x fuel 0 hi
  | .throws e => some (.throws e)
  | .ub => some .ub

/-- `while (r < sqrt_max && r * r < x) r++;` (helpers/math.hpp:54). -/
def sqrtUp (w sqrtMax x r : Nat) : Out Nat :=
  if r < sqrtMax then
    match mulW w r r with
    | .ok q => if q < x then sqrtUp w sqrtMax x (r + 1) else .ok r
    | .throws e => .throws e
    | .ub => .ub
  else .ok r
termination_by sqrtMax - r

/-- `while (r > sqrt_max || r * r > x) r--;` (helpers/math.hpp:55). Decrementing 0 counts as `ub`. -/
def sqrtDown (w sqrtMax x r : Nat) : Out Nat :=
  let dec := match r with
    | 0 => .ub
    | r + 1 => sqrtDown w sqrtMax x r
  if r > sqrtMax then dec
  else match mulW w r r with
    | .ok q => if q > x then dec else .ok r
    | .throws e => .throws e
    | .ub => .ub

/-- `integer_squareroot` (helpers/math.hpp:49-58) for a `w`-bit unsigned type. `estimate` is the value of `(T)std::sqrt((double)x)`, an input of the
model: nothing is assumed about the floating point computation but that the cast yields some value of `T`. `fuel` as for `ctSqrt`. -/
def integerSquareroot (w fuel x estimate : Nat) : Option (Out Nat) :=
  (ctSqrt w fuel (2 ^ w - 1)).map fun o => o.bind fun sqrtMax => (sqrtUp w sqrtMax x estimate).bind fun r => sqrtDown w sqrtMax x r

/-- The number of zero bits of `x` before the first one bit, scanning down from bit `i - 1` (helpers/math.hpp:60). -/
def countlZeroFrom (x : Nat) : Nat → Nat
  | 0 => 0
  | i + 1 => if x.testBit i then 0 else countlZeroFrom x i + 1

/-- `std::countl_zero` of a `w`-bit value (std; used in helpers/math.hpp:60). -/
def countlZero (w : Nat) (x : BitVec w) : Nat := countlZeroFrom x.toNat w

/-- `log2ceil` (helpers/math.hpp:60) for `w`-bit types; it compiles for `w` 32 and 64 only (narrower operands of `n - 1` become signed). The
difference is taken in the naturals: `countl_zero` is at most `w`. -/
def log2ceil (w : Nat) (n : BitVec w) : Nat := if n ≠ 0 then w - countlZero w (n - 1) else 0

end Mammon
