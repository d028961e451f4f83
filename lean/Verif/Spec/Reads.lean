import Verif.Spec.SSZ
import Verif.Model.Reads
/-!
# Where the integers of an encoding are
-/

namespace Mammon.Spec

/-- How many of the reads include the byte at the address. -/
def timesRead (rs : List Read) (a : Nat) : Nat := rs.countP fun r => decide (r.addr ≤ a ∧ a < r.addr + r.bytes)

/-- The address is a multiple of the required alignment. Dereferencing a pointer that is not is undefined behaviour in C++ (x86-64 processors execute
the load nevertheless). -/
def Aligned (r : Read) : Bool := r.addr % r.align == 0

mutual
/-- The integers and offsets whose position does not depend on the value, for an encoding that begins at `p`: those in the fixed-size section, and those
in the fixed-size section of the first variable-size part, which follows the fixed-size section. -/
def integersAt : Ty → (p : Nat) → List Read
  | .uint64, p => [⟨p, 8, 8⟩]
  | .boolean, _ => []
  | .bytes _, _ => []
  | .bitvector _, _ => []
  | .bitlist _, _ => []
  | .vector t n, p => (List.range n).flatMap fun i => integersAt t (p + i * fixedSize t)
  | .listF _ _, _ => []
  | .listV _ _, _ => []
  | .container _ _ ps, p => integersAtParts ps p (p + fixedSizeParts ps) true

/-- The same for the parts of a container from one at `p` on; `q` is the end of the fixed-size section; is the next variable-size part the
first one? -/
def integersAtParts : Parts → (p q : Nat) → Bool → List Read
  | .nil, _, _, _ => []
  | .cons _ t ps, p, q, first =>
    if isVariable t then ⟨p, 4, 4⟩ :: ((if first then integersAt t q else []) ++ integersAtParts ps (p + 4) q false)
    else integersAt t p ++ integersAtParts ps (p + fixedSize t) q first
end

end Mammon.Spec
