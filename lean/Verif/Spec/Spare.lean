import Verif.Spec.Classes
/-!
# How many padding bits an object has
-/

namespace Mammon.Spec

mutual
/-- The padding bits in the encoding of an object: those that fill up the last byte of each bit vector in it. -/
def spare : (t : Ty) → t.denote → Nat
  | .uint64, _ => 0
  | .boolean, _ => 0
  | .bytes _, _ => 0
  | .bitvector n, _ => 8 * ((n + 7) / 8) - n
  | .bitlist _, _ => 0
  | .vector t _, v => (v.1.map fun x => spare t x).sum
  | .listF t _, v => (List.map (fun x => spare t x) v).sum
  | .listV t _, v => (List.map (fun x => spare t x) v).sum
  | .container _ _ ps, v => spareParts ps v

/-- `spare` for all parts. -/
def spareParts : (ps : Parts) → ps.denote → Nat
  | .nil, _ => 0
  | .cons _ t ps, v => spare t v.1 + spareParts ps v.2
end

end Mammon.Spec
