import Verif.Spec.Decode
/-!
# Bit vectors as byte vectors

The encodings a type accepts are those of the type with its bit vectors replaced by byte vectors of the same size: the padding bits are free.
-/

namespace Mammon.Spec

mutual
/-- The type with every bit vector replaced by a byte vector of as many bytes. -/
def whole : Ty → Ty
  | .uint64 => .uint64
  | .boolean => .boolean
  | .bytes n => .bytes n
  | .bitvector n => .bytes ((n + 7) / 8)
  | .bitlist l => .bitlist l
  | .vector t n => .vector (whole t) n
  | .listF t l => .listF (whole t) l
  | .listV t l => .listV (whole t) l
  | .container s e ps => .container s e (wholeParts ps)

/-- `whole` for all parts. -/
def wholeParts : Parts → Parts
  | .nil => .nil
  | .cons n t ps => .cons n (whole t) (wholeParts ps)
end

mutual
/-- Forget the padding bits: read the bits of the bit vectors off the byte vectors. -/
def forget : (t : Ty) → (whole t).denote → t.denote
  | .uint64, v => v
  | .boolean, v => v
  | .bytes _, v => v
  | .bitvector n, v => ⟨bitsOf n v.1, by simp [bitsOf]⟩
  | .bitlist _, v => v
  | .vector t _, v => ⟨v.1.map fun x => forget t x, by rw [List.length_map]; exact v.2⟩
  | .listF t _, v => List.map (fun x => forget t x) v
  | .listV t _, v => List.map (fun x => forget t x) v
  | .container _ _ ps, v => forgetParts ps v

/-- `forget` for all parts. -/
def forgetParts : (ps : Parts) → (wholeParts ps).denote → ps.denote
  | .nil, _ => ()
  | .cons _ t ps, v => (forget t v.1, forgetParts ps v.2)
end

end Mammon.Spec
