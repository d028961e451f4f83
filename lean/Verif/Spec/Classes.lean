import Verif.Model.Types
/-!
# Classes of types the properties speak about
-/

namespace Mammon.Spec

mutual
/-- No bit vector whose length is not a multiple of 8 occurs in the type. -/
def wholeBytes : Ty → Bool
  | .uint64 => true
  | .boolean => true
  | .bytes _ => true
  | .bitvector n => decide (n % 8 = 0)
  | .bitlist _ => true
  | .vector t _ => wholeBytes t
  | .listF t _ => wholeBytes t
  | .listV t _ => wholeBytes t
  | .container _ _ ps => wholeBytesParts ps

/-- `wholeBytes` for all parts. -/
def wholeBytesParts : Parts → Bool
  | .nil => true
  | .cons _ t ps => wholeBytes t && wholeBytesParts ps
end

mutual
/-- No bit list occurs in the type. -/
def noBitlist : Ty → Bool
  | .uint64 => true
  | .boolean => true
  | .bytes _ => true
  | .bitvector _ => true
  | .bitlist _ => false
  | .vector t _ => noBitlist t
  | .listF t _ => noBitlist t
  | .listV t _ => noBitlist t
  | .container _ _ ps => noBitlistParts ps

/-- `noBitlist` for all parts. -/
def noBitlistParts : Parts → Bool
  | .nil => true
  | .cons _ t ps => noBitlist t && noBitlistParts ps
end

mutual
/-- Every bit list in the value has fewer than 2^31 bits. -/
def bitlistsShort : (t : Ty) → t.denote → Bool
  | .uint64, _ => true
  | .boolean, _ => true
  | .bytes _, _ => true
  | .bitvector _, _ => true
  | .bitlist _, v => decide (v.length < 2 ^ 31)
  | .vector t _, v => v.1.all fun x => bitlistsShort t x
  | .listF t _, v => v.all fun x => bitlistsShort t x
  | .listV t _, v => v.all fun x => bitlistsShort t x
  | .container _ _ ps, v => bitlistsShortParts ps v

/-- `bitlistsShort` for all parts. -/
def bitlistsShortParts : (ps : Parts) → ps.denote → Bool
  | .nil, _ => true
  | .cons _ t ps, v => bitlistsShort t v.1 && bitlistsShortParts ps v.2
end

mutual
/-- Every list and bit list in the value respects the limit of its type. -/
def withinLimits : (t : Ty) → t.denote → Bool
  | .uint64, _ => true
  | .boolean, _ => true
  | .bytes _, _ => true
  | .bitvector _, _ => true
  | .bitlist limit, v => decide (v.length ≤ limit)
  | .vector t _, v => v.1.all fun x => withinLimits t x
  | .listF t limit, v => decide (v.length ≤ limit) && v.all fun x => withinLimits t x
  | .listV t limit, v => decide (v.length ≤ limit) && v.all fun x => withinLimits t x
  | .container _ _ ps, v => withinLimitsParts ps v

/-- `withinLimits` for all parts. -/
def withinLimitsParts : (ps : Parts) → ps.denote → Bool
  | .nil, _ => true
  | .cons _ t ps, v => withinLimits t v.1 && withinLimitsParts ps v.2
end

end Mammon.Spec
