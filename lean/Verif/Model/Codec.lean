import Verif.Model.Bits
/-!
# serialize and deserialize of every class
-/

namespace Mammon

mutual
/-- `serialize()` of each class, where it is defined (see `serializeUB`): common/slot.hpp:55, common/boolean.hpp:41,
common/bytes.hpp:78-81, common/bitvector.hpp:78-82, common/bitlist.cpp:45-51, common/containers.hpp:75-82,136-143,187-200,
and `serialize_` for the container structs. -/
def serializeBytes : (t : Ty) → t.denote → List Byte
  | .uint64, v => leBytes 8 v.toNat
  | .boolean, v => leBytes 1 v.toNat
  | .bytes _, v => v.1
  | .bitvector n, v => bitvectorSerialize n v.1
  | .bitlist _, v => bitlistSerialize v
  | .vector t _, v => v.1.foldl (fun ret p => ret ++ serializeBytes t p) []
  | .listF t _, v => v.foldl (fun ret p => ret ++ serializeBytes t p) []
  | .listV t _, v =>
    -- state: (offsets, ret, offset); `std::uint32_t offset` wraps
    let r := v.foldl
      (fun (s : List Byte × List Byte × BitVec 32) p =>
        let partSsz := serializeBytes t p
        (s.1 ++ bytes4 s.2.2, s.2.1 ++ partSsz, s.2.2 + BitVec.ofNat 32 partSsz.length))
      ([], [], BitVec.ofNat 32 (v.length * BYTES_PER_LENGTH_OFFSET))
    r.1 ++ r.2.1
  | .container _ _ ps, v => serializeParts ps v (computeFixedLength ps 0#32) [] []

/-- The loop of `Container::serialize_` (ssz/ssz_container.cpp:57-69); state: `fixed_length`, `ret`, `variable_part`. -/
def serializeParts : (ps : Parts) → ps.denote → BitVec 32 → List Byte → List Byte → List Byte
  | .nil, _, _, ret, var => ret ++ var
  | .cons _ t ps, v, fixedLength, ret, var =>
    let partSsz := serializeBytes t v.1
    if t.sszSize = 0 then
      serializeParts ps v.2 (fixedLength + BitVec.ofNat 32 partSsz.length) (ret ++ bytes4 fixedLength) (var ++ partSsz)
    else
      serializeParts ps v.2 fixedLength (ret ++ partSsz) var
end

mutual
/-- Whether `serialize()` runs into undefined behaviour: exactly when it serializes a bit list of 2^31 or more bits, whose
`int i` loop counter overflows (common/bitlist.cpp:47). -/
def serializeUB : (t : Ty) → t.denote → Bool
  | .uint64, _ => false
  | .boolean, _ => false
  | .bytes _, _ => false
  | .bitvector _, _ => false
  | .bitlist _, v => decide (2 ^ 31 ≤ v.length)
  | .vector t _, v => v.1.any (fun p => serializeUB t p)
  | .listF t _, v => v.any (fun p => serializeUB t p)
  | .listV t _, v => v.any (fun p => serializeUB t p)
  | .container _ _ ps, v => serializeUBParts ps v

/-- `serializeUB` over the parts of a container (ssz/ssz_container.cpp:57-68). -/
def serializeUBParts : (ps : Parts) → ps.denote → Bool
  | .nil, _ => false
  | .cons _ t ps, v => serializeUB t v.1 || serializeUBParts ps v.2
end

/-- `serialize()` with its possible undefined behaviour (ssz/ssz_container.hpp:54). -/
def serialize (t : Ty) (v : t.denote) : Out (List Byte) :=
  if serializeUB t v then .ub else .ok (serializeBytes t v)

/-- The loop of `VectorFixedSizedParts::deserialize` (common/containers.hpp:87-88) from element `i` on: each element is
decoded in place from `[i * size, (i + 1) * size)`. `old` are the elements `i, i + 1, ...` before. -/
def vectorLoop {α : Type} (elem : α → List Byte → Out (Bool × α)) (size : Nat) (bs : List Byte) :
    (i : Nat) → (old : List α) → Out (Bool × Vec α old.length)
  | _, [] => .ok (true, ⟨[], rfl⟩)
  | i, x :: xs => do
    let s ← slice bs (i * size) ((i + 1) * size)
    let r ← elem x s
    if r.1 then
      let q ← vectorLoop elem size bs (i + 1) xs
      .ok (q.1, ⟨r.2 :: q.2.1, congrArg (· + 1) q.2.2⟩)
    else .ok (false, ⟨r.2 :: xs, rfl⟩)

/-- The loop of `ListFixedSizedParts::deserialize` (common/containers.hpp:149-153): `bs` is the range from `i` to `end`. An
iterator stepping beyond `end` would be undefined. -/
def listFLoop {α : Type} (elem : List Byte → Out (Bool × α)) (size : Nat) (acc : List α) (bs : List Byte) :
    Out (Bool × List α) :=
  if bs.isEmpty then .ok (true, acc)
  else if _h : size = 0 ∨ bs.length < size then .ub
  else do
    let r ← elem (bs.take size)
    if r.1 then listFLoop elem size (acc ++ [r.2]) (bs.drop size)
    else .ok (false, acc)
termination_by bs.length
decreasing_by simp only [List.length_drop]; omega

/-- The loop of `ListVariableSizedParts::deserialize` (common/containers.hpp:213-228). -/
def listVLoop {α : Type} (elem : List Byte → Out (Bool × α)) (bs : List Byte) (first : BitVec 32)
    (it : Nat) (last : BitVec 32) (acc : List α) : Out (Bool × List α) :=
  if it = first.toNat then do
    let s ← slice bs last.toNat bs.length
    let r ← elem s
    .ok (r.1, if r.1 then acc ++ [r.2] else acc)
  else if _h : it + BYTES_PER_LENGTH_OFFSET > first.toNat then .ok (false, acc)
  else do
    let cur ← read32 bs it
    if cur < last then .ok (false, acc)
    else if bs.length < cur.toNat then .ok (false, acc)
    else
      let s ← slice bs last.toNat cur.toNat
      let r ← elem s
      if r.1 then listVLoop elem bs first (it + BYTES_PER_LENGTH_OFFSET) cur (acc ++ [r.2])
      else .ok (false, acc)
termination_by first.toNat - it
decreasing_by simp only [BYTES_PER_LENGTH_OFFSET] at *; omega

/-- `ListVariableSizedParts::deserialize` before its loop (common/containers.hpp:201-211). -/
def listVDeserialize {α : Type} (elem : List Byte → Out (Bool × α)) (bs : List Byte) : Out (Bool × List α) :=
  if bs.isEmpty then .ok (true, [])
  else if bs.length < BYTES_PER_LENGTH_OFFSET then .ok (false, [])
  else do
    let first ← read32 bs 0
    if first.toNat < BYTES_PER_LENGTH_OFFSET then .ok (false, [])
    else if bs.length < first.toNat then .ok (false, [])
    else listVLoop elem bs first BYTES_PER_LENGTH_OFFSET first []

mutual
/-- `deserialize(it, end)` of each class, on an object with contents `old`; `bs` is the range `[it, end)`. Returns the C++ return
value and the contents afterwards. common/slot.hpp:56-60, common/boolean.hpp:42-48, common/bytes.hpp:83-87,
common/bitvector.hpp:83-90, common/bitlist.cpp:52-63, common/containers.hpp:84-90,145-155,201-229, and `deserialize_` for
the container structs (ssz/ssz_container.cpp:73-106). -/
def deserialize : (t : Ty) → t.denote → List Byte → Out (Bool × t.denote)
  | .uint64, old, bs =>
    if bs.length ≠ 8 then .ok (false, old) else .ok (true, BitVec.ofNat 64 (fromLE bs))
  | .boolean, old, bs =>
    if bs.length ≠ 1 then .ok (false, old)
    else if fromLE bs > 1 then .ok (false, old)
    else .ok (true, fromLE bs != 0)
  | .bytes n, old, bs =>
    if h : bs.length = n then .ok (true, ⟨bs, h⟩) else .ok (false, old)
  | .bitvector n, old, bs => bitvectorDeserialize n old bs
  | .bitlist _, _, bs => bitlistDeserialize bs
  | .vector t n, old, bs =>
    if bs.length ≠ n * t.sszSize then .ok (false, old)
    else do
      let r ← vectorLoop (fun x s => deserialize t x s) t.sszSize bs 0 old.1
      .ok (r.1, ⟨r.2.1, r.2.2.trans old.2⟩)
  | .listF t _, _, bs =>
    if t.sszSize = 0 then .ub            -- `% 0`
    else if bs.length % t.sszSize ≠ 0 then .ok (false, [])
    else listFLoop (fun s => deserialize t t.dflt s) t.sszSize [] bs
  | .listV t _, _, bs => listVDeserialize (fun s => deserialize t t.dflt s) bs
  | .container _ _ ps, old, bs => do
    let r ← deserializeParts ps old bs (computeFixedLength ps 0#32) 0 0#32
      (p := .boolean) false (fun _ => .ub)     -- `last_variable_part = nullptr`
    .ok (r.1, r.2.2)

/-- The loop of `Container::deserialize_` (ssz/ssz_container.cpp:80-105) over the remaining parts `ps` with contents `old`.
`it` is the read position, `last` is `last_offset`; `prev` and `desPrev` are the contents of the part
`last_variable_part` points to and its `deserialize`. Returns the return value, the new contents of that earlier part,
and the new contents of the remaining parts. -/
def deserializeParts : (ps : Parts) → ps.denote → (bs : List Byte) → (fixedLength : BitVec 32) → (it : Nat) →
    (last : BitVec 32) → {p : Ty} → (prev : p.denote) → (desPrev : List Byte → Out (Bool × p.denote)) →
    Out (Bool × p.denote × ps.denote)
  | .nil, old, bs, _, _, last, _, prev, desPrev =>
    if last ≠ 0#32 then do
      let s ← slice bs last.toNat bs.length
      let r ← desPrev s
      .ok (r.1, r.2, old)
    else .ok (true, prev, old)
  | .cons _ t ps, old, bs, fixedLength, it, last, _, prev, desPrev =>
    if t.sszSize ≠ 0 then
      if bs.length - it < t.sszSize then .ok (false, prev, old)
      else do
        let s ← slice bs it (it + t.sszSize)
        let r ← deserialize t old.1 s
        if r.1 then
          let q ← deserializeParts ps old.2 bs fixedLength (it + t.sszSize) last prev desPrev
          .ok (q.1, q.2.1, (r.2, q.2.2))
        else .ok (false, prev, (r.2, old.2))
    else
      if bs.length - it < BYTES_PER_LENGTH_OFFSET then .ok (false, prev, old)
      else do
        let cur ← read32 bs it
        if bs.length < cur.toNat then .ok (false, prev, old)
        else if last ≠ 0#32 then
          if cur < last then .ok (false, prev, old)
          else
            let s ← slice bs last.toNat cur.toNat
            let r ← desPrev s
            if r.1 then
              let q ← deserializeParts ps old.2 bs fixedLength (it + BYTES_PER_LENGTH_OFFSET) cur old.1
                (fun s => deserialize t old.1 s)
              .ok (q.1, r.2, (q.2.1, q.2.2))
            else .ok (false, r.2, old)
        else if cur ≠ fixedLength then .ok (false, prev, old)
        else
          let q ← deserializeParts ps old.2 bs fixedLength (it + BYTES_PER_LENGTH_OFFSET) cur old.1
            (fun s => deserialize t old.1 s)
          .ok (q.1, prev, (q.2.1, q.2.2))
end

end Mammon
