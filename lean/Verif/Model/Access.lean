import Verif.Model.BytesOps
import Verif.Model.Codec
import Verif.Model.Equality
import Verif.Model.HashTreeRoot
/-!
# Conversions, element access, stream output, `limit()`, and the test program `common/bytes_test.cpp`
-/

namespace Mammon

namespace Access

/-- `Slot::operator Bytes8` (common/slot.hpp:46): `Bytes8{value_}`. -/
def slotBytes8 (s : Ty.uint64.denote) : Out (List Byte) := bytesFromInt 8 8 s.toNat

/-- `Boolean::operator Bytes1` (common/boolean.hpp:40): `Bytes1{std::uint8_t(value_)}`. -/
def booleanBytes1 (b : Ty.boolean.denote) : Out (List Byte) := bytesFromInt 1 1 (if b then 1 else 0)

/-- `Bytes<N>::operator std::vector<std::uint8_t>` (common/bytes.hpp:89-92): the range from `begin()` (144) to `end()` (148) is copied. -/
def bytesVector {N : Nat} (a : BytesN N) : Out (List Byte) := slice a.1 0 N

/-- `Bytes<N>::operator[]` of a constant object (common/bytes.hpp:113); an index outside `m_arr` is undefined. -/
def bytesAt {N : Nat} (a : BytesN N) (i : Nat) : Out Byte :=
  match a.1[i]? with
  | some b => .ok b
  | none => .ub

/-- `a[i] = b` with `Bytes<N>::operator[]` (common/bytes.hpp:111): the contents afterwards. `*(a.begin() + i) = b` (144) and `a.data()[i] = b` (94)
are the same. -/
def bytesAssign {N : Nat} (a : BytesN N) (i : Nat) (b : Byte) : Out (BytesN N) :=
  if i < N then .ok ⟨a.1.set i b, by rw [List.length_set]; exact a.2⟩ else .ub

/-- `os << b` for a `bool` without `std::boolalpha` (std; used in common/bitvector.hpp:75, common/bitlist.hpp:40). -/
def printBool (b : Bool) : Byte := if b then 0x31#8 else 0x30#8

/-- `operator<<` of `Bitvector<N>` (common/bitvector.hpp:74-77) and `Bitlist` (common/bitlist.hpp:39-42): the characters written, in the order of
the loop. -/
def printBits (bits : List Bool) : List Byte := bits.foldl (fun os b => os ++ [printBool b]) []

/-- An object of class `eth::Bitlist` with its run-time limit (common/bitlist.hpp:32-33). -/
structure BitlistObj where
  arr : List Bool
  limit : BitVec 64
  deriving DecidableEq

/-- `Bitlist::limit(std::size_t)` (common/bitlist.hpp:45); that of `ListFixedSizedParts` (common/containers.hpp:134) is alike. -/
def BitlistObj.setLimit (o : BitlistObj) (l : BitVec 64) : BitlistObj := { o with limit := l }

/-- The defaulted `Bitlist::operator==` (common/bitlist.hpp:52): base class (true), then `m_arr`, then `limit_`. -/
def BitlistObj.eq (a b : BitlistObj) : Bool := a.arr == b.arr && a.limit == b.limit

/-- `Bitlist::serialize` (common/bitlist.cpp:45-52). -/
def BitlistObj.serialize (o : BitlistObj) : Out (List Byte) := Mammon.serialize (.bitlist o.limit.toNat) o.arr

/-- `Bitlist::deserialize` (common/bitlist.cpp:54-74): `limit_` is neither read nor written. -/
def BitlistObj.deserialize (o : BitlistObj) (bs : List Byte) : Out (Bool × BitlistObj) :=
  (Mammon.deserialize (.bitlist o.limit.toNat) o.arr bs).map fun r => (r.1, { o with arr := r.2 })

/-- `hash_tree_root()` of a `Bitlist` (common/bitlist.cpp:35-43, ssz/ssz_container.hpp:57). -/
def BitlistObj.hashTreeRoot (H : Chunk → Chunk → Chunk) (o : BitlistObj) : Out Chunk := Mammon.hashTreeRoot H (.bitlist o.limit.toNat) o.arr

end Access

namespace BytesTest

/-- One `TEST_CHECK` of `test_bytes_from_int` (common/bytes_test.cpp:28-36): `Bytes<N>` of an integer of `N` bytes against an array. -/
structure FromInt where
  size : Nat
  value : Nat
  expected : List Byte

/-- The checks of `test_bytes_from_int` (common/bytes_test.cpp:29-35). -/
def fromInt : List FromInt :=
  [⟨4, 0x10203040, [0x40, 0x30, 0x20, 0x10]⟩, ⟨8, 0x10203040, [0x40, 0x30, 0x20, 0x10, 0x0, 0x0, 0x0, 0x0]⟩]

/-- `expected == got` (common/bytes_test.cpp:31,35) with `got` made by the constructor of common/bytes.hpp:73-74. An initialiser that does not have
`size` elements does not compile, or is padded with zeros, here undefined. -/
def FromInt.check (c : FromInt) : Out Bool :=
  (bytesFromInt c.size c.size c.value).bind fun got =>
  if he : c.expected.length = c.size then
    if hg : got.length = c.size then .ok (bytesEq (N := c.size) (M := c.size) ⟨c.expected, he⟩ ⟨got, hg⟩) else .ub
  else .ub

/-- The checks of `test_bytes_to_integer_little_endian` (common/bytes_test.cpp:39-53): array and integer expected. The array of the first is made from
the integer 0x0a of one byte. -/
def toInt : List (List Byte × Nat) :=
  [([0x0a], 0x0a), ([0x40, 0x30, 0x20, 0x10], 0x10203040), ([0x40, 0x30, 0x20, 0x10, 0x0, 0x0, 0x0, 0x0], 0x10203040)]

/-- `expected == got.to_integer_little_endian<T>()` (common/bytes_test.cpp:42,47,52). -/
def toIntCheck (c : List Byte × Nat) : Bool := c.2 == toIntegerLittleEndian (N := c.1.length) ⟨c.1, rfl⟩

/-- `TEST_LIST` (common/bytes_test.cpp:56-58): the names of the tests and the results of their checks. -/
def run : List (String × List (Out Bool)) :=
  [("bytes_from_int", fromInt.map FromInt.check), ("bytes_to_integer_little_endian", toInt.map fun c => .ok (toIntCheck c))]

end BytesTest

end Mammon
