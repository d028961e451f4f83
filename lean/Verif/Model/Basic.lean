/-!
# Basic vocabulary of the model: bytes, outcomes, little-endian integers, checked reads
-/

namespace Mammon

/-- `std::uint8_t` (common/bytes.hpp:42). -/
abbrev Byte := BitVec 8

/-- `std::array<T, N>`: a sequence of exactly `n` elements (common/bytes.hpp:42). -/
abbrev Vec (α : Type) (n : Nat) := { l : List α // l.length = n }

/-- `std::array<std::uint8_t, N>` (the storage of `eth::Bytes<N>`, common/bytes.hpp:42). -/
abbrev BytesN (n : Nat) := Vec Byte n

/-- `ssz::Chunk`, `std::array<std::uint8_t, 32>` (ssz/ssz.hpp:26-34). -/
abbrev Chunk := BytesN 32

/-- The exceptions the modelled code throws (common/bytes.hpp:60-62, ssz/hashtree.cpp:113, beacon-chain/test/test_ssz.cpp:44-71; yaml-cpp). -/
inductive Exc
  | invalidArgument
  | outOfRange
  | yamlBadConversion
  | yamlInvalidNode
  | yamlBadSubscript
  | filesystemError
  | yamlBadFile
  | yamlParserException
  deriving DecidableEq, Repr

/-- Outcome of running a piece of C++: a value, an exception, or undefined behaviour (for example common/bytes.hpp:59-67). -/
inductive Out (α : Type) : Type
  | ok (a : α)
  | throws (e : Exc)
  | ub
  deriving DecidableEq, Repr

namespace Out

/-- Sequencing: exceptions and undefined behaviour propagate (statements one after the other, as in ssz/ssz_container.cpp:73-106). -/
def bind {α β : Type} : Out α → (α → Out β) → Out β
  | ok a, f => f a
  | throws e, _ => throws e
  | ub, _ => ub

/-- Apply a pure function to the result (as in common/bytes.hpp:55-57). -/
def map {α β : Type} (f : α → β) : Out α → Out β
  | ok a => ok (f a)
  | throws e => throws e
  | ub => ub

/-- Statements one after the other (as in ssz/ssz_container.cpp:73-106). -/
instance : Monad Out where
  pure := ok
  bind := bind

end Out

/-- `constants::BYTES_PER_LENGTH_OFFSET` (ssz/ssz.hpp:26-34). -/
abbrev BYTES_PER_LENGTH_OFFSET : Nat := 4

/-- `constants::BYTES_PER_CHUNK` (ssz/ssz.hpp:26-34). -/
abbrev BYTES_PER_CHUNK : Nat := 32

/-- `constants::BITS_PER_BYTE` (ssz/ssz.hpp:26-34). -/
abbrev BITS_PER_BYTE : Nat := 8

/-- The object representation of a `k`-byte unsigned integer on x86-64 (little endian): what `std::bit_cast` yields in
`bytes_from_int` (common/bytes.hpp:45-53). -/
def leBytes : Nat → Nat → List Byte
  | 0, _ => []
  | k + 1, n => BitVec.ofNat 8 n :: leBytes k (n / 256)

/-- The integer whose little-endian object representation is the given bytes: what reading through
`reinterpret_cast<const T*>` yields (helpers/bytes_to_int.hpp:61-65, common/bytes.hpp:105-109). -/
def fromLE : List Byte → Nat
  | [] => 0
  | b :: bs => b.toNat + 256 * fromLE bs

/-- `eth::Bytes4(offset)` for a `std::uint32_t` (common/bytes.hpp:45-53,73-74): the four little-endian bytes. -/
def bytes4 (n : BitVec 32) : List Byte := leBytes 4 n.toNat

/-- `helpers::to_integer_little_endian<std::uint32_t>(&*it)` with `it` at index `i` of the buffer
(helpers/bytes_to_int.hpp:61-65). Reading outside the buffer is undefined. -/
def read32 (bs : List Byte) (i : Nat) : Out (BitVec 32) :=
  if i + 4 ≤ bs.length then .ok (BitVec.ofNat 32 (fromLE ((bs.drop i).take 4))) else .ub

/-- The sub-range `[begin + a, begin + b)` of a buffer handed on as a pair of iterators. Forming a range outside the
buffer, or with its end before its begin, is undefined (ssz/ssz_container.cpp:84,94,104, common/containers.hpp:219-228). -/
def slice (bs : List Byte) (a b : Nat) : Out (List Byte) :=
  if a ≤ b ∧ b ≤ bs.length then .ok ((bs.drop a).take (b - a)) else .ub

end Mammon
