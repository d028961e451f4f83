import Verif.Model.Basic
/-!
# The universe of SSZ object types

Every class derived from `ssz::Container` (ssz/ssz_container.hpp:36-62) is one constructor or one term of `Ty`.
-/

namespace Mammon

mutual
/-- The classes derived from `ssz::Container` (ssz/ssz_container.hpp:36-62). -/
inductive Ty : Type
  /-- `eth::Slot` and its aliases Epoch, Counter, UnixTime, CommitteeIndex, ValidatorIndex, DepositIndex, Gwei
  (common/slot.hpp:32-76). -/
  | uint64
  /-- `eth::Boolean` (common/boolean.hpp:32-57). -/
  | boolean
  /-- `eth::Bytes<N>` (common/bytes.hpp:39-162). -/
  | bytes (n : Nat)
  /-- `eth::Bitvector<N>` (common/bitvector.hpp:35-103). -/
  | bitvector (n : Nat)
  /-- `eth::Bitlist` with its run-time member `limit_` (common/bitlist.hpp:30-55). The limit is part of the type here:
  the code sets it once, in the member initialisers of the enclosing class. -/
  | bitlist (limit : Nat)
  /-- `eth::VectorFixedSizedParts<T, N>` (common/containers.hpp:40-94). -/
  | vector (t : Ty) (n : Nat)
  /-- `eth::ListFixedSizedParts<T>` with its member `limit_` (common/containers.hpp:96-158). -/
  | listF (t : Ty) (limit : Nat)
  /-- `eth::ListVariableSizedParts<T>` with its member `limit_` (common/containers.hpp:160-233). -/
  | listV (t : Ty) (limit : Nat)
  /-- A `struct` with named parts: the value of its `get_ssz_size()` (0 if not overridden, ssz/ssz_container.hpp:53), whether it
  declares `operator==` itself (otherwise `Container::operator==` of ssz/ssz_container.hpp:61 applies), and the
  list of parts given to `serialize_`, `deserialize_`, `hash_tree_`, `encode_` and `decode_`. -/
  | container (sszSize : Nat) (ownEq : Bool) (parts : Parts)

/-- The list of named parts of a container (`std::vector<Part>`, ssz/ssz_container.hpp:32-33). -/
inductive Parts : Type
  | nil
  | cons (name : String) (t : Ty) (rest : Parts)
end

mutual
/-- The contents of an object of each type: its data members, without the limits (which are part of `Ty`).
common/slot.hpp:34, common/boolean.hpp:34, common/bytes.hpp:42, common/bitvector.hpp:38, common/bitlist.hpp:32,
common/containers.hpp:43,99,163 and the members of the container structs. -/
@[reducible] def Ty.denote : Ty → Type
  | .uint64 => BitVec 64
  | .boolean => Bool
  | .bytes n => BytesN n
  | .bitvector n => Vec Bool n
  | .bitlist _ => List Bool
  | .vector t n => Vec t.denote n
  | .listF t _ => List t.denote
  | .listV t _ => List t.denote
  | .container _ _ ps => ps.denote

/-- The contents of the parts of a container, in order (ssz/ssz_container.hpp:38-39). -/
@[reducible] def Parts.denote : Parts → Type
  | .nil => Unit
  | .cons _ t ps => t.denote × ps.denote
end

/-- `get_ssz_size()`; also `T::ssz_size` for the classes that have that constant. 0 means variable size.
common/slot.hpp:63-64, common/boolean.hpp:52-53, common/bytes.hpp:140-142, common/bitvector.hpp:41-42,
common/containers.hpp:62-63, ssz/ssz_container.hpp:53 (bit lists and lists do not override the default 0). -/
def Ty.sszSize : Ty → Nat
  | .uint64 => 8
  | .boolean => 1
  | .bytes n => n
  | .bitvector n => (n + BITS_PER_BYTE - 1) / BITS_PER_BYTE
  | .bitlist _ => 0
  | .vector t n => n * t.sszSize
  | .listF _ _ => 0
  | .listV _ _ => 0
  | .container s _ _ => s

mutual
/-- A default-constructed object (`T obj;`, `T()`): zero integers and bytes, empty lists. `Bitvector` leaves its bits
indeterminate (common/bitvector.hpp:44); the model takes `false`, and C04 shows that a decode does not depend on it. -/
def Ty.dflt : (t : Ty) → t.denote
  | .uint64 => 0#64
  | .boolean => false
  | .bytes n => ⟨List.replicate n 0#8, List.length_replicate⟩
  | .bitvector n => ⟨List.replicate n false, List.length_replicate⟩
  | .bitlist _ => []
  | .vector t n => ⟨List.replicate n t.dflt, List.length_replicate⟩
  | .listF _ _ => []
  | .listV _ _ => []
  | .container _ _ ps => ps.dflt

/-- Default-constructed parts (ssz/ssz_container.hpp:47). -/
def Parts.dflt : (ps : Parts) → ps.denote
  | .nil => ()
  | .cons _ t ps => (t.dflt, ps.dflt)
end

/-- `compute_fixed_length` (ssz/ssz_container.cpp:33-45), accumulating in a `std::uint32_t`. -/
def computeFixedLength : Parts → BitVec 32 → BitVec 32
  | .nil, ret => ret
  | .cons _ t ps, ret =>
    computeFixedLength ps
      (if t.sszSize = 0 then ret + BitVec.ofNat 32 BYTES_PER_LENGTH_OFFSET else ret + BitVec.ofNat 32 t.sszSize)

end Mammon
