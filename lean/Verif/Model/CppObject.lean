import Verif.Model.BytesOps
import Verif.Model.CppRun
import Verif.Model.CppText
/-!
# Objects as members

What the names in the bodies of the member functions stand for: the constants, the bytes to decode, and the members of the object.
-/

namespace Mammon.Cpp
open Nasm

/-- The constants that the functions use, with their types (ssz/ssz.hpp:27-34; `CHAR_BIT` of the C library, helpers/math.hpp:60). -/
def consts : Frame := [(name% "CHAR_BIT", .int .i32 8), (name% "BITS_PER_BYTE", .int .u32 8), (name% "BYTES_PER_LENGTH_OFFSET", .int .u32 4)]

/-- The bytes to decode, a vector of the caller: the oldest global thing (ssz/ssz_container.hpp:56). The functions never use its name. -/
def input (bs : List Byte) : Frame := [(name% "input", .bytes bs)]

/-- The iterators to the beginning and the end of the bytes to decode (ssz/ssz_container.hpp:56). -/
def ends (bs : List Byte) : List Val := [.iter (.glob 0) 0, .iter (.glob 0) bs.length]

/-- The member `hash_tree_` of a `HashTree` and its static member `hasher`, the constants of ssz/hashtree.cpp and those of ssz/ssz.hpp (ssz/hashtree.hpp:37-38,
ssz/hashtree.cpp:43,55,106). -/
def treeGlobals (H : Chunk → Chunk → Chunk) (tree : List Chunk) : Frame :=
  [(name% "hash_tree_", .chunks tree), (name% "hasher", .hasher), (name% "zero_hash_array", .chunks (zeroHashArray H)), (name% "zero_hash", .bytes zeroHash.1),
    (name% "BYTES_PER_CHUNK", .int .u32 32)] ++ consts

/-- The constants that `zero_hash_array_helper` uses, and its template argument (ssz/hashtree.cpp:42-45,55). -/
def zeroGlobals : Frame :=
  [(name% "N", .int .u64 42), (name% "zero_hash", .bytes zeroHash.1), (name% "BYTES_PER_CHUNK", .int .u32 32)] ++ consts

/-- The members of an object, its template arguments and its static constants, except for `limit_`, which the functions do not use: common/slot.hpp:34,
common/boolean.hpp:34, common/bytes.hpp:39-42, common/bitvector.hpp:35-38, common/bitlist.hpp:32, common/containers.hpp:40-43,62,99,163. The structs give
their members to the functions of `ssz::Container` as parts. -/
def fields : (t : Ty) → t.denote → Frame
  | .uint64, v => [(name% "value_", .int .u64 v.toNat)]
  | .boolean, v => [(name% "value_", .bool v)]
  | .bytes n, v => [(name% "m_arr", .bytes v.1), (name% "N", .int .u64 n)]
  | .bitvector n, v => [(name% "m_arr", .bools v.1), (name% "N", .int .u32 n)]
  | .bitlist _, v => [(name% "m_arr", .bools v)]
  | .vector t n, v => [(name% "m_arr", .objs (v.1.map fun x => ⟨t, x⟩)), (name% "N", .int .u64 n), (name% "ssz_size", .int .u64 (n * t.sszSize : Nat))]
  | .listF t _, v => [(name% "m_arr", .objs (v.map fun x => ⟨t, x⟩))]
  | .listV t _, v => [(name% "m_arr", .objs (v.map fun x => ⟨t, x⟩))]
  | .container _ _ _, _ => []

/-- The parts of a struct as objects (ssz/ssz_container.hpp:38-39). -/
def partsOf : (ps : Parts) → ps.denote → List Obj
  | .nil, _ => []
  | .cons _ t ps, v => ⟨t, v.1⟩ :: partsOf ps v.2

/-- The template argument `T` of a class (common/containers.hpp:40,96,160). -/
def elemOf : Ty → Option Ty
  | .vector t _ => some t
  | .listF t _ => some t
  | .listV t _ => some t
  | _ => none

/-- As many numbers as there are parts, from the given one on: the pointers that the struct hands over (ssz/ssz_container.hpp:38-39). -/
def indices : Parts → Nat → List Nat
  | .nil, _ => []
  | .cons _ _ ps, i => i :: indices ps (i + 1)

/-- The vector of pointers that a struct hands to `serialize_` and `deserialize_`; the other classes hand over nothing (ssz/ssz_container.hpp:38-39). -/
def pointersOf : Ty → List Val
  | .container _ _ ps => [.ptrs (indices ps 0)]
  | _ => []

/-- What these pointers point to (ssz/ssz_container.hpp:38-39). -/
def partsIn : (t : Ty) → t.denote → List Obj
  | .container _ _ ps, v => partsOf ps v
  | _, _ => []

/-- Where the text of `serialize` of a class is: common/slot.hpp, common/boolean.hpp, common/bytes.hpp, common/bitvector.hpp, common/bitlist.cpp,
common/containers.hpp, and `serialize_` in ssz/ssz_container.cpp for the structs. -/
def serializeText : Ty → Option Func
  | .uint64 => (read (codes Text.slot)).bind fun l => memberFunction l (name% "Slot") (name% "serialize")
  | .boolean => (read (codes Text.boolean)).bind fun l => memberFunction l (name% "Boolean") (name% "serialize")
  | .bytes _ => (read (codes Text.bytes)).bind fun l => memberFunction l (name% "Bytes") (name% "serialize")
  | .bitvector _ => (read (codes Text.bitvector)).bind fun l => memberFunction l (name% "Bitvector") (name% "serialize")
  | .bitlist _ => (read (codes Text.bitlistCpp)).bind fun l => freeFunction l (name% "Bitlist") (name% "serialize")
  | .vector _ _ => (read (codes Text.containers)).bind fun l => memberFunction l (name% "VectorFixedSizedParts") (name% "serialize")
  | .listF _ _ => (read (codes Text.containers)).bind fun l => memberFunction l (name% "ListFixedSizedParts") (name% "serialize")
  | .listV _ _ => (read (codes Text.containers)).bind fun l => memberFunction l (name% "ListVariableSizedParts") (name% "serialize")
  | .container _ _ _ => (read (codes Text.containerCpp)).bind fun l => freeFunction l (name% "Container") (name% "serialize_")

/-- Where the text of `deserialize` of a class is: as `serializeText` (common/slot.hpp, common/boolean.hpp, common/bytes.hpp, common/bitvector.hpp,
common/bitlist.cpp, common/containers.hpp, ssz/ssz_container.cpp). -/
def deserializeText : Ty → Option Func
  | .uint64 => (read (codes Text.slot)).bind fun l => memberFunction l (name% "Slot") (name% "deserialize")
  | .boolean => (read (codes Text.boolean)).bind fun l => memberFunction l (name% "Boolean") (name% "deserialize")
  | .bytes _ => (read (codes Text.bytes)).bind fun l => memberFunction l (name% "Bytes") (name% "deserialize")
  | .bitvector _ => (read (codes Text.bitvector)).bind fun l => memberFunction l (name% "Bitvector") (name% "deserialize")
  | .bitlist _ => (read (codes Text.bitlistCpp)).bind fun l => freeFunction l (name% "Bitlist") (name% "deserialize")
  | .vector _ _ => (read (codes Text.containers)).bind fun l => memberFunction l (name% "VectorFixedSizedParts") (name% "deserialize")
  | .listF _ _ => (read (codes Text.containers)).bind fun l => memberFunction l (name% "ListFixedSizedParts") (name% "deserialize")
  | .listV _ _ => (read (codes Text.containers)).bind fun l => memberFunction l (name% "ListVariableSizedParts") (name% "deserialize")
  | .container _ _ _ => (read (codes Text.containerCpp)).bind fun l => freeFunction l (name% "Container") (name% "deserialize_")

/-- The functions that these functions call by name: `size()` of common/containers.hpp, `compute_fixed_length` of ssz/ssz_container.cpp. -/
def calledText : Ty → List Func
  | .listV _ _ => ((read (codes Text.containers)).bind fun l => memberFunction l (name% "ListVariableSizedParts") (name% "size")).toList
  | .container _ _ _ => ((read (codes Text.containerCpp)).bind fun l => freeFunction l 0 (name% "compute_fixed_length")).toList
  | _ => []

/-- The sizes of the parts are numbers of 64 bits (`std::size_t get_ssz_size()`, ssz/ssz_container.hpp:53). -/
def SizesFit : Parts → Prop
  | .nil => True
  | .cons _ t ps => t.sszSize < 2 ^ 64 ∧ SizesFit ps

/-- The template arguments and sizes of a class are numbers of their types, and the counters `int i` of the loops over its elements reach the end:
common/bytes.hpp:39, common/bitvector.hpp:35, common/containers.hpp:40-43,163, ssz/ssz_container.hpp:53. -/
def SizeFits : Ty → Prop
  | .bytes n => n < 2 ^ 64
  | .bitvector n => n < 2 ^ 31
  | .vector t n => n < 2 ^ 31 ∧ n * t.sszSize < 2 ^ 64
  | .listF t _ => t.sszSize < 2 ^ 64
  | .container _ _ ps => SizesFit ps ∧ (indices ps 0).length < 2 ^ 64
  | _ => True

/-- A bit list has less than 2^64 bits, as its `size()` is a `std::size_t` (common/bitlist.hpp:32). -/
def CountFits : (t : Ty) → t.denote → Prop
  | .bitlist _, v => v.length < 2 ^ 64
  | _, _ => True

/-- The members of an object, its template arguments and its static constants for `hash_tree`: those of `fields`, the limit of the lists
(common/bitlist.hpp:33, common/containers.hpp:100,164), the static constant of `Slot` (common/slot.hpp:63), and the object as a whole, whose virtual function
`serialize` is called (ssz/ssz_container.cpp:109, common/containers.hpp:104). -/
def limits : Ty → Frame
  | .uint64 => [(name% "ssz_size", .int .u64 8)]
  | .bitlist l => [(name% "limit_", .int .u64 l)]
  | .listF _ l => [(name% "limit_", .int .u64 l)]
  | .listV _ l => [(name% "limit_", .int .u64 l)]
  | _ => []

/-- What the names in `hash_tree` stand for (ssz/ssz_container.cpp:108-125, common/containers.hpp:46-59,103-122,174-186, common/bitlist.cpp:35-43, ssz/ssz.hpp:31). -/
def treeFields (t : Ty) (v : t.denote) : Frame :=
  (name% "this", .obj ⟨t, v⟩) :: (limits t ++ (fields t v ++ ((name% "BYTES_PER_CHUNK", .int .u32 32) :: consts)))

/-- Where the text of `hash_tree` of a class is: common/slot.hpp, common/bitlist.cpp, common/containers.hpp; `hash_tree_` in ssz/ssz_container.cpp for the
structs, and `ssz::Container::hash_tree` there for the classes without a function of their own. -/
def hashTreeText : Ty → Option Func
  | .uint64 => (read (codes Text.slot)).bind fun l => memberFunction l (name% "Slot") (name% "hash_tree")
  | .bitlist _ => (read (codes Text.bitlistCpp)).bind fun l => freeFunction l (name% "Bitlist") (name% "hash_tree")
  | .vector _ _ => (read (codes Text.containers)).bind fun l => memberFunction l (name% "VectorFixedSizedParts") (name% "hash_tree")
  | .listF _ _ => (read (codes Text.containers)).bind fun l => memberFunction l (name% "ListFixedSizedParts") (name% "hash_tree")
  | .listV _ _ => (read (codes Text.containers)).bind fun l => memberFunction l (name% "ListVariableSizedParts") (name% "hash_tree")
  | .container _ _ _ => (read (codes Text.containerCpp)).bind fun l => freeFunction l (name% "Container") (name% "hash_tree_")
  | _ => (read (codes Text.containerCpp)).bind fun l => freeFunction l (name% "Container") (name% "hash_tree")

/-- The functions that these functions call by name: `hash_tree_x` for the template argument (common/containers.hpp:46,48,103,110) and
`ssz::Container::hash_tree` (ssz/ssz_container.cpp:108). -/
def hashTreeCalled : Ty → List Func
  | .vector t _ =>
    ((read (codes Text.containers)).bind fun l => constrainedFunction l (name% "VectorFixedSizedParts") (name% "hash_tree_x") (isBasicObject t)).toList ++
      ((read (codes Text.containerCpp)).bind fun l => freeFunction l (name% "Container") (name% "hash_tree")).toList
  | .listF t _ =>
    ((read (codes Text.containers)).bind fun l => constrainedFunction l (name% "ListFixedSizedParts") (name% "hash_tree_x") (isBasicObject t)).toList
  | _ => []

/-- The members of a struct under their names (beacon-chain/validator.hpp:32-36, beacon-chain/attestation.hpp:35-38,53-55). -/
def memberFrame : (ps : Parts) → ps.denote → Frame
  | .nil, _ => []
  | .cons name t ps, v => (numberOf name, .obj ⟨t, v.1⟩) :: memberFrame ps v.2

/-- What the names in the member functions of a struct stand for: the object as a whole, its members, and the constants of config/constants.hpp:29,33 that
the functions use (beacon-chain/validator.cpp:37-46, beacon-chain/attestation.cpp:36-39,67-72). -/
def structGlobals : (t : Ty) → t.denote → Frame
  | .container z o ps, v => (name% "this", .obj ⟨.container z o ps, v⟩) :: (memberFrame ps v ++
      [(name% "FAR_FUTURE_EPOCH", .obj ⟨.uint64, FAR_FUTURE_EPOCH⟩), (name% "MAX_EFFECTIVE_BALANCE", .obj ⟨.uint64, MAX_EFFECTIVE_BALANCE⟩)])
  | _, _ => []

/-- Where the text of a member function of `Validator` is: beacon-chain/validator.cpp. -/
def validatorText (n : Nat) : Option Func := (read (codes Text.validatorCpp)).bind fun l => freeFunction l (name% "Validator") n

/-- Where the text of a member function of `AttestationData` or `IndexedAttestation` is: beacon-chain/attestation.cpp. -/
def attestationText (cls n : Nat) : Option Func := (read (codes Text.attestationCpp)).bind fun l => freeFunction l cls n

/-- Where the text of a static member function of `Hasher` is: ssz/hasher.cpp. -/
def hasherText (n : Nat) : Option Func := (read (codes Text.hasherCpp)).bind fun l => freeFunction l (name% "Hasher") n

/-- Where the text of the constructor of `Hasher` that takes an `IMPL` is: ssz/hasher.cpp. -/
def hasherConstructor : Option Func := (read (codes Text.hasherCpp)).bind fun l => (constructors l (name% "Hasher")).bind fun fs => fs[0]?

/-- Where the text of the constructor of `Hasher` without arguments is: ssz/hasher.hpp. -/
def hasherDefaultText : Option Func := (read (codes Text.hasherHpp)).bind fun l => constructorIn l (name% "Hasher")

/-- Where the text of the operators of `Hasher::IMPL` is: ssz/hasher.hpp. -/
def implOperator (c : Nat) : Option Func := (read (codes Text.hasherHpp)).bind fun l => (operatorFunctions l (name% "Hasher") c).bind fun fs => fs[0]?

/-- The enumerators of `Hasher::IMPL` with their values, from the text of ssz/hasher.hpp:36-42. -/
def implEnumerators : Option (List (Nat × Nat)) := (read (codes Text.hasherHpp)).bind fun l => enumeratorsIn l (name% "Hasher") (name% "IMPL")

/-- What the names in the functions of `Hasher` stand for: the processor, the constants of ssz/hasher.cpp:30 and of `<cpuid.h>`, the functions of
ssz/hasher.hpp:70-73, and the member of ssz/hasher.hpp:67, which only the constructors use. -/
def hasherGlobals (cpu : Cpu) (m : Val) : Frame :=
  [(name% "cpuid", .cpu cpu), (name% "CPUID_LEAF", .int .i32 7), (name% "bit_SHA", .int .i32 (2 ^ 29)), (name% "bit_AVX2", .int .i32 (2 ^ 5)),
    (name% "bit_AVX", .int .i32 (2 ^ 28)), (name% "bit_SSE3", .int .i32 1), (name% "sha256_shani", .routine .shani), (name% "sha256_8_avx2", .routine .avx2),
    (name% "sha256_4_avx", .routine .avx), (name% "sha256_sse", .routine .sse),
    (name% "_hash_64b_blocks", m)]

/-- The two arrays that `sha256_sse` works on, and the constant that it uses (ssz/hasher.cpp:34-41, ssz/ssz.hpp:31). -/
def sseGlobals (inp out : List Byte) : Frame :=
  [(name% "BYTES_PER_CHUNK", .int .u32 32), (name% "to", .bytes out), (name% "from", .bytes inp)]

/-- Where the text of a function of `Bytes` is: common/bytes.hpp. -/
def bytesText (n : Nat) : Option Func := (read (codes Text.bytes)).bind fun l => memberFunction l (name% "Bytes") n

/-- Where the text of the operators of `Bytes` is: common/bytes.hpp; `k` is which one of those with this symbol. -/
def bytesOperator (c k : Nat) : Option Func := (read (codes Text.bytes)).bind fun l => (operatorFunctions l (name% "Bytes") c).bind fun fs => fs[k]?

/-- Where the text of a function of the namespace `helpers` is: helpers/bytes_to_int.hpp. -/
def helperText (n : Nat) : Option Func := (read (codes Text.bytesToInt)).bind fun l => freeFunction l 0 n

/-- Where the text of the constructor and of `operator[]` of `Table` is: helpers/bytes_to_int.hpp. -/
def tableText : Option Func × Option Func :=
  ((read (codes Text.bytesToInt)).bind fun l => constructorIn l (name% "Table"),
   (read (codes Text.bytesToInt)).bind fun l => (operatorFunctions l (name% "Table") (name% "[]")).bind fun fs => fs[0]?)

/-- What the names in the operators of `Bytes<N>` stand for: the template arguments, the other operand, which is known as a parameter, and the contents
(common/bytes.hpp:39-42,115-139). -/
def bytesGlobals (N M : Nat) (a b : Val) : Frame := [(name% "N", .int .u64 N), (name% "M", .int .u64 M), (name% "other", b), (name% "m_arr", a)]

/-- What the names in the functions that read hexadecimal digits stand for: the template argument of `Bytes` and the table
(common/bytes.hpp:39, helpers/bytes_to_int.hpp:55). -/
def hexGlobals (N : Nat) : Frame := [(name% "N", .int .u64 N), (name% "table", .table (hexTable.map Int.ofNat))]

/-- The functions that `bytes_from_str` calls: `chars_to_byte` of common/bytes.hpp:55, `strhex2int` and `hextoint` of helpers/bytes_to_int.hpp:67-73. -/
def hexCalled : List Func :=
  (bytesText (name% "chars_to_byte")).toList ++ ((helperText (name% "strhex2int")).toList ++ (helperText (name% "hextoint")).toList)

/-- Where the text of `from_hexstring` is: common/bitlist.cpp and common/bitvector.hpp. -/
def hexstringText : Ty → Option Func
  | .bitlist _ => (read (codes Text.bitlistCpp)).bind fun l => freeFunction l (name% "Bitlist") (name% "from_hexstring")
  | .bitvector _ => (read (codes Text.bitvector)).bind fun l => memberFunction l (name% "Bitvector") (name% "from_hexstring")
  | _ => none

/-- What the names in `Bitlist::from_hexstring` stand for: the object, whose virtual function `deserialize` is called, and the table
(common/bitlist.cpp:67-78, helpers/bytes_to_int.hpp:55). -/
def bitlistHexGlobals (limit : Nat) (v : List Bool) : Frame :=
  [(name% "this", .obj ⟨.bitlist limit, v⟩), (name% "table", .table (hexTable.map Int.ofNat))]

/-- What the names in `Bitvector<N>::from_hexstring` stand for: the bits, the template argument, the constants and the table
(common/bitvector.hpp:35-38,47-61, helpers/bytes_to_int.hpp:55). -/
def bitvectorHexGlobals (N : Nat) (v : List Bool) : Frame :=
  (name% "m_arr", .bools v) :: (name% "N", .int .u32 N) :: (name% "table", .table (hexTable.map Int.ofNat)) :: consts

/-- Where the text of `to_string` is: common/bitlist.cpp and common/bitvector.hpp. -/
def toStringText : Ty → Option Func
  | .bitlist _ => (read (codes Text.bitlistCpp)).bind fun l => freeFunction l (name% "Bitlist") (name% "to_string")
  | .bitvector _ => (read (codes Text.bitvector)).bind fun l => memberFunction l (name% "Bitvector") (name% "to_string")
  | _ => none

/-- What the names in `to_string` stand for: the object, whose virtual function `serialize` is called, `std::cout` with some format, `std::hex`
(common/bitlist.cpp:80-88, common/bitvector.hpp:63-72). -/
def streamGlobals (t : Ty) (v : t.denote) (flags : Nat) : Frame :=
  [(name% "this", .obj ⟨t, v⟩), (name% "cout", .stream 32#8 0 flags []), (name% "hex", .manip 2 16)]

end Mammon.Cpp
