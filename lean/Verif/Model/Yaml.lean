import Verif.Model.Codec
import Verif.Model.BytesOps
/-!
# YAML: `encode()` and `decode()` of every class

`yaml-cpp` is not part of the repository; what the code uses of it (building trees, `node[key]`, the conversions of scalars, sequences and
arrays) is modelled here from its documentation and behaviour. Text is not modelled: `encode` yields a tree and `decode` reads one. A string is the
list of its characters, given as bytes. The contents of an object after an exception are not modelled.
-/

namespace Mammon.Yaml

/-- `YAML::Node`, by `YAML::NodeType`. Keys of maps are nodes (yaml-cpp). Aliasing of nodes does not occur: `encode` builds fresh ones
(ssz/ssz_container.cpp:127-136). -/
inductive Node
  | null
  | scalar (s : List Byte)
  | seq (l : List Node)
  | map (l : List (Node × Node))

/-- A `const YAML::Node` as returned by `node[key]`: a node, or the invalid node standing for a missing key (yaml-cpp) (ssz/ssz_container.cpp:129).
-/
abbrev Handle := Option Node

/-- `node.IsScalar()`, `node.Scalar()`: `Type()` of an invalid node throws `YAML::InvalidNode` (yaml-cpp) (common/slot.hpp:66-68,
common/bytes.hpp:152-161). -/
def scalar? (h : Handle) : Out (Option (List Byte)) :=
  match h with
  | none => .throws .yamlInvalidNode
  | some (.scalar s) => .ok (some s)
  | some _ => .ok none

/-- `node.IsSequence()` and the elements; as `scalar?` for an invalid node (yaml-cpp) (common/containers.hpp:92-93,156-157,231-232). -/
def seq? (h : Handle) : Out (Option (List Node)) :=
  match h with
  | none => .throws .yamlInvalidNode
  | some (.seq l) => .ok (some l)
  | some _ => .ok none

/-- Whether the key of a map entry equals the given string: it must be a scalar (`node_data::equals`, yaml-cpp) (ssz/ssz_container.cpp:129,134). -/
def keyIs (key : List Byte) : Node → Bool
  | .scalar s => s == key
  | _ => false

/-- `node[key]` for a string key on a `const` node (yaml-cpp; used in ssz/ssz_container.cpp:129): the value of the first entry with that key, the
invalid node if there is none or if the node is null or a sequence. Subscripting a scalar throws `YAML::BadSubscript`, subscripting the
invalid node throws `YAML::InvalidNode`. -/
def subscript (h : Handle) (key : List Byte) : Out Handle :=
  match h with
  | none => .throws .yamlInvalidNode
  | some .null => .ok none
  | some (.seq _) => .ok none
  | some (.scalar _) => .throws .yamlBadSubscript
  | some (.map l) => .ok ((l.find? fun e => keyIs key e.1).map (·.2))

/-- `node[key] = value` for a string key on a node that is null or a map (yaml-cpp; used in ssz/ssz_container.cpp:134): replaces the value
of the first entry with that key, or appends an entry. -/
def assignIn (key : List Byte) (value : Node) : List (Node × Node) → List (Node × Node)
  | [] => [(.scalar key, value)]
  | e :: es => if keyIs key e.1 then (e.1, value) :: es else e :: assignIn key value es

/-- As `assignIn`, on a node. The other kinds of nodes do not occur in `Container::encode_` (ssz/ssz_container.cpp:134). -/
def assign (node : Node) (key : List Byte) (value : Node) : Node :=
  match node with
  | .map l => .map (assignIn key value l)
  | _ => .map [(.scalar key, value)]

/-- The characters of a string literal (part names are ASCII) (ssz/ssz_container.cpp:129,134). -/
def chars (s : String) : List Byte := s.toList.map fun c => BitVec.ofNat 8 c.toNat

/-! ## Scalars -/

/-- `stream << value` for an unsigned integer (std): decimal digits without leading zeros (common/slot.hpp:66). -/
def decimal (n : Nat) : List Byte :=
  if n < 10 then [BitVec.ofNat 8 (0x30 + n)] else decimal (n / 10) ++ [BitVec.ofNat 8 (0x30 + n % 10)]

/-- The value of a digit in the given base (std, `num_get`): letters of both cases (common/slot.hpp:67). -/
def digitOf (base : Nat) (c : Byte) : Option Nat :=
  let d :=
    if 0x30 ≤ c.toNat ∧ c.toNat ≤ 0x39 then some (c.toNat - 0x30)
    else if 0x41 ≤ c.toNat ∧ c.toNat ≤ 0x46 then some (c.toNat - 0x41 + 10)
    else if 0x61 ≤ c.toNat ∧ c.toNat ≤ 0x66 then some (c.toNat - 0x61 + 10)
    else none
  d.bind fun v => if v < base then some v else none

/-- Accumulates digits as long as there are some (std, `num_get`); result: the value without bound, whether there was a digit, and the rest
(common/slot.hpp:67). -/
def takeDigits (base : Nat) : List Byte → (acc : Nat) → (found : Bool) → Nat × Bool × List Byte
  | [], acc, found => (acc, found, [])
  | c :: cs, acc, found =>
    match digitOf base c with
    | some d => takeDigits base cs (acc * base + d) true
    | none => (acc, found, c :: cs)

/-- The digits of a number without `basefield` set (std, `num_get`): `0x` or `0X` for base 16, a leading `0` for base 8, otherwise base 10
(common/slot.hpp:67). -/
def takeNumber (s : List Byte) : Nat × Bool × List Byte :=
  match s with
  | 0x30#8 :: 0x78#8 :: cs => takeDigits 16 cs 0 false
  | 0x30#8 :: 0x58#8 :: cs => takeDigits 16 cs 0 false
  | 0x30#8 :: cs => takeDigits 8 cs 0 true
  | cs => takeDigits 10 cs 0 false

/-- `std::isspace` in the C locale (std) (common/slot.hpp:67). -/
def isSpace (c : Byte) : Bool := c == 0x20#8 || (decide (0x09 ≤ c.toNat) && decide (c.toNat ≤ 0x0d))

/-- `convert<std::uint64_t>::decode` of a scalar (yaml-cpp): rejects a leading `-`, reads a number with `operator>>` (no white space skipped in
front, an optional `+`), which must be followed by white space only. `rhs` is assigned 0 if there is no number, the maximum if the number is too
large (common/slot.hpp:67). -/
def readU64 (s : List Byte) (old : BitVec 64) : Bool × BitVec 64 :=
  match s with
  | 0x2d#8 :: _ => (false, old)
  | s =>
    let body := match s with
      | 0x2b#8 :: cs => cs
      | cs => cs
    match takeNumber body with
    | (_, false, _) => (false, 0#64)
    | (n, true, rest) => if 2 ^ 64 ≤ n then (false, BitVec.ofNat 64 (2 ^ 64 - 1)) else (rest.all isSpace, BitVec.ofNat 64 n)

/-- Lower case ASCII letter (yaml-cpp) (common/boolean.hpp:56). -/
def isLower (c : Byte) : Bool := decide (0x61 ≤ c.toNat) && decide (c.toNat ≤ 0x7a)
/-- Upper case ASCII letter (yaml-cpp) (common/boolean.hpp:56). -/
def isUpper (c : Byte) : Bool := decide (0x41 ≤ c.toNat) && decide (c.toNat ≤ 0x5a)
/-- To lower case (yaml-cpp) (common/boolean.hpp:56). -/
def toLower (c : Byte) : Byte := if isUpper c then c + 0x20#8 else c

/-- `IsFlexibleCase` (yaml-cpp): lower case, upper case or capitalised (common/boolean.hpp:56). -/
def isFlexibleCase (s : List Byte) : Bool :=
  match s with
  | [] => true
  | c :: cs => (c :: cs).all isLower || (isUpper c && (cs.all isLower || cs.all isUpper))

/-- `convert<bool>::decode` of a scalar (yaml-cpp) (common/boolean.hpp:56). -/
def readBool (s : List Byte) : Option Bool :=
  if !isFlexibleCase s then none
  else if s.map toLower ∈ [chars "y", chars "yes", chars "true", chars "on"] then some true
  else if s.map toLower ∈ [chars "n", chars "no", chars "false", chars "off"] then some false
  else none

/-- `convert<bool>::encode` (yaml-cpp) (common/boolean.hpp:55). -/
def writeBool (b : Bool) : List Byte := if b then chars "true" else chars "false"

/-! ## Bit fields -/

/-- The loop of `from_hexstring` (common/bitvector.hpp:53-56, common/bitlist.cpp:73-76) on the characters from index `offset` on, two at a time: the byte
`(hextoint(str[offset]) << 4) + hextoint(str[offset + 1])`. The length is even. -/
def hexPairs : List Byte → Out (List Byte)
  | c :: d :: cs => (hextoint c).bind fun x => (hextoint d).bind fun y => (hexPairs cs).map fun bs => BitVec.ofNat 8 (x * 16 + y) :: bs
  | _ => .ok []

/-- The checks and the loop of `from_hexstring` (common/bitvector.hpp:48-56, common/bitlist.cpp:68-76). The `int` counter overflows on strings of `2 ^ 31`
characters or more. -/
def hexString (s : List Byte) : Out (List Byte) :=
  if s.take 2 ≠ [0x30#8, 0x78#8] then .throws .invalidArgument
  else if s.length % 2 ≠ 0 then .throws .invalidArgument
  else if 2 ^ 31 ≤ s.length then .ub
  else hexPairs (s.drop 2)

/-- `Bitlist::from_hexstring` (common/bitlist.cpp:67-78). The result of `deserialize` is ignored. -/
def bitlistFromHex (s : List Byte) : Out (List Bool) := (hexString s).bind fun hex => (bitlistDeserialize hex).map (·.2)

/-- The inner loop of `Bitvector<N>::from_hexstring` (common/bitvector.hpp:59-60); the index is computed in `unsigned int`. -/
def hexStoreByte (n i : Nat) (b : Byte) (arr : List Bool) : List Bool :=
  (List.range BITS_PER_BYTE).foldl
    (fun arr j =>
      let k := (BITS_PER_BYTE * i + j) % 2 ^ 32
      if k < n then arr.set k ((b >>> j) &&& 1#8 == 1#8) else arr) arr

/-- The outer loop (common/bitvector.hpp:58). When the condition `8 * i + j < N` of the inner loop fails at some `j`, it also fails at the following
ones of the same byte (8 divides 2 ^ 32), so leaving the loop and skipping the store are the same. -/
def hexStoreFrom (n : Nat) : Nat → List Byte → List Bool → List Bool
  | _, [], arr => arr
  | i, b :: bs, arr => hexStoreFrom n (i + 1) bs (hexStoreByte n i b arr)

theorem length_hexStoreFrom (n : Nat) (bs : List Byte) (i : Nat) (arr : List Bool) : (hexStoreFrom n i bs arr).length = arr.length := by
  have h1 : ∀ i b arr, (hexStoreByte n i b arr).length = arr.length := by
    intro i b arr
    unfold hexStoreByte
    generalize List.range BITS_PER_BYTE = l
    induction l generalizing arr with
    | nil => rfl
    | cons j l ih =>
      simp only [List.foldl_cons, ih]
      split <;> simp
  induction bs generalizing i arr with
  | nil => rfl
  | cons b bs ih => simp only [hexStoreFrom, ih, h1]

/-- `Bitvector<N>::from_hexstring` (common/bitvector.hpp:47-61). -/
def bitvectorFromHex (n : Nat) (s : List Byte) : Out (Vec Bool n) :=
  (hexString s).map fun hex =>
    ⟨hexStoreFrom n 0 hex (List.replicate n false), (length_hexStoreFrom n hex 0 _).trans List.length_replicate⟩

/-- `to_string` of `Bitvector` and `Bitlist` (common/bitvector.hpp:63-72, common/bitlist.cpp:80-88), given the serialization: `*i` is an `unsigned char`,
so the stream inserts that character itself, padded with a `0` to width 2; `std::hex` has no effect. -/
def rawString (serial : List Byte) : List Byte := [0x30#8, 0x78#8] ++ serial.flatMap fun b => [0x30#8, b]

/-! ## Objects -/

/-- The loop of `YAML::convert<std::vector<T>>::encode` and `<std::array<T, N>>::encode` (yaml-cpp; used in common/containers.hpp:92,156,231), where `f` is
`encode()` of an element. -/
def encodeElems {α : Type} (f : α → Out Node) : List α → Out (List Node)
  | [] => .ok []
  | x :: xs => (f x).bind fun n => (encodeElems f xs).map fun ns => n :: ns

/-- `node.as<T>()` (yaml-cpp): decodes into a default-constructed object and throws `YAML::TypedBadConversion` if that returns false. `f` is
`decode` on
such an object (common/containers.hpp:92-93,156-157,231-232). -/
def asT {α : Type} (f : Handle → Out (Bool × α)) (n : Node) : Out α :=
  (f (some n)).bind fun (b, v) => if b then .ok v else .throws .yamlBadConversion

/-- `for (elem : node) rhs.push_back(elem.as<T>())` and `rhs[i] = node[i].as<T>()` (yaml-cpp) (common/containers.hpp:92-93,156-157,231-232). -/
def decodeElems {α : Type} (f : Handle → Out (Bool × α)) : List Node → Out (List α)
  | [] => .ok []
  | n :: ns => (asT f n).bind fun v => (decodeElems f ns).map fun vs => v :: vs

mutual
/-- `encode()` of each class: common/slot.hpp:66, common/boolean.hpp:55, common/bytes.hpp:152-155, common/bitvector.hpp:93-96, common/bitlist.cpp:90-93,
common/containers.hpp:92,156,231, and `Container::encode_` (ssz/ssz_container.cpp:132-136) for the structs. `toText` is `helpers::bytes_to_string`, whose
header is missing from the repository. -/
def encode (toText : List Byte → List Byte) : (t : Ty) → t.denote → Out Node
  | .uint64, v => .ok (.scalar (decimal v.toNat))
  | .boolean, v => .ok (.scalar (writeBool v))
  | .bytes _, v => .ok (.scalar (toText v.1))
  | .bitvector n, v => (serialize (.bitvector n) v).map fun bs => .scalar (rawString bs)
  | .bitlist limit, v => (serialize (.bitlist limit) v).map fun bs => .scalar (rawString bs)
  | .vector t _, v => (encodeElems (fun x => encode toText t x) v.1).map .seq
  | .listF t _, v => (encodeElems (fun x => encode toText t x) v).map .seq
  | .listV t _, v => (encodeElems (fun x => encode toText t x) v).map .seq
  | .container _ _ ps, v => encodeParts toText ps v .null

/-- The loop of `Container::encode_` (ssz/ssz_container.cpp:134); `node` is the tree built so far. -/
def encodeParts (toText : List Byte → List Byte) : (ps : Parts) → ps.denote → Node → Out Node
  | .nil, _, node => .ok node
  | .cons name t ps, v, node => (encode toText t v.1).bind fun n => encodeParts toText ps v.2 (assign node (chars name) n)
end

/-- A decoded array: exactly `n` elements (common/containers.hpp:92-93). -/
def toVec {α : Type} (n : Nat) (old : Vec α n) (l : List α) : Vec α n := if h : l.length = n then ⟨l, h⟩ else old

mutual
/-- `decode(node)` of each class, given the previous contents: the return value and the contents afterwards. common/slot.hpp:67, common/boolean.hpp:56,
common/bytes.hpp:156-161, common/bitvector.hpp:97-102, common/bitlist.cpp:94-99, common/containers.hpp:93,157,232 (with
`convert<std::array<T, N>>::decode`, which returns false unless the node is a sequence of `N` elements, and `convert<std::vector<T>>::decode`, which
returns false unless it is a sequence), and `Container::decode_` (ssz/ssz_container.cpp:127-130) for the structs. -/
def decode : (t : Ty) → t.denote → Handle → Out (Bool × t.denote)
  | .uint64, old, h => (scalar? h).map fun
    | some s => readU64 s old
    | none => (false, old)
  | .boolean, old, h => (scalar? h).map fun
    | some s => match readBool s with
      | some b => (true, b)
      | none => (false, old)
    | none => (false, old)
  | .bytes n, old, h => (scalar? h).bind fun
    | some s => (bytesFromStr n s).map fun l => (true, toVec n old l)
    | none => .ok (false, old)
  | .bitvector n, old, h => (scalar? h).bind fun
    | some s => (bitvectorFromHex n s).map fun v => (true, v)
    | none => .ok (false, old)
  | .bitlist _, old, h => (scalar? h).bind fun
    | some s => (bitlistFromHex s).map fun v => (true, v)
    | none => .ok (false, old)
  | .vector t n, old, h => (seq? h).bind fun
    | some l => if l.length = n then (decodeElems (fun x => decode t t.dflt x) l).map fun vs => (true, toVec n old vs) else .ok (false, old)
    | none => .ok (false, old)
  | .listF t _, old, h => (seq? h).bind fun
    | some l => (decodeElems (fun x => decode t t.dflt x) l).map fun vs => (true, vs)
    | none => .ok (false, old)
  | .listV t _, old, h => (seq? h).bind fun
    | some l => (decodeElems (fun x => decode t t.dflt x) l).map fun vs => (true, vs)
    | none => .ok (false, old)
  | .container _ _ ps, old, h => decodeParts ps old h

/-- `Container::decode_` (ssz/ssz_container.cpp:127-130): `std::all_of` stops at the first part whose `decode` returns false. -/
def decodeParts : (ps : Parts) → ps.denote → Handle → Out (Bool × ps.denote)
  | .nil, _, _ => .ok (true, ())
  | .cons name t ps, old, h =>
    (subscript h (chars name)).bind fun x => (decode t old.1 x).bind fun (b, v) =>
      if b then (decodeParts ps old.2 h).map fun (b, vs) => (b, (v, vs)) else .ok (false, (v, old.2))
end

end Mammon.Yaml
