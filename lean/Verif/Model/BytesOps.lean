import Verif.Model.Basic
/-!
# `helpers/bytes_to_int.hpp` and the constructors and operators of `eth::Bytes<N>` (`common/bytes.hpp`)

A string is the list of its characters, given as bytes; `char` is signed on x86-64, so a character of value 128 or more is a negative `char`.
-/

namespace Mammon

/-- `Table` (helpers/bytes_to_int.hpp:28-55): 128 entries, 0 except at the characters of the hexadecimal digits. -/
def hexTable : List Nat :=
  (List.range 128).map fun c =>
    if c = 0x31 then 1 else if c = 0x32 then 2 else if c = 0x33 then 3 else if c = 0x34 then 4 else if c = 0x35 then 5
    else if c = 0x36 then 6 else if c = 0x37 then 7 else if c = 0x38 then 8 else if c = 0x39 then 9
    else if c = 0x61 then 10 else if c = 0x41 then 10 else if c = 0x62 then 11 else if c = 0x42 then 11
    else if c = 0x63 then 12 else if c = 0x43 then 12 else if c = 0x64 then 13 else if c = 0x44 then 13
    else if c = 0x65 then 14 else if c = 0x45 then 14 else if c = 0x66 then 15 else if c = 0x46 then 15 else 0

/-- `hextoint` (helpers/bytes_to_int.hpp:54,67). A negative `char` converts to a huge `size_t`: reading outside `tab` is undefined. -/
def hextoint (c : Byte) : Out Nat :=
  match hexTable[c.toNat]? with
  | some v => .ok v
  | none => .ub

/-- The loop of `strhex2int` (helpers/bytes_to_int.hpp:71) on the characters in reverse order. Overflow of `int` is undefined. -/
def strhexLoop : List Byte → (j ret : Nat) → Out Nat
  | [], _, ret => .ok ret
  | c :: cs, j, ret =>
    (hextoint c).bind fun h =>
    if h * j < 2 ^ 31 ∧ ret + h * j < 2 ^ 31 ∧ j * 16 < 2 ^ 31 then strhexLoop cs (j * 16) (ret + h * j) else .ub

/-- `strhex2int` (helpers/bytes_to_int.hpp:69-73). The conversion of the size to `int` is not modelled: the function is called with at most two
characters. -/
def strhex2int (s : List Byte) : Out Nat := strhexLoop s.reverse 1 0

/-- `Bytes::chars_to_byte` (common/bytes.hpp:55-57). -/
def charsToByte (s : List Byte) : Out Byte := (strhex2int s).map (BitVec.ofNat 8)

/-- The loop of `bytes_from_str` (common/bytes.hpp:65): `i` runs over 2, 4, ...; writing past `ret_arr` is undefined. `int i` is compared with a
`size_t`; it is modelled without bound (it is at most `2 * N + 3`). -/
def fromStrLoop (str : List Byte) (i : Nat) (ret : List Byte) : Out (List Byte) :=
  if i < str.length then
    (charsToByte ((str.drop i).take 2)).bind fun b =>
    if i / 2 - 1 < ret.length then fromStrLoop str (i + 2) (ret.set (i / 2 - 1) b) else .ub
  else .ok ret
termination_by str.length - i

/-- `Bytes<N>::bytes_from_str` (common/bytes.hpp:59-67), called by the constructors from strings (71-72) and `from_string` (102). -/
def bytesFromStr (N : Nat) (str : List Byte) : Out (List Byte) :=
  if str.take 2 ≠ [0x30#8, 0x78#8] then .throws .invalidArgument
  else if str.length > 2 * N + 2 then .throws .outOfRange
  else fromStrLoop str 2 (List.replicate N 0#8)

/-- `Bytes<N>::bytes_from_int` (common/bytes.hpp:45-53) of a value of `k` bytes with object representation `leBytes k n`; the constructor (73-74)
requires `k ≤ N`, copying more bytes than `ret` holds would be undefined. -/
def bytesFromInt (N k n : Nat) : Out (List Byte) :=
  if k ≤ N then .ok (leBytes k n ++ List.replicate (N - k) 0#8) else .ub

/-- `Bytes<N>::to_integer_little_endian<T>` with `sizeof(T) == N` (common/bytes.hpp:105-109). -/
def toIntegerLittleEndian {N : Nat} (a : BytesN N) : Nat := fromLE a.1

/-- The loop of `operator^=` (common/bytes.hpp:116) over the indices in `is`. -/
def xorLoop (b : List Byte) : List Nat → List Byte → Out (List Byte)
  | [], a => .ok a
  | i :: is, a =>
    match a[i]?, b[i]? with
    | some x, some y => xorLoop b is (a.set i (x ^^^ y))
    | _, _ => .ub

/-- `Bytes<N>::operator^=` (common/bytes.hpp:115-117): the new contents of `*this`. `int i < N` assumes `N < 2 ^ 31`. -/
def xorAssign {N : Nat} (a b : BytesN N) : Out (List Byte) := xorLoop b.1 (List.range N) a.1

/-- `Bytes<N>::operator==(Bytes<M>)` (common/bytes.hpp:119-123). For `N ≠ M` the last line does not compile, so only `N = M` occurs. -/
def bytesEq {N M : Nat} (a : BytesN N) (b : BytesN M) : Bool := if N ≠ M then false else a.1 == b.1

/-- The loop of `operator==(std::vector)` (common/bytes.hpp:127-129) over the indices in `is`. -/
def eqVecLoop (a r : List Byte) : List Nat → Out Bool
  | [] => .ok true
  | i :: is =>
    match a[i]?, r[i]? with
    | some x, some y => if x ≠ y then .ok false else eqVecLoop a r is
    | _, _ => .ub

/-- `Bytes<N>::operator==(std::vector<std::uint8_t>)` (common/bytes.hpp:125-130). -/
def bytesEqVec {N : Nat} (a : BytesN N) (r : List Byte) : Out Bool :=
  if N ≠ r.length then .ok false else eqVecLoop a.1 r (List.range N)

/-- `std::copy` of `src` into the buffer `dst` at index `i` (std; used in common/bytes.hpp:135-136): writing past the end is undefined. -/
def copyInto (dst src : List Byte) (i : Nat) : Out (List Byte) :=
  if i + src.length ≤ dst.length then .ok (dst.take i ++ src ++ dst.drop (i + src.length)) else .ub

/-- `Bytes<N>::operator+` (common/bytes.hpp:132-138). `init` is the uninitialised array `ret`. -/
def bytesConcat {N M : Nat} (init : BytesN (N + M)) (a : BytesN N) (b : BytesN M) : Out (List Byte) :=
  (copyInto init.1 a.1 0).bind fun r => copyInto r b.1 N

end Mammon
