import Verif.Model.Types
/-!
# Bit vectors and bit lists (common/bitvector.hpp, common/bitlist.cpp)
-/

namespace Mammon

/-- The statement `ret[i / 8] |= m_arr[i] << (i % 8)`: the `bool` is promoted to `int`, shifted, and the result truncated to a byte
(common/bitvector.hpp:80, common/bitlist.cpp:38,48). -/
def orBit (ret : List Byte) (i : Nat) (b : Bool) : List Byte :=
  ret.modify (i / BITS_PER_BYTE) (fun x => x ||| ((if b then 1#8 else 0#8) <<< (i % BITS_PER_BYTE)))

/-- The loop `for (int i = 0; i < size; ++i) ret[i / 8] |= m_arr[i] << (i % 8)`, starting at index `i` (common/bitvector.hpp:80,
common/bitlist.cpp:38,47-48). -/
def orBitsFrom (ret : List Byte) : Nat → List Bool → List Byte
  | _, [] => ret
  | i, b :: bs => orBitsFrom (orBit ret i b) (i + 1) bs

/-- `Bitvector<N>::serialize` (common/bitvector.hpp:78-82). -/
def bitvectorSerialize (n : Nat) (bits : List Bool) : List Byte :=
  orBitsFrom (List.replicate ((n + BITS_PER_BYTE - 1) / BITS_PER_BYTE) 0#8) 0 bits

/-- The inner loop of `Bitvector<N>::deserialize` for the byte at distance `i` (common/bitvector.hpp:86-88):
`m_arr[8 * i + j] = *i & (1 << j)` for `j < 8` while `8 * i + j < N`. -/
def bitvectorStoreByte (n i : Nat) (b : Byte) (arr : List Bool) : List Bool :=
  (List.range BITS_PER_BYTE).foldl
    (fun arr j => if BITS_PER_BYTE * i + j < n then arr.set (BITS_PER_BYTE * i + j) (b &&& (1#8 <<< j) != 0#8) else arr) arr

/-- The outer loop of `Bitvector<N>::deserialize` (common/bitvector.hpp:85). -/
def bitvectorStoreFrom (n : Nat) : Nat → List Byte → List Bool → List Bool
  | _, [], arr => arr
  | i, b :: bs, arr => bitvectorStoreFrom n (i + 1) bs (bitvectorStoreByte n i b arr)

theorem length_bitvectorStoreByte (n i : Nat) (b : Byte) (arr : List Bool) :
    (bitvectorStoreByte n i b arr).length = arr.length := by
  unfold bitvectorStoreByte
  generalize List.range BITS_PER_BYTE = l
  induction l generalizing arr with
  | nil => rfl
  | cons j l ih =>
    simp only [List.foldl_cons, ih]
    split <;> simp

theorem length_bitvectorStoreFrom (n : Nat) (bs : List Byte) (i : Nat) (arr : List Bool) :
    (bitvectorStoreFrom n i bs arr).length = arr.length := by
  induction bs generalizing i arr with
  | nil => rfl
  | cons b bs ih => simp only [bitvectorStoreFrom, ih, length_bitvectorStoreByte]

/-- `Bitvector<N>::deserialize` (common/bitvector.hpp:83-90). -/
def bitvectorDeserialize (n : Nat) (old : Vec Bool n) (bs : List Byte) : Out (Bool × Vec Bool n) :=
  if bs.length ≠ (n + BITS_PER_BYTE - 1) / BITS_PER_BYTE then .ok (false, old)
  else .ok (true, ⟨bitvectorStoreFrom n 0 bs old.1, (length_bitvectorStoreFrom n bs 0 old.1).trans old.2⟩)

/-- `Bitlist::serialize` (common/bitlist.cpp:45-51), for lists short enough for the `int` loop counter (see `serializeUB`). -/
def bitlistSerialize (bits : List Bool) : List Byte :=
  let ret := orBitsFrom (List.replicate (bits.length / BITS_PER_BYTE + 1) 0#8) 0 bits
  ret.modify (ret.length - 1) (fun x => x ||| (1#8 <<< (bits.length % BITS_PER_BYTE)))

/-- `std::countl_zero` of a byte (std; used in common/bitlist.cpp:55). -/
def countlZero8 (b : Byte) : Nat :=
  if b = 0#8 then 8 else 7 - Nat.log2 b.toNat

/-- The eight (or fewer) `m_arr.push_back((*i >> j) & 1)` for `j < k` (common/bitlist.cpp:59,61). -/
def pushBits (b : Byte) (k : Nat) (arr : List Bool) : List Bool :=
  (List.range k).foldl (fun arr j => arr ++ [(b >>> j) &&& 1#8 == 1#8]) arr

/-- The bound `BITS_PER_BYTE - 1 - msb` of common/bitlist.cpp:61: `unsigned` arithmetic, so it wraps for `msb = 8`. -/
def bitlistTailBound (msb : Nat) : BitVec 32 := BitVec.ofNat 32 (BITS_PER_BYTE - 1) - BitVec.ofNat 32 msb

/-- `Bitlist::deserialize` (common/bitlist.cpp:52-63). On an empty range `--last` steps before the beginning and
`*last` is read: undefined. If the loop bound of line 61 exceeds 32, the loop shifts an `int` by 32: undefined
(this happens exactly when the last byte is 0). Never returns false; never looks at `limit_`. -/
def bitlistDeserialize (bs : List Byte) : Out (Bool × List Bool) :=
  match bs.getLast? with
  | none => .ub
  | some last =>
    let msb := countlZero8 last
    let arr := bs.dropLast.foldl (fun arr b => pushBits b BITS_PER_BYTE arr) []
    let bound := (bitlistTailBound msb).toNat
    if 32 < bound then .ub
    else .ok (true, pushBits last bound arr)

end Mammon
