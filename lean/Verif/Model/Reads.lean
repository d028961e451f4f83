import Verif.Model.Codec
/-!
# Which bytes of the buffer `deserialize` reads, and how

`deserialize` once more (ssz/ssz_container.hpp:55), with a record of the reads. `Proofs/Reads.lean` shows that without the record it is
`deserialize` of `Model/Codec.lean`. A range of iterators is its bytes `bs` together with the address `base` of the first one.
-/

namespace Mammon

/-- A read of a range of the input buffer (bytes of it may be read several times): the address, the number of bytes, and the alignment the read requires: `helpers::to_integer_little_endian<T>`
dereferences a `const T *` (helpers/bytes_to_int.hpp:61-65), which requires the alignment of `T`; copying bytes requires none. -/
structure Read where
  addr : Nat
  bytes : Nat
  align : Nat
  deriving DecidableEq, Repr

/-- The reads of a computation in order, and its outcome (for the statements of common/containers.hpp and ssz/ssz_container.cpp:73-106). -/
structure Traced (α : Type) where
  reads : List Read
  out : Out α

namespace Traced

/-- Only an outcome, no read (as `return false`, ssz/ssz_container.cpp:81). -/
def of {α : Type} (x : Out α) : Traced α := ⟨[], x⟩

/-- One statement after the other: the second is executed only if the first one ends normally (as in ssz/ssz_container.cpp:73-106). -/
def bind {α β : Type} (x : Traced α) (f : α → Traced β) : Traced β :=
  match x.out with
  | .ok a => ⟨x.reads ++ (f a).reads, (f a).out⟩
  | .throws e => ⟨x.reads, .throws e⟩
  | .ub => ⟨x.reads, .ub⟩

/-- Statements one after the other (as in ssz/ssz_container.cpp:73-106). -/
instance : Monad Traced where
  pure a := of (.ok a)
  bind := bind

/-- An outcome together with one read (helpers/bytes_to_int.hpp:61-65). -/
def reading {α : Type} (r : Read) (x : Out α) : Traced α := ⟨[r], x⟩

end Traced

open Traced

/-- `to_integer_little_endian<std::uint32_t>(&*it)` (helpers/bytes_to_int.hpp:61-65) with `it` at index `i`. -/
def read32R (base : Nat) (bs : List Byte) (i : Nat) : Traced (BitVec 32) := reading ⟨base + i, 4, 4⟩ (read32 bs i)

/-- `VectorFixedSizedParts::deserialize` from element `i` on (common/containers.hpp:87-88). -/
def vectorLoopR {α : Type} (elem : α → Nat → List Byte → Traced (Bool × α)) (size base : Nat) (bs : List Byte) :
    (i : Nat) → (old : List α) → Traced (Bool × Vec α old.length)
  | _, [] => of (.ok (true, ⟨[], rfl⟩))
  | i, x :: xs => do
    let s ← of (slice bs (i * size) ((i + 1) * size))
    let r ← elem x (base + i * size) s
    if r.1 then
      let q ← vectorLoopR elem size base bs (i + 1) xs
      of (.ok (q.1, ⟨r.2 :: q.2.1, congrArg (· + 1) q.2.2⟩))
    else of (.ok (false, ⟨r.2 :: xs, rfl⟩))

/-- The loop of `ListFixedSizedParts::deserialize` (common/containers.hpp:149-153). -/
def listFLoopR {α : Type} (elem : Nat → List Byte → Traced (Bool × α)) (size : Nat) (acc : List α) (base : Nat) (bs : List Byte) :
    Traced (Bool × List α) :=
  if bs.isEmpty then of (.ok (true, acc))
  else if _h : size = 0 ∨ bs.length < size then of .ub
  else do
    let r ← elem base (bs.take size)
    if r.1 then listFLoopR elem size (acc ++ [r.2]) (base + size) (bs.drop size)
    else of (.ok (false, acc))
termination_by bs.length
decreasing_by simp only [List.length_drop]; omega

/-- The loop of `ListVariableSizedParts::deserialize` (common/containers.hpp:213-228). -/
def listVLoopR {α : Type} (elem : Nat → List Byte → Traced (Bool × α)) (base : Nat) (bs : List Byte) (first : BitVec 32)
    (it : Nat) (last : BitVec 32) (acc : List α) : Traced (Bool × List α) :=
  if it = first.toNat then do
    let s ← of (slice bs last.toNat bs.length)
    let r ← elem (base + last.toNat) s
    of (.ok (r.1, if r.1 then acc ++ [r.2] else acc))
  else if _h : it + BYTES_PER_LENGTH_OFFSET > first.toNat then of (.ok (false, acc))
  else do
    let cur ← read32R base bs it
    if cur < last then of (.ok (false, acc))
    else if bs.length < cur.toNat then of (.ok (false, acc))
    else
      let s ← of (slice bs last.toNat cur.toNat)
      let r ← elem (base + last.toNat) s
      if r.1 then listVLoopR elem base bs first (it + BYTES_PER_LENGTH_OFFSET) cur (acc ++ [r.2])
      else of (.ok (false, acc))
termination_by first.toNat - it
decreasing_by simp only [BYTES_PER_LENGTH_OFFSET] at *; omega

/-- `ListVariableSizedParts::deserialize` (common/containers.hpp:201-229). -/
def listVDeserializeR {α : Type} (elem : Nat → List Byte → Traced (Bool × α)) (base : Nat) (bs : List Byte) : Traced (Bool × List α) :=
  if bs.isEmpty then of (.ok (true, []))
  else if bs.length < BYTES_PER_LENGTH_OFFSET then of (.ok (false, []))
  else do
    let first ← read32R base bs 0
    if first.toNat < BYTES_PER_LENGTH_OFFSET then of (.ok (false, []))
    else if bs.length < first.toNat then of (.ok (false, []))
    else listVLoopR elem base bs first BYTES_PER_LENGTH_OFFSET first []

/-- `Bitlist::deserialize` (common/bitlist.cpp:52-63): all the bytes (once in this record, repeatedly in the loops). The empty range: the byte before
the buffer. -/
def bitlistDeserializeR (base : Nat) (bs : List Byte) : Traced (Bool × List Bool) :=
  if bs = [] then reading ⟨base - 1, 1, 1⟩ (bitlistDeserialize bs)
  else reading ⟨base, bs.length, 1⟩ (bitlistDeserialize bs)

mutual
/-- `deserialize(it, end)` of each class with its reads: common/slot.hpp:56-60, common/boolean.hpp:42-48, common/bytes.hpp:83-87,
common/bitvector.hpp:83-90, common/bitlist.cpp:52-63, common/containers.hpp:84-90,145-155,201-229, and `deserialize_` for
the container structs (ssz/ssz_container.cpp:73-106). -/
def deserializeR : (t : Ty) → t.denote → (base : Nat) → List Byte → Traced (Bool × t.denote)
  | .uint64, old, base, bs =>
    if bs.length ≠ 8 then of (.ok (false, old)) else reading ⟨base, 8, 8⟩ (.ok (true, BitVec.ofNat 64 (fromLE bs)))
  | .boolean, old, base, bs =>
    if bs.length ≠ 1 then of (.ok (false, old))
    else reading ⟨base, 1, 1⟩ (if fromLE bs > 1 then .ok (false, old) else .ok (true, fromLE bs != 0))
  | .bytes n, old, base, bs =>
    if h : bs.length = n then reading ⟨base, n, 1⟩ (.ok (true, ⟨bs, h⟩)) else of (.ok (false, old))
  | .bitvector n, old, base, bs =>
    if bs.length ≠ (n + BITS_PER_BYTE - 1) / BITS_PER_BYTE then of (.ok (false, old))
    else reading ⟨base, bs.length, 1⟩ (bitvectorDeserialize n old bs)
  | .bitlist _, _, base, bs => bitlistDeserializeR base bs
  | .vector t n, old, base, bs =>
    if bs.length ≠ n * t.sszSize then of (.ok (false, old))
    else do
      let r ← vectorLoopR (fun x b s => deserializeR t x b s) t.sszSize base bs 0 old.1
      of (.ok (r.1, ⟨r.2.1, r.2.2.trans old.2⟩))
  | .listF t _, _, base, bs =>
    if t.sszSize = 0 then of .ub
    else if bs.length % t.sszSize ≠ 0 then of (.ok (false, []))
    else listFLoopR (fun b s => deserializeR t t.dflt b s) t.sszSize [] base bs
  | .listV t _, _, base, bs => listVDeserializeR (fun b s => deserializeR t t.dflt b s) base bs
  | .container _ _ ps, old, base, bs => do
    let r ← deserializePartsR ps old base bs (computeFixedLength ps 0#32) 0 0#32 (p := .boolean) false (fun _ _ => of .ub)
    of (.ok (r.1, r.2.2))

/-- The loop of `Container::deserialize_` (ssz/ssz_container.cpp:80-105) with its reads. -/
def deserializePartsR : (ps : Parts) → ps.denote → (base : Nat) → (bs : List Byte) → (fixedLength : BitVec 32) → (it : Nat) →
    (last : BitVec 32) → {p : Ty} → (prev : p.denote) → (desPrev : Nat → List Byte → Traced (Bool × p.denote)) →
    Traced (Bool × p.denote × ps.denote)
  | .nil, old, base, bs, _, _, last, _, prev, desPrev =>
    if last ≠ 0#32 then do
      let s ← of (slice bs last.toNat bs.length)
      let r ← desPrev (base + last.toNat) s
      of (.ok (r.1, r.2, old))
    else of (.ok (true, prev, old))
  | .cons _ t ps, old, base, bs, fixedLength, it, last, _, prev, desPrev =>
    if t.sszSize ≠ 0 then
      if bs.length - it < t.sszSize then of (.ok (false, prev, old))
      else do
        let s ← of (slice bs it (it + t.sszSize))
        let r ← deserializeR t old.1 (base + it) s
        if r.1 then
          let q ← deserializePartsR ps old.2 base bs fixedLength (it + t.sszSize) last prev desPrev
          of (.ok (q.1, q.2.1, (r.2, q.2.2)))
        else of (.ok (false, prev, (r.2, old.2)))
    else
      if bs.length - it < BYTES_PER_LENGTH_OFFSET then of (.ok (false, prev, old))
      else do
        let cur ← read32R base bs it
        if bs.length < cur.toNat then of (.ok (false, prev, old))
        else if last ≠ 0#32 then
          if cur < last then of (.ok (false, prev, old))
          else
            let s ← of (slice bs last.toNat cur.toNat)
            let r ← desPrev (base + last.toNat) s
            if r.1 then
              let q ← deserializePartsR ps old.2 base bs fixedLength (it + BYTES_PER_LENGTH_OFFSET) cur old.1
                (fun b s => deserializeR t old.1 b s)
              of (.ok (q.1, r.2, (q.2.1, q.2.2)))
            else of (.ok (false, r.2, old))
        else if cur ≠ fixedLength then of (.ok (false, prev, old))
        else
          let q ← deserializePartsR ps old.2 base bs fixedLength (it + BYTES_PER_LENGTH_OFFSET) cur old.1
            (fun b s => deserializeR t old.1 b s)
          of (.ok (q.1, prev, (q.2.1, q.2.2)))
end

end Mammon
