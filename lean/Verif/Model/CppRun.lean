import Verif.Model.CppSyntax
import Verif.Model.Codec
import Verif.Model.Math
import Verif.Model.HashTreeRoot
import Verif.Model.Equality
import Verif.Model.Hasher
/-!
# Running functions

What the statements and expressions of `Model/CppSyntax.lean` do. The scalar types are the ones of x86-64 Linux; arithmetic follows the usual
arithmetic conversions; overflow of signed integers, shifts by too much, division by zero, reads and writes outside of an array and uses of
indeterminate values are undefined behaviour. An object of a class derived from `ssz::Container` is a type and contents of the model, and its
virtual functions are those of the model. Whatever has no meaning here makes the run `stuck`.
-/

namespace Mammon.Cpp

/-! ## Values and memory -/

/-- The result of running a piece of code: a value, an exception, undefined behaviour, something outside the part of C++ modelled here, or not enough
fuel for the loops and calls (ssz/ssz_container.cpp:48-105). -/
inductive Res (α : Type) : Type
  | ok (a : α)
  | throws (e : Exc)
  | ub
  | stuck
  | spent

/-- One after the other (ssz/ssz_container.cpp:48-105). -/
def Res.bind {α β : Type} : Res α → (α → Res β) → Res β
  | ok a, f => f a
  | throws e, _ => throws e
  | ub, _ => ub
  | stuck, _ => stuck
  | spent, _ => spent

/-- The outcome of a function of the model (ssz/ssz_container.cpp:58,84). -/
def Res.of {α : Type} : Out α → Res α
  | .ok a => ok a
  | .throws e => throws e
  | .ub => ub

/-- The integer types: `bool` is a type of its own; `char`, which is signed, is `i8` (ssz/ssz_container.cpp:34-97, common/bitlist.cpp:45-63, helpers/bytes_to_int.hpp:67). -/
inductive IT
  | u8 | i8 | i32 | u32 | i64 | u64
  deriving DecidableEq, Repr

/-- The number of bits (x86-64 Linux; ssz/ssz_container.cpp:34-97). -/
def IT.bits : IT → Nat
  | u8 => 8
  | i8 => 8
  | i32 => 32
  | u32 => 32
  | i64 => 64
  | u64 => 64

/-- Is the type signed? (x86-64 Linux; ssz/ssz_container.cpp:34-97) -/
def IT.signed : IT → Bool
  | i8 => true
  | i32 => true
  | i64 => true
  | _ => false

/-- An object of a class derived from `ssz::Container` (ssz/ssz_container.hpp:36). -/
abbrev Obj := (t : Ty) × t.denote

/-- Places: variables of the function that runs, of one of its callers, members of the object and other global things, what a pointer to a part
points to, elements of an array (ssz/ssz_container.cpp:57-69). -/
inductive Place
  | here (slot : Nat)
  | there (frame slot : Nat)
  | glob (slot : Nat)
  | part (i : Nat)
  | elem (p : Place) (i : Int)
  deriving DecidableEq

/-- Values (ssz/ssz_container.cpp:48-105, common/containers.hpp:40-233). -/
inductive Val
  /-- An integer (ssz/ssz_container.cpp:35). -/
  | int (t : IT) (n : Int)
  /-- A `bool` (common/boolean.hpp:34). -/
  | bool (b : Bool)
  /-- A `double`, of which nothing is known (helpers/math.hpp:51). -/
  | double
  /-- `std::vector<std::uint8_t>`, `std::array<std::uint8_t, N>`, `eth::Bytes<N>` (common/bytes.hpp:42, ssz/ssz_container.cpp:56). -/
  | bytes (l : List Byte)
  /-- `std::vector<bool>`, `std::array<bool, N>` (common/bitlist.hpp:32, common/bitvector.hpp:38). -/
  | bools (l : List Bool)
  /-- An object of a class derived from `ssz::Container` (common/containers.hpp:150). -/
  | obj (o : Obj)
  /-- `std::vector<T>`, `std::array<T, N>` (common/containers.hpp:43,99). -/
  | objs (l : List Obj)
  /-- A pointer to a part, or a null pointer (ssz/ssz_container.cpp:78). -/
  | ptr (p : Option Nat)
  /-- `std::vector<Container *>` (ssz/ssz_container.cpp:48). -/
  | ptrs (l : List Nat)
  /-- An iterator, or a pointer to an element of an array (ssz/ssz_container.cpp:61,89). -/
  | iter (p : Place) (i : Int)
  /-- What has a place: an lvalue (ssz/ssz_container.cpp:86). -/
  | ref (p : Place)
  /-- `std::vector<Chunk>`, `std::array<Chunk, N>`; a `Chunk` is an array of bytes (ssz/hashtree.cpp:48,63). -/
  | chunks (l : List Chunk)
  /-- A `Hasher` (ssz/hashtree.cpp:49). -/
  | hasher
  /-- The object whose member function runs (ssz/hashtree.cpp:128). -/
  | self
  /-- A `HashTree` (common/containers.hpp:55). -/
  | tree (l : List Chunk)
  /-- What `std::back_inserter` returns (ssz/ssz_container.cpp:120). -/
  | sink (p : Place)
  /-- `{chunk}` (common/slot.hpp:52). -/
  | listed (l : List Byte)
  /-- An integer variable that has not been initialised (ssz/hasher.cpp:45). -/
  | unset (t : IT)
  /-- A function that hashes blocks (ssz/hasher.cpp:59-62). -/
  | routine (f : HashFn)
  /-- The processor, known under the name `cpuid` (ssz/hasher.cpp:46,50). -/
  | cpu (c : Cpu)
  /-- A string, a `std::string_view` (common/bytes.hpp:59, helpers/bytes_to_int.hpp:69). -/
  | chars (l : List Byte)
  /-- `std::array<long long, N>` (helpers/bytes_to_int.hpp:30). -/
  | longs (l : List Int)
  /-- A `Table` (helpers/bytes_to_int.hpp:29,55). -/
  | table (l : List Int)
  /-- A `std::stringstream`, `std::cout`: the fill character, the field width, the base and what has been written (common/bitvector.hpp:64-65). -/
  | stream (fill : Byte) (width base : Nat) (out : List Byte)
  /-- What changes the format: the fill character, the field width or the base (common/bitvector.hpp:69). -/
  | manip (kind x : Nat)
  /-- A function object (ssz/ssz_container.cpp:36). -/
  | lam (params : List Nat) (body : Sts)
  /-- `{}` (ssz/ssz_container.cpp:50). -/
  | braces
  /-- The result of a function that returns nothing (ssz/ssz_container.cpp:61). -/
  | void

/-- The variables of a function, the newest first (ssz/ssz_container.cpp:54-56). -/
abbrev Frame := List (Nat × Val)

/-- Memory: the variables of the function that runs, of its callers, the global things, and the parts that pointers point to
(ssz/ssz_container.cpp:48-56). -/
structure Mem where
  cur : Frame
  below : List Frame
  glob : Frame
  parts : List Obj

/-- The place of a name in a frame, counted from the oldest variable (ssz/ssz_container.cpp:54-56). -/
def slotOf (n : Nat) : Frame → Option Nat
  | [] => none
  | (m, _) :: l => bif Nat.beq m n then some l.length else slotOf n l

/-- The variable at a place (ssz/ssz_container.cpp:54-56). -/
def getSlot (k : Nat) : Frame → Option Val
  | [] => none
  | (_, v) :: l => bif Nat.beq k l.length then some v else getSlot k l

/-- Change the variable at a place (ssz/ssz_container.cpp:67). -/
def setSlot (k : Nat) (v : Val) : Frame → Frame
  | [] => []
  | (n, w) :: l => bif Nat.beq k l.length then (n, v) :: l else (n, w) :: setSlot k v l

/-- A frame of a caller, counted from the oldest (ssz/hashtree.cpp:77). -/
def getFrame (k : Nat) : List Frame → Option Frame
  | [] => none
  | f :: l => bif Nat.beq k l.length then some f else getFrame k l

/-- Change a frame of a caller (ssz/hashtree.cpp:77). -/
def setFrame (k : Nat) (g : Frame) : List Frame → List Frame
  | [] => []
  | f :: l => bif Nat.beq k l.length then g :: l else f :: setFrame k g l

/-- A result that may be missing (ssz/ssz_container.cpp:48). -/
def orStuck {α : Type} : Option α → Res α
  | some a => .ok a
  | none => .stuck

/-- An element: undefined outside of the array (common/bitlist.cpp:48). -/
def at? {α : Type} (l : List α) (i : Int) : Res α :=
  bif decide (0 ≤ i) then
    match l[i.toNat]? with
    | some a => .ok a
    | none => .ub
  else .ub

/-- Change an element: undefined outside of the array (common/bitlist.cpp:48). -/
def set? {α : Type} (l : List α) (i : Int) (a : α) : Res (List α) :=
  bif decide (0 ≤ i ∧ i < l.length) then .ok (l.set i.toNat a) else .ub

/-- Convert to an integer type: modulo a power of two (C++ [conv.integral]; ssz/ssz_container.cpp:40). -/
def IT.conv (t : IT) (n : Int) : Int :=
  bif t.signed then (n + 2 ^ (t.bits - 1)) % 2 ^ t.bits - 2 ^ (t.bits - 1) else n % 2 ^ t.bits

/-- The value at a place (ssz/ssz_container.cpp:57-69). An element of a `Table` is what its `operator[]` returns: the index is converted to `char`, and the
result to `std::size_t` (helpers/bytes_to_int.hpp:54). -/
def read? : Place → Mem → Res Val
  | .here k, s => orStuck (getSlot k s.cur)
  | .there f k, s => orStuck ((getFrame f s.below).bind (getSlot k))
  | .glob k, s => orStuck (getSlot k s.glob)
  | .part i, s => match s.parts[i]? with
    | some o => .ok (.obj o)
    | none => .ub
  | .elem p i, s => (read? p s).bind fun v => match v with
    | .bytes l => (at? l i).bind fun b => .ok (.int .u8 b.toNat)
    | .bools l => (at? l i).bind fun b => .ok (.bool b)
    | .objs l => (at? l i).bind fun o => .ok (.obj o)
    | .ptrs l => (at? l i).bind fun k => .ok (.ptr (some k))
    | .chunks l => (at? l i).bind fun c => .ok (.bytes c.1)
    | .chars l => (at? l i).bind fun c => .ok (.int .i8 c.toInt)
    | .longs l => (at? l i).bind fun n => .ok (.int .i64 n)
    | .table l => (at? l (IT.u64.conv (IT.i8.conv i))).bind fun n => .ok (.int .i64 n)
    | _ => .stuck

/-- Bytes as a `Chunk` (ssz/ssz.hpp:33). -/
def chunkOf (l : List Byte) : Option Chunk := if h : l.length = 32 then some ⟨l, h⟩ else none

/-- The number of elements (common/containers.hpp:131). -/
def count : Val → Option Nat
  | .bytes l => some l.length
  | .bools l => some l.length
  | .objs l => some l.length
  | .ptrs l => some l.length
  | .chunks l => some l.length
  | .chars l => some l.length
  | .obj ⟨.listF t _, l⟩ => some (l : List t.denote).length
  | _ => none

/-! ## Integers -/

/-- The result of an operation on an integer type: unsigned modulo a power of two, signed overflow is undefined (C++ [basic.fundamental],
[expr.pre]; ssz/ssz_container.cpp:38, common/bitlist.cpp:47). -/
def IT.result (t : IT) (n : Int) : Res Val :=
  bif t.signed then (bif decide (-2 ^ (t.bits - 1) ≤ n ∧ n < 2 ^ (t.bits - 1)) then .ok (.int t n) else .ub) else .ok (.int t (n % 2 ^ t.bits))

/-- Integral promotion (C++ [conv.prom]; common/bitlist.cpp:48). -/
def IT.promote : IT → IT
  | .u8 => .i32
  | .i8 => .i32
  | t => t

/-- The usual arithmetic conversions (C++ [expr.arith.conv]; ssz/ssz_container.cpp:83,88). -/
def IT.common : IT → IT → IT
  | .u64, _ => .u64
  | _, .u64 => .u64
  | .i64, _ => .i64
  | _, .i64 => .i64
  | .u32, _ => .u32
  | _, .u32 => .u32
  | _, _ => .i32

/-- A value as an integer: an integer; a `bool`, promoted to `int`; a `Slot` or a `Boolean` by its conversion operator
(common/slot.hpp:44, common/boolean.hpp:38). -/
def intOf : Val → Option (IT × Int)
  | .int t n => some (t, n)
  | .bool b => some (.i32, bif b then 1 else 0)
  | .obj ⟨.uint64, v⟩ => some (.u64, v.toNat)
  | .obj ⟨.boolean, b⟩ => some (.i32, bif b then 1 else 0)
  | _ => none

/-- A value as a condition (C++ [conv.bool]; ssz/ssz_container.cpp:82). -/
def truth : Val → Option Bool
  | .int _ n => some (!decide (n = 0))
  | .bool b => some b
  | .ptr p => some p.isSome
  | .obj ⟨.boolean, b⟩ => some b
  | _ => none

/-- Bitwise operators, on two's complement (C++ [expr.bit.and]; common/bitlist.cpp:48). -/
def bitwise (o : Op) (t : IT) (a b : Int) : Int :=
  let w := match o with
    | .band => BitVec.ofInt t.bits a &&& BitVec.ofInt t.bits b
    | .bor => BitVec.ofInt t.bits a ||| BitVec.ofInt t.bits b
    | _ => BitVec.ofInt t.bits a ^^^ BitVec.ofInt t.bits b
  bif t.signed then w.toInt else w.toNat

/-- Arithmetic and comparisons of integers (C++ [expr.mul] to [expr.or]; ssz/ssz_container.cpp:83-100). -/
def intOp (o : Op) (a b : IT × Int) : Res Val :=
  match o with
  | .shl =>
    bif decide (0 ≤ b.2 ∧ b.2 < a.1.promote.bits) then .ok (.int a.1.promote (a.1.promote.conv (a.2 * 2 ^ b.2.toNat))) else .ub
  | .shr =>
    bif decide (0 ≤ b.2 ∧ b.2 < a.1.promote.bits) then .ok (.int a.1.promote (a.2 / 2 ^ b.2.toNat)) else .ub
  | _ =>
    let t := a.1.common b.1
    let x := t.conv a.2
    let y := t.conv b.2
    match o with
    | .add => t.result (x + y)
    | .sub => t.result (x - y)
    | .mul => t.result (x * y)
    | .div => bif decide (y = 0) then .ub else t.result (x.tdiv y)
    | .mod => bif decide (y = 0) then .ub else t.result (x.tmod y)
    | .eq => .ok (.bool (decide (x = y)))
    | .ne => .ok (.bool (!decide (x = y)))
    | .lt => .ok (.bool (decide (x < y)))
    | .gt => .ok (.bool (decide (y < x)))
    | .le => .ok (.bool (decide (x ≤ y)))
    | .ge => .ok (.bool (decide (y ≤ x)))
    | o => .ok (.int t (bitwise o t x y))

/-- Characters in a field of at least the given width, at its end (C++ [ostream.formatted.reqmts]; common/bitvector.hpp:69). -/
def padded (fill : Byte) (width : Nat) (l : List Byte) : List Byte := List.replicate (width - l.length) fill ++ l

/-- `os << w`: the stream afterwards. Manipulators change the format; strings and characters are written as they are, and `unsigned char`, which
`std::uint8_t` is, is a character; other integers are written with digits. Whatever is written resets the width (C++ [ostream.inserters], [std.manip];
common/bitvector.hpp:67-69). Negative integers are not modelled. -/
def insert (fill : Byte) (width base : Nat) (out : List Byte) : Val → Res Val
  | .manip k x => match k with
    | 0 => .ok (.stream (BitVec.ofNat 8 x) width base out)
    | 1 => .ok (.stream fill x base out)
    | _ => .ok (.stream fill width x out)
  | .chars l => .ok (.stream fill 0 base (out ++ padded fill width l))
  | .int t x => match t with
    | .u8 => .ok (.stream fill 0 base (out ++ padded fill width [BitVec.ofInt 8 x]))
    | .i8 => .ok (.stream fill 0 base (out ++ padded fill width [BitVec.ofInt 8 x]))
    | _ => bif decide (0 ≤ x) then
        .ok (.stream fill 0 base (out ++ padded fill width ((Nat.toDigits base x.toNat).map fun c => BitVec.ofNat 8 c.toNat)))
      else .stuck
  | _ => .stuck

/-- Operators on values that are not integers: `<<` of a stream (common/bitvector.hpp:67); `==` and `!=` of the object itself and another one of its class, if the class inherits
`Container::operator==`, which returns true (ssz/ssz_container.hpp:61, beacon-chain/attestation.cpp:37); `==` of arrays of bytes (common/bytes.hpp:122); the value of a variable that has not been initialised is indeterminate (ssz/hasher.cpp:47). -/
def compare (o : Op) (v w : Val) : Res Val :=
  match v, w with
  | .unset _, _ => .ub
  | _, .unset _ => .ub
  | .bytes a, .bytes b => match o with
    | .eq => .ok (.bool (a == b))
    | _ => .stuck
  | .stream f k b l, w => match o with
    | .shl => insert f k b l w
    | _ => .stuck
  | .self, .obj ⟨.container _ false _, _⟩ => match o with
    | .eq => .ok (.bool true)
    | .ne => .ok (.bool false)
    | _ => .stuck
  | _, _ => .stuck

/-- Operators on values: integers, iterators (of the same array, otherwise the comparison has no meaning) (C++ [expr.add], [expr.rel];
ssz/ssz_container.cpp:84, common/bitlist.cpp:58). -/
def operate (o : Op) (v w : Val) : Res Val :=
  match v, w with
  | .iter p i, .iter q j =>
    bif decide (p = q) then match o with
      | .eq => .ok (.bool (decide (i = j)))
      | .ne => .ok (.bool (!decide (i = j)))
      | .lt => .ok (.bool (decide (i < j)))
      | .sub => .ok (.int .i64 (i - j))
      | _ => .stuck
    else .stuck
  | .iter p i, w => match intOf w, o with
    | some (_, n), .add => .ok (.iter p (i + n))
    | some (_, n), .sub => .ok (.iter p (i - n))
    | _, _ => .stuck
  | v, w => match intOf v, intOf w with
    | some a, some b => intOp o a b
    | _, _ => compare o v w

/-- Convert a value to the type of the one it is assigned to (C++ [expr.ass]; common/bitlist.cpp:48, common/slot.hpp:58); `{}` is an array
of zeros (helpers/bytes_to_int.hpp:31). -/
def like : Val → Val → Res Val
  | .int t _, v => orStuck ((intOf v).map fun a => .int t (t.conv a.2))
  | .bool _, v => orStuck ((truth v).map .bool)
  | .unset t, v => orStuck ((intOf v).map fun a => .int t (t.conv a.2))
  | .longs l, .braces => .ok (.longs (List.replicate l.length 0))
  | _, v => .ok v

/-- Change the value at a place (ssz/ssz_container.cpp:86, common/bitlist.cpp:48). -/
def write? : Place → Val → Mem → Res Mem
  | .here k, v, ⟨c, b, g, h⟩ => (orStuck (getSlot k c)).bind fun w => (like w v).bind fun v => .ok ⟨setSlot k v c, b, g, h⟩
  | .there f k, v, ⟨c, b, g, h⟩ => (orStuck (getFrame f b)).bind fun fr => (orStuck (getSlot k fr)).bind fun w => (like w v).bind fun v =>
    .ok ⟨c, setFrame f (setSlot k v fr) b, g, h⟩
  | .glob k, v, ⟨c, b, g, h⟩ => (orStuck (getSlot k g)).bind fun w => (like w v).bind fun v => .ok ⟨c, b, setSlot k v g, h⟩
  | .part i, v, ⟨c, b, g, h⟩ => match v with
    | .obj o => (set? h i o).bind fun h => .ok ⟨c, b, g, h⟩
    | _ => .stuck
  | .elem p i, v, s => (read? p s).bind fun a => match a with
    | .bytes l => (orStuck (intOf v)).bind fun n => (set? l i (BitVec.ofInt 8 n.2)).bind fun l => write? p (.bytes l) s
    | .bools l => (orStuck (truth v)).bind fun b => (set? l i b).bind fun l => write? p (.bools l) s
    | .objs l => match v with
      | .obj o => (set? l i o).bind fun l => write? p (.objs l) s
      | _ => .stuck
    | .chunks l => match v with
      | .bytes b => (orStuck (chunkOf b)).bind fun c => (set? l i c).bind fun l => write? p (.chunks l) s
      | _ => .stuck
    | .longs l => (orStuck (intOf v)).bind fun n => (set? l i (IT.i64.conv n.2)).bind fun l => write? p (.longs l) s
    | _ => .stuck

/-- The value of an lvalue or of anything else (C++ [conv.lval]; ssz/ssz_container.cpp:86). -/
def load (v : Val) (s : Mem) : Res Val :=
  match v with
  | .ref p => read? p s
  | v => .ok v

/-- All of them (ssz/ssz_container.cpp:61). -/
def loads : List Val → Mem → Res (List Val)
  | [], _ => .ok []
  | v :: vs, s => (load v s).bind fun v => (loads vs s).bind fun vs => .ok (v :: vs)

/-- The bytes from one iterator to another: undefined unless the range is in the array (ssz/ssz_container.cpp:61,84). -/
def range? (a b : Val) (s : Mem) : Res (List Byte) :=
  match a, b with
  | .iter p i, .iter q j =>
    bif decide (p = q) then (read? p s).bind fun v => match v with
      | .bytes l => bif decide (0 ≤ i ∧ i ≤ j ∧ j ≤ l.length) then .ok ((l.drop i.toNat).take (j.toNat - i.toNat)) else .ub
      | _ => .stuck
    else .stuck
  | _, _ => .stuck

/-! ## Types and functions of the library -/

/-- What the code takes from outside: the value of `(T)std::sqrt((double)x)` (helpers/math.hpp:51), the function that a `Hasher` computes on a block
of two chunks (ssz/hasher.hpp:57), and what variables without initial value contain (ssz/hashtree.cpp:34,37,48). -/
structure Env where
  estimate : Int
  hash : Chunk → Chunk → Chunk
  junk : Nat → Byte

/-- `n` bytes that have not been initialised (ssz/hashtree.cpp:34,37). -/
def Env.bytes (E : Env) (n : Nat) : List Byte := (List.range n).map E.junk

/-- `n` chunks that have not been initialised (ssz/hashtree.cpp:48). -/
def Env.chunks (E : Env) (n : Nat) : List Chunk :=
  (List.range n).map fun i => ⟨(List.range 32).map fun j => E.junk (32 * i + j), by rw [List.length_map, List.length_range]⟩

/-- What the names in a template stand for, and the functions that are called (common/containers.hpp:40-41, helpers/math.hpp:33-60). -/
structure Ctx where
  /-- The template parameter `T`, if it is an integer type (helpers/math.hpp:33). -/
  int : Option IT
  /-- The template parameter `T`, if it is a class (common/containers.hpp:40). -/
  elem : Option Ty
  /-- What comes from outside (helpers/math.hpp:51, ssz/hasher.hpp:57). -/
  env : Env
  /-- How often a loop may run at most (no counterpart in the code; helpers/math.hpp:54). -/
  fuel : Nat
  /-- Calls of functions, given the arguments as values or places and their values (ssz/ssz_container.cpp:54, ssz/hashtree.cpp:122). -/
  call : Nat → List Val → List Val → Mem → Res (Val × Mem)
  /-- Calls of function objects (ssz/ssz_container.cpp:43). -/
  apply : List Nat → Sts → List Val → Mem → Res (Option Val × Mem)

/-- The integer types (C++ [cstdint.syn]; ssz/ssz_container.cpp:34-97, helpers/math.hpp:33). -/
def Ctx.itype (C : Ctx) : Ex → Option IT
  | .var n =>
    bif Nat.beq n (name% "uint8_t") then some .u8
    else bif Nat.beq n (name% "char") then some .i8
    else bif Nat.beq n (name% "int") then some .i32
    else bif Nat.beq n (name% "uint32_t") then some .u32
    else bif Nat.beq n (name% "size_t") || Nat.beq n (name% "uint64_t") then some .u64
    else bif Nat.beq n (name% "T") then C.int
    else none
  | .tmpl n _ => bif Nat.beq n (name% "unsigned") then some .u32 else none
  | _ => none

/-- The number of bytes of `Bytes4`, `Bytes8` and the like, and of a `Chunk` (common/bytes.hpp:164-170, ssz/ssz.hpp:33). -/
def bytesName (n : Nat) : Option Nat :=
  bif Nat.beq n (name% "Bytes1") then some 1 else bif Nat.beq n (name% "Bytes4") then some 4 else bif Nat.beq n (name% "Bytes8") then some 8
  else bif Nat.beq n (name% "Bytes32") then some 32 else bif Nat.beq n (name% "Chunk") then some 32 else none

/-- Is it a type whose objects are vectors of bytes? (common/bytes.hpp:171, ssz/ssz_container.cpp:48) -/
def isByteVector : Ex → Bool
  | .var n => Nat.beq n (name% "BytesVector")
  | .tmpl n (.cons (.var m) .nil) => Nat.beq n (name% "vector") && Nat.beq m (name% "uint8_t")
  | _ => false

/-- Is it a type whose objects are vectors of chunks? (ssz/hashtree.cpp:63) -/
def isChunkVector : Ex → Bool
  | .tmpl n (.cons (.var m) .nil) => Nat.beq n (name% "vector") && Nat.beq m (name% "Chunk")
  | _ => false

/-- The type of the elements of an array: bytes (`false`) or chunks (`true`) (ssz/hashtree.cpp:34,48). -/
def arrayOf : Ex → Option Bool
  | .tmpl n (.cons (.var m) (.cons _ .nil)) =>
    bif Nat.beq n (name% "array") then
      bif Nat.beq m (name% "uint8_t") then some false else bif Nat.beq m (name% "Chunk") then some true else none
    else none
  | _ => none

/-- The size of a type whose name is the operand of `sizeof` (ssz/hashtree.cpp:67). -/
def typeSize : Ex → Option Nat
  | .var n => bif Nat.beq n (name% "Chunk") then some 32 else none
  | _ => none

/-- Convert to a type: integers, `bool`, `{}`, `{chunk}` (C++ [dcl.init]; ssz/ssz_container.cpp:40,50,77, helpers/math.hpp:51, common/slot.hpp:52). Other values stay as they are:
the types of the code are the ones of the values; in particular a pointer, whose `*` is not part of the syntax (ssz/hasher.cpp:34). -/
def Ctx.coerce (C : Ctx) (t : Ex) (v : Val) : Res Val :=
  match C.itype t with
  | some i => match v with
    | .double => .ok (.int i (i.conv C.env.estimate))
    | .iter p k => .ok (.iter p k)
    | v => orStuck ((intOf v).map fun a => .int i (i.conv a.2))
  | none => match t with
    | .var n =>
      bif Nat.beq n (name% "bool") then orStuck ((truth v).map .bool)
      else bif Nat.beq n (name% "double") then (match intOf v with | some _ => .ok .double | none => .stuck)
      else .ok v
    | t => match v with
      | .braces => bif isByteVector t then .ok (.bytes []) else bif isChunkVector t then .ok (.chunks []) else .stuck
      | .listed l => bif isChunkVector t then (orStuck (chunkOf l)).bind fun c => .ok (.chunks [c]) else .stuck
      | v => .ok v

/-- An object without initialiser: empty vectors, default constructed objects, arrays of unknown contents (C++ [dcl.init]; ssz/ssz_container.cpp:56,
ssz/ssz_container.cpp:117, common/containers.hpp:150, ssz/hashtree.cpp:34,37,48), integers without a value (ssz/hasher.cpp:45), a stream (common/bitvector.hpp:64). `size` is the number of elements of an array. -/
def Ctx.default (C : Ctx) (t : Ex) (size : Option Int) : Res Val :=
  bif isByteVector t then .ok (.bytes [])
  else bif isChunkVector t then .ok (.chunks [])
  else match arrayOf t, size with
    | some b, some k => .ok (bif b then .chunks (C.env.chunks k.toNat) else .bytes (C.env.bytes k.toNat))
    | _, _ => match t, C.elem with
      | .var n, some e => bif Nat.beq n (name% "T") then .ok (.obj ⟨e, e.dflt⟩) else .stuck
      | .var n, none => bif Nat.beq n (name% "Chunk") then .ok (.bytes (C.env.bytes 32))
        else bif Nat.beq n (name% "stringstream") then .ok (.stream 32#8 0 10 []) else match C.itype (.var n) with
        | some i => .ok (.unset i)
        | none => .stuck
      | _, _ => .stuck

/-- `Bytes<N>(value)`: the bytes of the integer, then zeros (common/bytes.hpp:45-54,73). -/
def bytesOf (n : Nat) : Val → Res Val
  | .int t x => bif Nat.ble (t.bits / 8) n then .ok (.bytes (leBytes (t.bits / 8) x.toNat ++ List.replicate (n - t.bits / 8) 0#8)) else .stuck
  | .bool b => .ok (.bytes (leBytes 1 (bif b then 1 else 0) ++ List.replicate (n - 1) 0#8))
  | _ => .stuck

/-- The constructors of `HashTree`; the limit is 0 if it is left out (ssz/hashtree.hpp:42-43). They are modelled in `Model/HashTree.lean`. -/
def newTree (H : Chunk → Chunk → Chunk) : List Val → Res Val
  | [.chunks l] => (Res.of (hashTreeOfChunks H l 0#64)).bind fun t => .ok (.tree t)
  | [.chunks l, .int _ k] => (Res.of (hashTreeOfChunks H l (BitVec.ofInt 64 k))).bind fun t => .ok (.tree t)
  | [.bytes l] => (Res.of (hashTreeOfBytes H l 0#64)).bind fun t => .ok (.tree t)
  | [.bytes l, .int _ k] => (Res.of (hashTreeOfBytes H l (BitVec.ofInt 64 k))).bind fun t => .ok (.tree t)
  | _ => .stuck

/-- An object made from arguments: `Bytes<N>(value)`, `Bytes<N>{}`, `std::vector<std::uint8_t>(count, value)`,
`std::vector<std::uint8_t>(begin, end)`, `HashTree`, `std::array<std::uint8_t, N>{}`, conversions (ssz/ssz_container.cpp:40,60,109, common/bytes.hpp:46,64,79, common/bitlist.cpp:46, common/bitvector.hpp:79).
`size` is the value of the template argument, if there is one. -/
def Ctx.make (C : Ctx) (t : Ex) (size : Option Int) (args : List Val) (s : Mem) : Res Val :=
  match t with
  | .var n => bif Nat.beq n (name% "HashTree") then newTree C.env.hash args
    else match bytesName n, args with
    | some k, [v] => bytesOf k v
    | some k, [] => .ok (.bytes (List.replicate k 0#8))
    | none, [v] => C.coerce t v
    | none, [] => bif Nat.beq n (name% "Hasher") then .ok .hasher else .stuck
    | _, _ => .stuck
  | .tmpl n _ =>
    bif isByteVector t then match args with
      | [.int _ k, .int _ x] => .ok (.bytes (List.replicate k.toNat (BitVec.ofInt 8 x)))
      | [.iter p i, .iter q j] => (range? (.iter p i) (.iter q j) s).bind fun l => .ok (.bytes l)
      | [] => .ok (.bytes [])
      | _ => .stuck
    else bif Nat.beq n (name% "Bytes") then match size, args with
      | some k, [] => .ok (.bytes (List.replicate k.toNat 0#8))
      | _, _ => .stuck
    else bif isChunkVector t then match args with
      | [] => .ok (.chunks [])
      | _ => .stuck
    else match arrayOf t, size, args with
      | some false, some k, [] => .ok (.bytes (List.replicate k.toNat 0#8))
      | _, _, _ => .stuck
  | _ => .stuck

/-- Member functions of the library and of the classes derived from `ssz::Container` on an object (ssz/ssz_container.cpp:36-104,
common/containers.hpp:75-230). The object has the place `p` if it has one. -/
def method (n : Nat) (p : Option Place) (v : Val) (args : List Val) (s : Mem) : Res (Val × Mem) :=
  bif Nat.beq n (name% "size") then (orStuck (count v)).bind fun k => .ok (.int .u64 k, s)
  else bif Nat.beq n (name% "empty") then (orStuck (count v)).bind fun k => .ok (.bool (decide (k = 0)), s)
  else bif Nat.beq n (name% "get_ssz_size") then match v with
    | .obj o => .ok (.int .u64 o.1.sszSize, s)
    | _ => .stuck
  else bif Nat.beq n (name% "serialize") then match v with
    | .obj o => (Res.of (serialize o.1 o.2)).bind fun l => .ok (.bytes l, s)
    | .bytes l => .ok (.bytes l, s)
    | _ => .stuck
  else bif Nat.beq n (name% "to_array") then match v with
    | .bytes l => match p with
      | some p => .ok (.ref p, s)
      | none => .ok (.bytes l, s)
    | _ => .stuck
  else bif Nat.beq n (name% "str") then match v with
    | .stream _ _ _ l => .ok (.chars l, s)
    | _ => .stuck
  else bif Nat.beq n (name% "flags") then match p, v, args with
    | some _, .stream _ _ b _, [] => .ok (.int .i32 b, s)
    | some p, .stream f k b l, [.int _ x] => (write? p (.stream f k x.toNat l) s).bind fun s => .ok (.int .i32 b, s)
    | _, _, _ => .stuck
  else bif Nat.beq n (name% "length") then match v with
    | .chars l => .ok (.int .u64 l.length, s)
    | _ => .stuck
  else bif Nat.beq n (name% "starts_with") then match v, args with
    | .chars l, [.chars m] => .ok (.bool (m.isPrefixOf l), s)
    | _, _ => .stuck
  else bif Nat.beq n (name% "substr") then match v, args with
    | .chars l, [.int _ i, .int _ k] =>
      bif decide (IT.u64.conv i ≤ l.length) then .ok (.chars ((l.drop (IT.u64.conv i).toNat).take (IT.u64.conv k).toNat), s) else .throws .outOfRange
    | _, _ => .stuck
  else match p with
  | none => bif Nat.beq n (name% "back") then match v with
      | .chunks l => (at? l ((l.length : Int) - 1)).bind fun c => .ok (.bytes c.1, s)
      | _ => .stuck
    else .stuck
  | some p =>
    bif Nat.beq n (name% "begin") || Nat.beq n (name% "cbegin") then (match count v with | some _ => .ok (.iter p 0, s) | none => .stuck)
    else bif Nat.beq n (name% "data") then match v with
      | .bytes _ => .ok (.iter p 0, s)
      | _ => .stuck
    else bif Nat.beq n (name% "end") || Nat.beq n (name% "cend") then (orStuck (count v)).bind fun k => .ok (.iter p k, s)
    else bif Nat.beq n (name% "back") then (orStuck (count v)).bind fun k => .ok (.ref (.elem p ((k : Int) - 1)), s)
    else bif Nat.beq n (name% "clear") then match v with
      | .bools _ => (write? p (.bools []) s).bind fun s => .ok (.void, s)
      | .objs _ => (write? p (.objs []) s).bind fun s => .ok (.void, s)
      | _ => .stuck
    else bif Nat.beq n (name% "push_back") then match v, args with
      | .bools l, [x] => (orStuck (truth x)).bind fun b => (write? p (.bools (l ++ [b])) s).bind fun s => .ok (.void, s)
      | .objs l, [.obj o] => (write? p (.objs (l ++ [o])) s).bind fun s => .ok (.void, s)
      | .chunks l, [.bytes b] => (orStuck (chunkOf b)).bind fun c => (write? p (.chunks (l ++ [c])) s).bind fun s => .ok (.void, s)
      | .bytes l, [.int _ x] => (write? p (.bytes (l ++ [BitVec.ofInt 8 x])) s).bind fun s => .ok (.void, s)
      | _, _ => .stuck
    else bif Nat.beq n (name% "fill") then match v, args with
      | .bools l, [x] => (orStuck (truth x)).bind fun b => (write? p (.bools (List.replicate l.length b)) s).bind fun s => .ok (.void, s)
      | _, _ => .stuck
    else bif Nat.beq n (name% "reserve") then .ok (.void, s)
    else bif Nat.beq n (name% "resize") then match v, args with
      | .chunks l, [.int _ k] =>
        (write? p (.chunks (l.take (IT.u64.conv k).toNat ++ List.replicate ((IT.u64.conv k).toNat - l.length) zeroHash)) s).bind fun s => .ok (.void, s)
      | _, _ => .stuck
    else bif Nat.beq n (name% "insert") then match v, args with
      | .bytes l, [.iter q i, a, b] =>
        bif decide (q = p) then
          bif decide (0 ≤ i ∧ i ≤ l.length) then
            (range? a b s).bind fun m => (write? p (.bytes (l.take i.toNat ++ (m ++ l.drop i.toNat))) s).bind fun s => .ok (.void, s)
          else .ub
        else .stuck
      | _, _ => .stuck
    else bif Nat.beq n (name% "deserialize") then match v, args with
      | .obj o, [a, b] => (range? a b s).bind fun l => (Res.of (deserialize o.1 o.2 l)).bind fun r =>
        (write? p (.obj ⟨o.1, r.2⟩) s).bind fun s => .ok (.bool r.1, s)
      | _, _ => .stuck
    else .stuck

/-- `hasher.hash_64b_blocks(dst, src, n)`: pointers to the beginning of elements of vectors of chunks, the same one or two different ones, or to the
beginning of two arrays of bytes (ssz/hasher.hpp:57, ssz/hashtree.cpp:38,81,86). What the function computes is modelled in `Model/HashTree.lean`. -/
def hashCall (H : Chunk → Chunk → Chunk) (dst src : Val) (n : Nat) (s : Mem) : Res Mem :=
  match dst, src with
  | .iter (.elem p i) x, .iter (.elem q j) y =>
    bif decide (x = 0 ∧ y = 0 ∧ 0 ≤ i ∧ 0 ≤ j) then
      (read? p s).bind fun v => (read? q s).bind fun w => match v, w with
        | .chunks d, .chunks e =>
          (Res.of (bif decide (p = q) then hashBlocksInPlace H n i.toNat j.toNat d else hashBlocks H e n i.toNat j.toNat d)).bind fun d =>
            write? p (.chunks d) s
        | _, _ => .stuck
    else .stuck
  | .iter p x, .iter q y =>
    bif decide (x = 0 ∧ y = 0 ∧ n = 1) then
      (read? p s).bind fun v => (read? q s).bind fun w => match v, w with
        | .bytes d, .bytes e => match chunkOf d, chunkOf (e.take 32), chunkOf (e.drop 32) with
          | some _, some a, some b => write? p (.bytes (H a b).1) s
          | _, _, _ => .stuck
        | _, _ => .stuck
    else .stuck
  | _, _ => .stuck

/-- The object whose member function runs, as a whole, is known under the name `this` if its virtual functions are called (ssz/ssz_container.cpp:109). -/
def thisOf (s : Mem) : Option Val := (slotOf (name% "this") s.glob).bind fun k => getSlot k s.glob

/-- Member functions: those of the object itself, of which `serialize` and `hash_tree` are virtual functions; the one of a `Hasher`; those of a `HashTree`;
those of the library (ssz/hashtree.cpp:38,128, ssz/ssz_container.cpp:36-124, ssz/ssz_container.hpp:57, common/containers.hpp:104-108). The arguments as values
or places and their values are given. -/
def Ctx.invoke (C : Ctx) (n : Nat) (p : Option Place) (v : Val) (raws args : List Val) (s : Mem) : Res (Val × Mem) :=
  match v with
  | .self =>
    bif Nat.beq n (name% "serialize") then match thisOf s with
      | some (.obj o) => (Res.of (serialize o.1 o.2)).bind fun l => .ok (.bytes l, s)
      | _ => .stuck
    else bif Nat.beq n (name% "hash_tree") then match thisOf s with
      | some (.obj o) => (Res.of (hashTree C.env.hash o.1 o.2)).bind fun l => .ok (.chunks l, s)
      | _ => .stuck
    else C.call n raws args s
  | .obj o => bif Nat.beq n (name% "hash_tree_root") then (Res.of (hashTreeRoot C.env.hash o.1 o.2)).bind fun r => .ok (.bytes r.1, s) else method n p (.obj o) args s
  | .tree l =>
    bif Nat.beq n (name% "hash_tree") then .ok (.chunks l, s)
    else bif Nat.beq n (name% "mix_in") then match p, args with
      | some p, [.int _ k] => (Res.of (mixIn C.env.hash l (IT.u64.conv k).toNat)).bind fun l => (write? p (.tree l) s).bind fun s => .ok (.void, s)
      | _, _ => .stuck
    else .stuck
  | .hasher =>
    bif Nat.beq n (name% "hash_64b_blocks") then match args with
      | [d, e, .int _ k] => (hashCall C.env.hash d e (IT.u64.conv k).toNat s).bind fun s => .ok (.void, s)
      | _ => .stuck
    else .stuck
  | v => method n p v args s

/-- A function object applied to each of the values (C++ [alg.foreach]; ssz/ssz_container.cpp:43). -/
def forEach (f : List Val → Mem → Res (Option Val × Mem)) : List Nat → Mem → Res Mem
  | [], s => .ok s
  | k :: ks, s => (f [.ptr (some k)] s).bind fun q => forEach f ks q.2

/-- The results of a function object on each of the values, appended to a vector of chunks (C++ [alg.transform], [back.insert.iterator];
ssz/ssz_container.cpp:119-121, common/containers.hpp:177-178). -/
def transform (f : List Val → Mem → Res (Option Val × Mem)) (d : Place) : List Val → Mem → Res Mem
  | [], s => .ok s
  | v :: vs, s => (f [v] s).bind fun q => match q.1 with
    | some (.bytes b) => (orStuck (chunkOf b)).bind fun c => (read? d q.2).bind fun w => match w with
      | .chunks l => (write? d (.chunks (l ++ [c])) q.2).bind fun s => transform f d vs s
      | _ => .stuck
    | _ => .stuck

/-- The elements of an array (C++ [stmt.ranged]; ssz/ssz_container.cpp:57,119-121, common/containers.hpp:77). -/
def elements : Val → Res (List Val)
  | .ptrs l => .ok (l.map fun k => .ptr (some k))
  | .objs l => .ok (l.map .obj)
  | _ => .stuck

/-- `__get_cpuid` and `__get_cpuid_count`: store the registers of a leaf if the processor has it, and tell whether it has
(`<cpuid.h>`; ssz/hasher.cpp:46,50). -/
def askCpu (leaf : BitVec 32) (regs : Cpu → CpuidRegs) (a b c d : Val) (s : Mem) : Res (Val × Mem) :=
  match (slotOf (name% "cpuid") s.glob).bind fun k => getSlot k s.glob with
  | some (.cpu cpu) => match cpu.get leaf (regs cpu), a, b, c, d with
    | some x, .iter a _, .iter b _, .iter c _, .iter d _ =>
      (write? a (.int .u32 x.a.toNat) s).bind fun s => (write? b (.int .u32 x.b.toNat) s).bind fun s =>
        (write? c (.int .u32 x.c.toNat) s).bind fun s => (write? d (.int .u32 x.d.toNat) s).bind fun s => .ok (.int .i32 1, s)
    | none, _, _, _, _ => .ok (.int .i32 0, s)
    | _, _, _, _, _ => .stuck
  | _ => .stuck

/-- Functions of the library and of helpers/bytes_to_int.hpp:61-65, and `deserialize` of the object itself (common/bitlist.cpp:77), given what the template argument is (C++ [alg.foreach], [alg.copy],
[alg.min.max], [iterator.operations], [bit.count]; ssz/ssz_container.cpp:43,83,89, common/bytes.hpp:85, common/bitlist.cpp:55, helpers/math.hpp:51,60,
ssz/hashtree.cpp:50,71,82,116,119, common/slot.hpp:50, common/containers.hpp:177). `std::memcpy` copies from an unsigned integer; `std::is_sorted` and `std::adjacent_find` look at
a whole list of integers (beacon-chain/attestation.cpp:69-70); `std::bit_cast` is to an array of bytes (common/bytes.hpp:47); `Bytes<N>` is made from an
array (common/bytes.hpp:75,137); `sha256_1_avx` hashes a block (ssz/hasher.cpp:36). Iterators may point before or behind an array, as long as nothing is read there. -/
def Ctx.library (C : Ctx) (n : Nat) (t : Option IT) (args : List Val) (s : Mem) : Option (Res (Val × Mem)) :=
  bif Nat.beq n (name% "distance") then some (match args with
    | [.iter p i, .iter q j] => bif decide (p = q) then .ok (.int .i64 (j - i), s) else .stuck
    | _ => .stuck)
  else bif Nat.beq n (name% "for_each") then some (match args with
    | [.iter p i, .iter q j, .lam ps b] =>
      bif decide (p = q) then (read? p s).bind fun v => match v with
        | .ptrs l => bif decide (0 ≤ i ∧ i ≤ j ∧ j ≤ l.length) then
            (forEach (C.apply ps b) ((l.drop i.toNat).take (j.toNat - i.toNat)) s).bind fun s => .ok (.void, s)
          else .ub
        | _ => .stuck
      else .stuck
    | _ => .stuck)
  else bif Nat.beq n (name% "to_integer_little_endian") then some (match args, t with
    | [.iter p i], some t => (range? (.iter p i) (.iter p (i + (t.bits / 8 : Nat))) s).bind fun l => .ok (.int t (fromLE l), s)
    | _, _ => .stuck)
  else bif Nat.beq n (name% "copy") then some (match args with
    | [a, b, .iter p i] => (range? a b s).bind fun m => (read? p s).bind fun v => match v with
      | .bytes l =>
        bif decide (0 ≤ i ∧ i + m.length ≤ l.length) then
          (write? p (.bytes (l.take i.toNat ++ (m ++ l.drop (i.toNat + m.length)))) s).bind fun s => .ok (.iter p (i + m.length), s)
        else .ub
      | _ => .stuck
    | _ => .stuck)
  else bif Nat.beq n (name% "countl_zero") then some (match args with
    | [.int t x] => .ok (.int .i32 (countlZeroFrom x.toNat t.bits), s)
    | _ => .stuck)
  else bif Nat.beq n (name% "sqrt") then some (match args with
    | [.double] => .ok (.double, s)
    | _ => .stuck)
  else bif Nat.beq n (name% "prev") then some (match args with
    | [.iter p i] => .ok (.iter p (i - 1), s)
    | _ => .stuck)
  else bif Nat.beq n (name% "min") then some (match args with
    | [.iter p i, .iter q j] => bif decide (p = q) then .ok (.iter p (bif decide (j < i) then j else i), s) else .stuck
    | _ => .stuck)
  else bif Nat.beq n (name% "max") then some (match args with
    | [.int t x, .int u y] => bif decide (t = u) then .ok (.int t (bif decide (x < y) then y else x), s) else .stuck
    | _ => .stuck)
  else bif Nat.beq n (name% "bit_ceil") then some (match args with
    | [.int .u64 x] => (Res.of (bitCeil x.toNat)).bind fun k => .ok (.int .u64 k, s)
    | _ => .stuck)
  else bif Nat.beq n (name% "transform") then some (match args with
    | [.iter p i, .iter q j, .sink d, .lam ps b] =>
      bif decide (p = q) then (read? p s).bind fun v => (elements v).bind fun l =>
        bif decide (0 ≤ i ∧ i ≤ j ∧ j ≤ l.length) then
          (transform (C.apply ps b) d ((l.drop i.toNat).take (j.toNat - i.toNat)) s).bind fun s => .ok (.sink d, s)
        else .ub
      else .stuck
    | _ => .stuck)
  else bif Nat.beq n (name% "memcpy") then some (match args with
    | [.iter p i, .iter q j, .int _ k] => (read? q s).bind fun w => (read? p s).bind fun v => match w, v with
      | .int t x, .bytes l =>
        bif decide (j = 0 ∧ 0 ≤ k ∧ k ≤ (t.bits / 8 : Nat) ∧ 0 ≤ i ∧ i + k ≤ l.length) then
          (write? p (.bytes (l.take i.toNat ++ ((leBytes (t.bits / 8) x.toNat).take k.toNat ++ l.drop (i.toNat + k.toNat)))) s).bind fun s => .ok (.iter p i, s)
        else .ub
      | _, _ => .stuck
    | _ => .stuck)
  else bif Nat.beq n (name% "is_sorted") then some (match args with
    | [.iter p i, .iter q j] => bif decide (p = q) then (read? p s).bind fun v => match v with
        | .obj ⟨.listF .uint64 _, l⟩ => bif decide (i = 0 ∧ j = ((l : List (BitVec 64)).length : Nat)) then .ok (.bool (isSorted l), s) else .stuck
        | _ => .stuck
      else .stuck
    | _ => .stuck)
  else bif Nat.beq n (name% "adjacent_find") then some (match args with
    | [.iter p i, .iter q j] => bif decide (p = q) then (read? p s).bind fun v => match v with
        | .obj ⟨.listF .uint64 _, l⟩ => bif decide (i = 0 ∧ j = ((l : List (BitVec 64)).length : Nat)) then .ok (.iter p (adjacentFind l : Nat), s) else .stuck
        | _ => .stuck
      else .stuck
    | _ => .stuck)
  else bif Nat.beq n (name% "bit_cast") then some (match args with
    | [.int t x] => .ok (.bytes (leBytes (t.bits / 8) (BitVec.ofInt t.bits x).toNat), s)
    | _ => .stuck)
  else bif Nat.beq n (name% "Bytes") then some (match args with
    | [.bytes l] => .ok (.bytes l, s)
    | _ => .stuck)
  else bif Nat.beq n (name% "deserialize") then some (match slotOf (name% "this") s.glob, args with
    | some k, [a, b] => (range? a b s).bind fun l => (read? (.glob k) s).bind fun v => match v with
      | .obj o => (Res.of (deserialize o.1 o.2 l)).bind fun r => (write? (.glob k) (.obj ⟨o.1, r.2⟩) s).bind fun s => .ok (.bool r.1, s)
      | _ => .stuck
    | _, _ => .stuck)
  else bif Nat.beq n (name% "setfill") then some (match args with
    | [.int _ x] => .ok (.manip 0 x.toNat, s)
    | _ => .stuck)
  else bif Nat.beq n (name% "setw") then some (match args with
    | [.int _ x] => .ok (.manip 1 x.toNat, s)
    | _ => .stuck)
  else bif Nat.beq n (name% "__get_cpuid_count") then some (match args with
    | [.int _ k, .int _ j, a, b, c, d] => bif decide (k = 7 ∧ j = 0) then askCpu 7#32 Cpu.leaf7 a b c d s else .stuck
    | _ => .stuck)
  else bif Nat.beq n (name% "__get_cpuid") then some (match args with
    | [.int _ k, a, b, c, d] => bif decide (k = 1) then askCpu 1#32 Cpu.leaf1 a b c d s else .stuck
    | _ => .stuck)
  else bif Nat.beq n (name% "sha256_1_avx") then some (match args with
    | [.iter p i, .iter q j] => (range? (.iter q j) (.iter q (j + 64)) s).bind fun m => (read? p s).bind fun v => match v with
      | .bytes l => match chunkOf (m.take 32), chunkOf (m.drop 32) with
        | some a, some b =>
          bif decide (0 ≤ i ∧ i + 32 ≤ l.length) then
            (write? p (.bytes (l.take i.toNat ++ ((C.env.hash a b).1 ++ l.drop (i.toNat + 32)))) s).bind fun s => .ok (.void, s)
          else .ub
        | _, _ => .stuck
      | _ => .stuck
    | _ => .stuck)
  else none

/-- The names of exceptions (common/bytes.hpp:60-62, ssz/hashtree.cpp:113). -/
def excOf : Ex → Res Exc
  | .call (.var n) _ =>
    bif Nat.beq n (name% "invalid_argument") then .ok .invalidArgument
    else bif Nat.beq n (name% "out_of_range") then .ok .outOfRange
    else .stuck
  | _ => .stuck

/-! ## Statements -/

/-- Leave a block: its variables are gone (C++ [basic.scope.block]; ssz/ssz_container.cpp:69). `k` is the number of variables before. -/
def leave (k : Nat) : Mem → Mem
  | ⟨c, b, g, h⟩ => ⟨c.drop (c.length - k), b, g, h⟩

/-- A new variable (ssz/ssz_container.cpp:54). -/
def bindVar (n : Nat) (v : Val) : Mem → Mem
  | ⟨c, b, g, h⟩ => ⟨(n, v) :: c, b, g, h⟩

/-- Repeat while a condition holds; `none`: the end of the loop was reached, `some`: the function returns (C++ [stmt.while], [stmt.for];
helpers/math.hpp:54, common/bitlist.cpp:47). -/
def iterate (c : Mem → Res (Bool × Mem)) (b : Mem → Res (Option Val × Mem)) : Nat → Mem → Res (Option Val × Mem)
  | 0, _ => .spent
  | n + 1, s => (c s).bind fun r => bif r.1 then
      (b r.2).bind fun q => match q.1 with
        | some v => .ok (some v, q.2)
        | none => iterate c b n q.2
    else .ok (none, r.2)

/-- Run for each of the values (C++ [stmt.ranged]; ssz/ssz_container.cpp:57). -/
def eachOf (b : Val → Mem → Res (Option Val × Mem)) : List Val → Mem → Res (Option Val × Mem)
  | [], s => .ok (none, s)
  | v :: vs, s => (b v s).bind fun q => match q.1 with
      | some v => .ok (some v, q.2)
      | none => eachOf b vs q.2

/-- A name: a variable of the function, or a global one; a reference stands for what it refers to (C++ [expr.prim.id]; ssz/ssz_container.cpp:86). -/
def lookup (n : Nat) (s : Mem) : Res Val :=
  match slotOf n s.cur with
  | some k => match getSlot k s.cur with
    | some (.ref p) => .ok (.ref p)
    | _ => .ok (.ref (.here k))
  | none => match slotOf n s.glob with
    | some k => .ok (.ref (.glob k))
    | none => .stuck

/-- The name of a type in a call: `std::uint32_t(e)`, `bool(e)`, `Bytes4(e)` (ssz/ssz_container.cpp:40, common/boolean.hpp:46, common/containers.hpp:191). -/
def Ctx.isType (C : Ctx) (n : Nat) : Bool :=
  match C.itype (.var n), bytesName n with
  | none, none => Nat.beq n (name% "bool")
  | _, _ => true

/-- The number of a name: its characters as digits to the base 256, as for `name%` (common/containers.hpp:293). -/
def numberOf (s : String) : Nat := nameOf (s.toList.map Char.toNat)

/-- The member with the given name of a struct, by value (beacon-chain/attestation.cpp:37-38). -/
def partNamed (n : Nat) : (ps : Parts) → ps.denote → Option Obj
  | .nil, _ => none
  | .cons name t ps, v => bif Nat.beq (numberOf name) n then some ⟨t, v.1⟩ else partNamed n ps v.2

/-- The member with the given name of an object (beacon-chain/attestation.cpp:37-38). -/
def memberOf (n : Nat) : Obj → Option Obj
  | ⟨.container _ _ ps, v⟩ => partNamed n ps v
  | _ => none

/-- The enumerators of `Hasher::IMPL`, whose operators `|`, `&` and `!` are those of the integers (ssz/hasher.hpp:36-52). -/
def enumerator (n : Nat) : Option Nat :=
  bif Nat.beq n (name% "NONE") then some 0 else bif Nat.beq n (name% "SSE") then some 1 else bif Nat.beq n (name% "AVX") then some 2
  else bif Nat.beq n (name% "AVX2") then some 4 else bif Nat.beq n (name% "SHA") then some 8 else none

mutual
/-- The value or place of an expression (C++ [expr]; ssz/ssz_container.cpp:48-105). Operands and arguments are evaluated from left to right. -/
def Ctx.eval (C : Ctx) : Ex → Mem → Res (Val × Mem)
  | .num n suffix, s => .ok (.int (bif Nat.beq suffix 0 then .i32 else .u64) n, s)
  | .str n, s => .ok (.chars ((Nasm.spell 64 n []).map (BitVec.ofNat 8)), s)
  | .comma a b, s => (C.eval a s).bind fun r => C.eval b r.2
  | .var n, s =>
    bif Nat.beq n (name% "nullptr") then .ok (.ptr none, s)
    else bif Nat.beq n (name% "true") then .ok (.bool true, s)
    else bif Nat.beq n (name% "false") then .ok (.bool false, s)
    else bif Nat.beq n (name% "this") then .ok (.self, s)
    else (lookup n s).bind fun v => .ok (v, s)
  | .scope c n, s =>
    bif Nat.beq c (name% "T") && Nat.beq n (name% "ssz_size") then match C.elem with
      | some t => .ok (.int .u64 t.sszSize, s)
      | none => .stuck
    else bif Nat.beq c (name% "endian") then
      bif Nat.beq n (name% "native") || Nat.beq n (name% "little") then .ok (.int .i32 1234, s)
      else bif Nat.beq n (name% "big") then .ok (.int .i32 4321, s)
      else .stuck
    else bif Nat.beq c (name% "IMPL") then (orStuck (enumerator n)).bind fun k => .ok (.int .i32 k, s)
    else .stuck
  | .deref e, s => (C.eval e s).bind fun r => (load r.1 r.2).bind fun v => match v with
    | .iter p i => .ok (.ref (.elem p i), r.2)
    | .ptr (some k) => .ok (.ref (.part k), r.2)
    | .ptr none => .ub
    | .self => .ok (.self, r.2)
    | _ => .stuck
  | .addr e, s => (C.eval e s).bind fun r => match r.1 with
    | .ref (.elem p i) => .ok (.iter p i, r.2)
    | .ref (.part k) => .ok (.ptr (some k), r.2)
    | .ref p => (read? p r.2).bind fun v => match v with
      | .int _ _ => .ok (.iter p 0, r.2)
      | .unset _ => .ok (.iter p 0, r.2)
      | .routine f => .ok (.routine f, r.2)
      | _ => .stuck
    | _ => .stuck
  | .not e, s => (C.eval e s).bind fun r => (load r.1 r.2).bind fun v => (orStuck (truth v)).bind fun b => .ok (.bool (!b), r.2)
  | .inc down e, s => (C.eval e s).bind fun r => match r.1 with
    | .ref p => (read? p r.2).bind fun v => (operate (bif down then .sub else .add) v (.int .i32 1)).bind fun w =>
      (write? p w r.2).bind fun s => .ok (.ref p, s)
    | _ => .stuck
  | .post down e, s => (C.eval e s).bind fun r => match r.1 with
    | .ref p => (read? p r.2).bind fun v => (operate (bif down then .sub else .add) v (.int .i32 1)).bind fun w =>
      (write? p w r.2).bind fun s => .ok (v, s)
    | _ => .stuck
  | .sizeof e, s => match typeSize e with
    | some k => .ok (.int .u64 k, s)
    | none => (C.eval e s).bind fun r => (load r.1 r.2).bind fun v => match v with
      | .int t _ => .ok (.int .u64 (t.bits / 8 : Nat), s)
      | _ => .stuck
  | .bin o a b, s => (C.eval a s).bind fun r => (load r.1 r.2).bind fun v => (C.eval b r.2).bind fun q => (load q.1 q.2).bind fun w =>
    (operate o v w).bind fun x => .ok (x, q.2)
  | .and a b, s => (C.eval a s).bind fun r => (load r.1 r.2).bind fun v => (orStuck (truth v)).bind fun t =>
    bif t then (C.eval b r.2).bind fun q => (load q.1 q.2).bind fun w => (orStuck (truth w)).bind fun u => .ok (.bool u, q.2)
    else .ok (.bool false, r.2)
  | .or a b, s => (C.eval a s).bind fun r => (load r.1 r.2).bind fun v => (orStuck (truth v)).bind fun t =>
    bif t then .ok (.bool true, r.2)
    else (C.eval b r.2).bind fun q => (load q.1 q.2).bind fun w => (orStuck (truth w)).bind fun u => .ok (.bool u, q.2)
  | .assign a b, s => (C.eval b s).bind fun q => (load q.1 q.2).bind fun w => (C.eval a q.2).bind fun r => match r.1 with
    | .ref p => (write? p w r.2).bind fun s => .ok (.ref p, s)
    | _ => .stuck
  | .update o a b, s => (C.eval b s).bind fun q => (load q.1 q.2).bind fun w => (C.eval a q.2).bind fun r => match r.1 with
    | .ref p => (read? p r.2).bind fun v => (operate o v w).bind fun x => (write? p x r.2).bind fun s => .ok (.ref p, s)
    | _ => .stuck
  | .cond c a b, s => (C.eval c s).bind fun r => (load r.1 r.2).bind fun v => (orStuck (truth v)).bind fun t =>
    bif t then (C.eval a r.2).bind fun q => (load q.1 q.2).bind fun w => .ok (w, q.2)
    else (C.eval b r.2).bind fun q => (load q.1 q.2).bind fun w => .ok (w, q.2)
  | .call f args, s => match f with
    | .mem e n => (C.eval e s).bind fun r => (load r.1 r.2).bind fun v => (C.evals args r.2).bind fun q => (loads q.1 q.2).bind fun vs =>
      C.invoke n (match r.1 with | .ref p => some p | _ => none) v q.1 vs q.2
    | .var n => (C.evals args s).bind fun q => (loads q.1 q.2).bind fun vs =>
      bif C.isType n then (C.make (.var n) none vs q.2).bind fun v => .ok (v, q.2)
      else bif Nat.beq n (name% "back_inserter") then match q.1 with
        | [.ref p] => .ok (.sink p, q.2)
        | _ => .stuck
      else match C.library n none vs q.2 with
        | some r => r
        | none => C.call n q.1 vs q.2
    | .tmpl n ts => (C.evals args s).bind fun q => (loads q.1 q.2).bind fun vs =>
      match C.library n (match ts with | .cons t .nil => C.itype t | _ => none) vs q.2 with
        | some r => r
        | none => C.call n q.1 vs q.2
    | .scope c n =>
      bif Nat.beq c (name% "numeric_limits") && Nat.beq n (name% "max") then match C.int with
        | some t => .ok (.int t (2 ^ (bif t.signed then t.bits - 1 else t.bits) - 1), s)
        | none => .stuck
      else bif Nat.beq c (name% "Container") then (C.evals args s).bind fun q => (loads q.1 q.2).bind fun vs => C.call n q.1 vs q.2
      else .stuck
    | _ => .stuck
  | .brace t args, s => match args with
    | .cons e .nil => match t with
      | .var n => bif Nat.beq n (name% "auto") then (C.eval e s).bind fun r => (load r.1 r.2).bind fun v => match v with
          | .bytes l => .ok (.listed l, r.2)
          | _ => .stuck
        else .stuck
      | _ => .stuck
    | .nil => match t with
      | .var n => bif Nat.beq n (name% "auto") then .ok (.braces, s) else .stuck
      | _ => .stuck
    | _ => .stuck
  | .mem e n, s => (C.eval e s).bind fun r => (load r.1 r.2).bind fun v => match v with
    | .obj o => (orStuck (memberOf n o)).bind fun o => .ok (.obj o, r.2)
    | _ => .stuck
  | .index a i, s => (C.eval a s).bind fun r => (C.eval i r.2).bind fun q => (load q.1 q.2).bind fun v => match r.1, intOf v with
    | .ref p, some (_, n) => .ok (.ref (.elem p n), q.2)
    | _, _ => .stuck
  | .cast t e, s => (C.eval e s).bind fun r => (load r.1 r.2).bind fun v => (C.coerce t v).bind fun w => .ok (w, r.2)
  | .lam ps b, s => .ok (.lam ps b, s)
  | _, _ => .stuck
/-- The values or places of arguments (C++ [expr.call]; ssz/ssz_container.cpp:61). -/
def Ctx.evals (C : Ctx) : Exs → Mem → Res (List Val × Mem)
  | .nil, s => .ok ([], s)
  | .cons e es, s => (C.eval e s).bind fun r => (C.evals es r.2).bind fun q => .ok (r.1 :: q.1, q.2)
end

/-- The value of an expression (C++ [conv.lval]; ssz/ssz_container.cpp:77). -/
def Ctx.value (C : Ctx) (e : Ex) (s : Mem) : Res (Val × Mem) := (C.eval e s).bind fun r => (load r.1 r.2).bind fun v => .ok (v, r.2)

/-- The truth of a condition (C++ [stmt.select]; ssz/ssz_container.cpp:59). -/
def Ctx.test (C : Ctx) (e : Ex) (s : Mem) : Res (Bool × Mem) := (C.value e s).bind fun r => (orStuck (truth r.1)).bind fun b => .ok (b, r.2)

/-- The values of arguments (C++ [expr.call]; ssz/ssz_container.cpp:61). -/
def Ctx.values (C : Ctx) (es : Exs) (s : Mem) : Res (List Val × Mem) :=
  (C.evals es s).bind fun r => (loads r.1 r.2).bind fun vs => .ok (vs, r.2)

/-- The value of the first template argument if it is an expression (common/bitvector.hpp:79), of the second one of two (ssz/hashtree.cpp:34,48). -/
def Ctx.sizeArg (C : Ctx) (t : Ex) (s : Mem) : Option Int :=
  match t with
  | .tmpl _ (.cons (.bin o a b) _) => match C.value (.bin o a b) s with
    | .ok (.int _ n, _) => some n
    | _ => none
  | .tmpl _ (.cons (.var _) (.cons e .nil)) => match C.value e s with
    | .ok (.int _ n, _) => some n
    | _ => none
  | _ => none

mutual
/-- Run a statement; `some`: the function returns (C++ [stmt.stmt]; ssz/ssz_container.cpp:48-105). -/
def Ctx.exec (C : Ctx) : Stmt → Mem → Res (Option Val × Mem)
  | .expr e, s => (C.eval e s).bind fun r => .ok (none, r.2)
  | .declare t n, s => (C.default t (C.sizeArg t s)).bind fun v => .ok (none, bindVar n v s)
  | .init t n e, s => (C.value e s).bind fun r => (C.coerce t r.1).bind fun v => .ok (none, bindVar n v r.2)
  | .refer _ n e, s => (C.eval e s).bind fun r => match r.1 with
    | .ref p => .ok (none, bindVar n (.ref p) r.2)
    | _ => .stuck
  | .construct t n args, s => (C.values args s).bind fun r => (C.make t (C.sizeArg t s) r.1 r.2).bind fun v => .ok (none, bindVar n v r.2)
  | .list t n args, s => (C.values args s).bind fun r => (C.make t (C.sizeArg t s) r.1 r.2).bind fun v => .ok (none, bindVar n v r.2)
  | .ret e, s => (C.value e s).bind fun r => .ok (some r.1, r.2)
  | .throw e, _ => (excOf e).bind fun e => .throws e
  | .ite c a b, s => (C.test c s).bind fun r => bif r.1 then C.exec a r.2 else C.exec b r.2
  | .while c b, s => iterate (C.test c) (fun s => C.exec b s) C.fuel s
  | .for i c step b, s => (C.exec i s).bind fun r =>
    (iterate (C.test c) (fun s => (C.exec b s).bind fun q => match q.1 with
      | some v => .ok (some v, q.2)
      | none => (C.eval step q.2).bind fun q => .ok (none, q.2)) C.fuel r.2).bind fun q => .ok (q.1, leave s.cur.length q.2)
  | .range _ _ n e b, s => (C.value e s).bind fun r => (elements r.1).bind fun vs =>
    eachOf (fun v s => (C.exec b (bindVar n v s)).bind fun q => .ok (q.1, leave s.cur.length q.2)) vs r.2
  | .block b, s => (C.execs b s).bind fun q => .ok (q.1, leave s.cur.length q.2)
  | .decls b, s => C.execs b s
/-- Run statements one after the other (C++ [stmt.block]; ssz/ssz_container.cpp:48-105). -/
def Ctx.execs (C : Ctx) : Sts → Mem → Res (Option Val × Mem)
  | .nil, s => .ok (none, s)
  | .cons a b, s => (C.exec a s).bind fun q => match q.1 with
    | some v => .ok (some v, q.2)
    | none => C.execs b q.2
end

/-! ## Calls -/

/-- A place, seen from a function that is called: variables of the caller are in the `k`-th frame (ssz/hashtree.cpp:122). -/
def Place.outer (k : Nat) : Place → Place
  | .here j => .there k j
  | .elem p i => .elem (p.outer k) i
  | p => p

/-- The parameters get their values, or the places they refer to if they may change them (C++ [expr.call]; ssz/ssz_container.cpp:54,
ssz/hashtree.cpp:122). A parameter `const T &` is a copy: nothing changes it meanwhile.
A value that has no place is bound to the reference (C++ [dcl.init.ref]; common/bytes.hpp:65): the reference is then one to `const`, otherwise the code does not compile. -/
def Ctx.params (C : Ctx) (k : Nat) : List Param → List Val → Frame → Res Frame
  | [], [], f => .ok f
  | p :: ps, v :: vs, f =>
    bif p.ref then match v with
      | .ref q => C.params k ps vs ((p.name, .ref (q.outer k)) :: f)
      | v => (C.coerce p.type v).bind fun v => C.params k ps vs ((p.name, v) :: f)
    else (C.coerce p.type v).bind fun v => C.params k ps vs ((p.name, v) :: f)
  | _, _, _ => .stuck

/-- The places for the parameters that are references, the values for the others (C++ [dcl.init.ref]; ssz/hashtree.cpp:122). -/
def pick : List Param → List Val → List Val → List Val
  | p :: ps, r :: rs, v :: vs => (bif p.ref then r else v) :: pick ps rs vs
  | _, _, vs => vs

/-- Call a function (C++ [expr.call]; ssz/ssz_container.cpp:54). -/
def Ctx.enter (C : Ctx) (f : Func) (args : List Val) : Mem → Res (Val × Mem)
  | ⟨c, b, g, h⟩ => (C.params b.length f.params args []).bind fun fr => (C.execs f.body ⟨fr, c :: b, g, h⟩).bind fun q => match q with
    | (v, ⟨_, b, g, h⟩) => match b with
      | c :: b => (match v with | some v => C.coerce f.type v | none => .ok .void).bind fun v => .ok (v, ⟨c, b, g, h⟩)
      | [] => .stuck

/-- Call a function object: in the frame of the function that made it (C++ [expr.prim.lambda]; ssz/ssz_container.cpp:36-43). -/
def Ctx.lambda (C : Ctx) (ps : List Nat) (b : Sts) (args : List Val) (s : Mem) : Res (Option Val × Mem) :=
  bif Nat.beq ps.length args.length then
    (C.execs b (((ps.zip args).foldl (fun s p => bindVar p.1 p.2 s)) s)).bind fun q => .ok (q.1, leave s.cur.length q.2)
  else .stuck

/-- The function with the given name (ssz/ssz_container.cpp:54). -/
def find (n : Nat) : List Func → Option Func
  | [] => none
  | f :: fs => bif Nat.beq f.name n then some f else find n fs

/-- The meaning of names in a program, with the given depth of calls (helpers/math.hpp:34-42). -/
def ctx (fs : List Func) (int : Option IT) (elem : Option Ty) (env : Env) (fuel : Nat) : Nat → Ctx
  | 0 => ⟨int, elem, env, fuel, fun _ _ _ _ => .spent, fun _ _ _ _ => .spent⟩
  | d + 1 => ⟨int, elem, env, fuel,
      fun n raws args s => match find n fs with
        | some f => (ctx fs int elem env fuel d).enter f (pick f.params raws args) s
        | none => .stuck,
      fun ps b args s => (ctx fs int elem env fuel d).lambda ps b args s⟩

/-- Run a function with the given arguments, the members of the object and other global things, and the parts that pointers point to
(ssz/ssz_container.cpp:48): the value returned, the global things and the parts afterwards. -/
def run (fs : List Func) (int : Option IT) (elem : Option Ty) (env : Env) (fuel depth : Nat) (f : Func) (args : List Val) (glob : Frame)
    (parts : List Obj) : Res (Val × Frame × List Obj) :=
  ((ctx fs int elem env fuel depth).enter f args ⟨[], [], glob, parts⟩).bind fun r => .ok (r.1, r.2.glob, r.2.parts)

end Mammon.Cpp
