import Verif.Spec.Offsets
/-!
# Which byte strings a decoder accepts, and what it makes of them

A decoder over unbounded naturals and whole byte strings, without iterators, machine integers, objects that are overwritten, and loops with
early exits: where the bytes of every element and part are is given by arithmetic, and the verdict is the first one, in the order in which
the parts are looked at, that is not "accepted". Three things are not those of the SSZ specification, because the code is not: a bit list
without delimiter bit is undefined, limits are not looked at, and bytes after the end of a container without variable-size parts as well as the
padding bits of bit vectors are ignored.
-/

namespace Mammon.Spec

/-- What decoding ends in. -/
inductive Verdict (α : Type) : Type
  | accepted (a : α)
  | rejected
  | undefined

namespace Verdict

/-- First the one, then, if accepted, the other. -/
def andThen {α β : Type} : Verdict α → (α → Verdict β) → Verdict β
  | accepted a, f => f a
  | rejected, _ => rejected
  | undefined, _ => undefined

/-- The verdict without the value. -/
def void {α : Type} (x : Verdict α) : Verdict Unit := x.andThen fun _ => accepted ()

/-- The value, if accepted. -/
def value {α : Type} (x : Verdict α) (dflt : α) : α :=
  match x with
  | accepted a => a
  | _ => dflt

/-- `n` verdicts in order. -/
def inOrder {α : Type} : (n : Nat) → (Nat → Verdict α) → Verdict (Vec α n)
  | 0, _ => accepted ⟨[], rfl⟩
  | n + 1, f => (f 0).andThen fun a => (inOrder n fun k => f (k + 1)).andThen fun v => accepted ⟨a :: v.1, congrArg (· + 1) v.2⟩

end Verdict

/-- The bytes at the positions `a .. b - 1`. -/
def range (bs : List Byte) (a b : Nat) : List Byte := (bs.drop a).take (b - a)

/-- The integer with the given little-endian bytes. -/
def uintOf (bs : List Byte) : Nat := ((List.range bs.length).map fun i => (bs.getD i 0#8).toNat * 256 ^ i).sum

/-- The first `n` bits of a byte string. -/
def bitsOf (n : Nat) (bs : List Byte) : List Bool := (List.range n).map fun i => (bs.getD (i / 8) 0#8).getLsbD (i % 8)

/-- Where the variable-size part that is open ends: at the next offset, or at the end of the input. -/
def endOf (ps : Parts) (bs : List Byte) (i : Nat) : Nat :=
  match offsetPositions ps i with
  | [] => bs.length
  | j :: _ => readOffset bs j

/-- Is an offset in order? The first one must be the length of the fixed section, the others not less than the one before. -/
def offsetOk (fixedLength : Nat) (before : Option Nat) (cur : Nat) : Bool :=
  match before with
  | none => cur == fixedLength
  | some l => decide (l ≤ cur)

open Verdict

mutual
/-- Decode. -/
def decode : (t : Ty) → List Byte → Verdict t.denote
  | .uint64, bs => if bs.length = 8 then accepted (BitVec.ofNat 64 (uintOf bs)) else rejected
  | .boolean, bs => if bs = [0#8] then accepted false else if bs = [1#8] then accepted true else rejected
  | .bytes n, bs => if h : bs.length = n then accepted ⟨bs, h⟩ else rejected
  | .bitvector n, bs => if bs.length = (n + 7) / 8 then accepted ⟨bitsOf n bs, by simp [bitsOf]⟩ else rejected
  | .bitlist _, bs =>
    match bs.getLast? with
    | none => undefined
    | some b => if b = 0#8 then undefined else accepted (bitsOf (8 * (bs.length - 1) + Nat.log2 b.toNat) bs)
  | .vector t n, bs =>
    if bs.length = n * fixedSize t then inOrder n fun k => decode t (range bs (k * fixedSize t) ((k + 1) * fixedSize t)) else rejected
  | .listF t _, bs =>
    if bs.length % fixedSize t = 0 then
      (inOrder (bs.length / fixedSize t) fun k => decode t (range bs (k * fixedSize t) ((k + 1) * fixedSize t))).andThen fun v => accepted v.1
    else rejected
  | .listV t _, bs =>
    let first := readOffset bs 0
    let offset := fun k => readOffset bs (4 * k)
    if bs = [] then accepted []
    else if bs.length < 4 ∨ first < 4 ∨ bs.length < first then rejected
    else
      (inOrder (first / 4) fun k =>
        if k + 1 < first / 4 then
          if offset k ≤ offset (k + 1) ∧ offset (k + 1) ≤ bs.length then decode t (range bs (offset k) (offset (k + 1))) else rejected
        else if first % 4 = 0 then decode t (range bs (offset k) bs.length) else rejected).andThen fun v => accepted v.1
  | .container _ _ ps, bs => (walk ps bs (fixedSizeParts ps) 0 none).andThen fun _ => accepted (contents ps bs 0)

/-- The verdict on the parts of a container from position `i` of the fixed section on: a fixed-size part is looked at where it is, a variable-size
part when the next offset has been read, or at the end. `before` is the offset of the part that is open and its verdict as a function of its end. -/
def walk : (ps : Parts) → List Byte → (fixedLength i : Nat) → (before : Option (Nat × (Nat → Verdict Unit))) → Verdict Unit
  | .nil, bs, _, _, before =>
    match before with
    | none => accepted ()
    | some x => x.2 bs.length
  | .cons _ t ps, bs, fixedLength, i, before =>
    if isVariable t then
      let cur := readOffset bs i
      if i + 4 ≤ bs.length ∧ cur ≤ bs.length ∧ offsetOk fixedLength (before.map (·.1)) cur = true then
        (match before with
          | none => accepted ()
          | some x => x.2 cur).andThen fun _ =>
        walk ps bs fixedLength (i + 4) (some (cur, fun e => (decode t (range bs cur e)).void))
      else rejected
    else if i + fixedSize t ≤ bs.length then
      (decode t (range bs i (i + fixedSize t))).andThen fun _ => walk ps bs fixedLength (i + fixedSize t) before
    else rejected

/-- The values of the parts of a container from position `i` of the fixed section on, if all are accepted. -/
def contents : (ps : Parts) → List Byte → (i : Nat) → ps.denote
  | .nil, _, _ => ()
  | .cons _ t ps, bs, i =>
    if isVariable t then ((decode t (range bs (readOffset bs i) (endOf ps bs (i + 4)))).value t.dflt, contents ps bs (i + 4))
    else ((decode t (range bs i (i + fixedSize t))).value t.dflt, contents ps bs (i + fixedSize t))
end

end Mammon.Spec
