import Verif.Spec.Decode
/-!
# What a rejected input leaves in the object

The decoder looks at one thing after the other, offsets and parts, and stops at the first that is not in order. The parts that were looked at
before have their new values, the part at which it stopped has what the decoder of the part left in it, and the other ones are as they were. A list
is emptied first and then has the elements that were accepted before the stop.
-/

namespace Mammon.Spec

open Verdict

/-- What has become of a part: it was decoded, decoding stopped in it, or it was not looked at. -/
inductive Status : Type
  | decoded
  | stopped
  | untouched

/-- What has become of the part with number `k`, given the things that are looked at in order, each with the number of the part (none for an
offset) and the verdict on it. -/
def status (k : Nat) : List (Option Nat × Verdict Unit) → Status
  | [] => .untouched
  | (j, v) :: steps =>
    match v with
    | accepted _ => if j = some k then .decoded else status k steps
    | rejected => if j = some k then .stopped else .untouched
    | undefined => if j = some k then .stopped else .untouched

/-- The values accepted before the first that is not. -/
def acceptedPrefix {α : Type} : (n : Nat) → (Nat → Verdict α) → List α
  | 0, _ => []
  | n + 1, f =>
    match f 0 with
    | accepted a => a :: acceptedPrefix n fun k => f (k + 1)
    | rejected => []
    | undefined => []

/-- Old values overwritten by accepted ones up to the first that is not accepted, which `left` describes. -/
def overwritten {α : Type} (f : Nat → Verdict α) (left : Nat → α → α) : List α → List α
  | [] => []
  | o :: os =>
    match f 0 with
    | accepted a => a :: overwritten (fun k => f (k + 1)) (fun k => left (k + 1)) os
    | rejected => left 0 o :: os
    | undefined => left 0 o :: os

theorem length_overwritten {α : Type} (f : Nat → Verdict α) (left : Nat → α → α) (os : List α) : (overwritten f left os).length = os.length := by
  induction os generalizing f left with
  | nil => rfl
  | cons o os ih =>
    rw [overwritten]
    cases f 0 <;> simp [ih]

/-- The things the decoder of a container looks at, from position `i` of the fixed section and part number `k` on: that a fixed-size part is
there, and the part; that an offset is in order, and the variable-size part before, which now has an end; at last the last variable-size
part. `before` is the number and offset of the variable-size part that is open, and its verdict as a function of its end. -/
def steps : (ps : Parts) → List Byte → (fixedLength i k : Nat) → (before : Option (Nat × Nat × (Nat → Verdict Unit))) → List (Option Nat × Verdict Unit)
  | .nil, bs, _, _, _, before =>
    match before with
    | none => []
    | some x => [(some x.1, x.2.2 bs.length)]
  | .cons _ t ps, bs, fixedLength, i, k, before =>
    if isVariable t then
      let cur := readOffset bs i
      (none, if i + 4 ≤ bs.length ∧ cur ≤ bs.length ∧ offsetOk fixedLength (before.map (·.2.1)) cur = true then accepted () else rejected) ::
        ((match before with
          | none => []
          | some x => [(some x.1, x.2.2 cur)]) ++
        steps ps bs fixedLength (i + 4) (k + 1) (some (k, cur, fun e => (decode t (range bs cur e)).void)))
    else
      (none, if i + fixedSize t ≤ bs.length then accepted () else rejected) :: (some k, (decode t (range bs i (i + fixedSize t))).void) ::
        steps ps bs fixedLength (i + fixedSize t) (k + 1) before

mutual
/-- The contents of an object with contents `old` after it has rejected `bs`. -/
def leftover : (t : Ty) → (old : t.denote) → (bs : List Byte) → t.denote
  | .uint64, old, _ => old
  | .boolean, old, _ => old
  | .bytes _, old, _ => old
  | .bitvector _, old, _ => old
  | .bitlist _, old, _ => old
  | .vector t n, old, bs =>
    if bs.length = n * fixedSize t then
      ⟨overwritten (fun k => decode t (range bs (k * fixedSize t) ((k + 1) * fixedSize t)))
        (fun k o => leftover t o (range bs (k * fixedSize t) ((k + 1) * fixedSize t))) old.1, (length_overwritten _ _ _).trans old.2⟩
    else old
  | .listF t _, _, bs =>
    if bs.length % fixedSize t = 0 then
      acceptedPrefix (bs.length / fixedSize t) fun k => decode t (range bs (k * fixedSize t) ((k + 1) * fixedSize t))
    else []
  | .listV t _, _, bs =>
    let first := readOffset bs 0
    let offset := fun k => readOffset bs (4 * k)
    if bs.length < 4 ∨ first < 4 ∨ bs.length < first then []
    else acceptedPrefix (first / 4) fun k =>
      if k + 1 < first / 4 then
        if offset k ≤ offset (k + 1) ∧ offset (k + 1) ≤ bs.length then decode t (range bs (offset k) (offset (k + 1))) else rejected
      else if first % 4 = 0 then decode t (range bs (offset k) bs.length) else rejected
  | .container _ _ ps, old, bs => leftoverParts ps old bs 0 0 (steps ps bs (fixedSizeParts ps) 0 0 none)

/-- The contents of the parts from position `i` of the fixed section and number `k` on after the given steps. -/
def leftoverParts : (ps : Parts) → (old : ps.denote) → (bs : List Byte) → (i k : Nat) → List (Option Nat × Verdict Unit) → ps.denote
  | .nil, _, _, _, _, _ => ()
  | .cons _ t ps, old, bs, i, k, done =>
    let bytes := if isVariable t then range bs (readOffset bs i) (endOf ps bs (i + 4)) else range bs i (i + fixedSize t)
    (match status k done with
      | .decoded => (decode t bytes).value t.dflt
      | .stopped => leftover t old.1 bytes
      | .untouched => old.1,
     leftoverParts ps old.2 bs (if isVariable t then i + 4 else i + fixedSize t) (k + 1) done)
end

end Mammon.Spec
