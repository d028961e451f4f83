import Verif.Model.HashCalls
/-!
# The shape of an object, and what a sequence of hasher calls costs
-/

namespace Mammon.Spec

/-- The two lists have the same length, and elements at the same place are related. -/
def SameLists {α : Type} (R : α → α → Prop) (v w : List α) : Prop :=
  v.length = w.length ∧ ∀ (i : Nat) (a b : α), v[i]? = some a → w[i]? = some b → R a b

mutual
/-- The objects differ in the values of integers, booleans, bytes and bits only: all lists and bit lists have the same lengths. -/
def SameShape : (t : Ty) → t.denote → t.denote → Prop
  | .uint64, _, _ => True
  | .boolean, _, _ => True
  | .bytes _, _, _ => True
  | .bitvector _, _, _ => True
  | .bitlist _, v, w => (v : List Bool).length = (w : List Bool).length
  | .vector t _, v, w => SameLists (fun a b => SameShape t a b) v.1 w.1
  | .listF t _, v, w => SameLists (fun a b => SameShape t a b) v w
  | .listV t _, v, w => SameLists (fun a b => SameShape t a b) v w
  | .container _ _ ps, v, w => SameShapeParts ps v w

/-- `SameShape` of all parts. -/
def SameShapeParts : (ps : Parts) → ps.denote → ps.denote → Prop
  | .nil, _, _ => True
  | .cons _ t ps, v, w => SameShape t v.1 w.1 ∧ SameShapeParts ps v.2 w.2
end

/-- The sum of the costs of the calls. -/
def total (cost : Nat → Nat) (es : List HashEvent) : Nat := (es.map fun e => match e with | .call k => cost k | .alloc _ => 0).sum

/-- The two outcomes are of the same kind: both normal, both the same exception, or both undefined. -/
def SameKind {α β : Type} : Out α → Out β → Prop
  | .ok _, .ok _ => True
  | .throws e, .throws e' => e = e'
  | .ub, .ub => True
  | _, _ => False

end Mammon.Spec
