import Verif.Model.Types
/-!
# Members of objects by name

The specifications speak of the fields of an object by their names (`data.target.epoch`); these functions find them in the values of the model.
-/

namespace Mammon.Spec

/-- The member of the given name. -/
def memberOfParts : (ps : Parts) → String → ps.denote → Option ((t : Ty) × t.denote)
  | .nil, _, _ => none
  | .cons n t ps, name, v => if n = name then some ⟨t, v.1⟩ else memberOfParts ps name v.2

/-- The member of an object of a container class. -/
def member (x : (t : Ty) × t.denote) (name : String) : Option ((t : Ty) × t.denote) :=
  match x with
  | ⟨.container _ _ ps, v⟩ => memberOfParts ps name v
  | _ => none

/-- Follow a path of names: `at x ["target", "epoch"]` is `x.target.epoch`. -/
def follow (x : (t : Ty) × t.denote) : List String → Option ((t : Ty) × t.denote)
  | [] => some x
  | name :: path => (member x name).bind fun y => follow y path

/-- The value of an integer object. -/
def asNat : (t : Ty) × t.denote → Option Nat
  | ⟨.uint64, v⟩ => some v.toNat
  | _ => none

/-- The value of a Boolean object. -/
def asBool : (t : Ty) × t.denote → Option Bool
  | ⟨.boolean, v⟩ => some v
  | _ => none

/-- The elements of a list of integers. -/
def asNats : (t : Ty) × t.denote → Option (List Nat)
  | ⟨.listF .uint64 _, v⟩ => some ((v : List (BitVec 64)).map (·.toNat))
  | _ => none

/-- The number of elements of a list object. -/
def asCount : (t : Ty) × t.denote → Option Nat
  | ⟨.listF _ _, v⟩ => some v.length
  | ⟨.listV _ _, v⟩ => some v.length
  | _ => none

/-- The integer `x.path`. -/
def natAt {t : Ty} (x : t.denote) (path : List String) : Option Nat := (follow ⟨t, x⟩ path).bind asNat

/-- The Boolean `x.path`. -/
def boolAt {t : Ty} (x : t.denote) (path : List String) : Option Bool := (follow ⟨t, x⟩ path).bind asBool

/-- The list of integers `x.path`. -/
def natsAt {t : Ty} (x : t.denote) (path : List String) : Option (List Nat) := (follow ⟨t, x⟩ path).bind asNats

/-- The length of the list `x.path`. -/
def countAt {t : Ty} (x : t.denote) (path : List String) : Option Nat := (follow ⟨t, x⟩ path).bind asCount

end Mammon.Spec
