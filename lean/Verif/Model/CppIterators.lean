import Verif.Model.CppReferences
/-!
# Iterators and `data` of the classes in the texts
-/

namespace Mammon.Cpp
open Nasm

/-- What `begin`, `cbegin`, `end` and `cend` of an object return, in this order (common/bytes.hpp:144-150, common/containers.hpp:67-73,128-131,170-173). -/
def iteratorsOf (E : Env) (o : Obj) (cls : Nat) (l : List Top) : List (Res Val) :=
  [name% "begin", name% "cbegin", name% "end", name% "cend"].map fun n => returned E o (memberFunction l cls n)

/-- The contents of a place in an object (common/containers.hpp:43,99). -/
def heldAt (o : Obj) (p : Place) : Res Val := read? p ⟨[], [], fields o.1 o.2, []⟩

/-- `std::vector<T>& data()` of a class (common/containers.hpp:132), used as in `x.data() = v`: a function that assigns its argument to what is returned,
which is an lvalue. The parameter has a name that no variable has. -/
def assignData (cls : Nat) (l : List Top) : Option Func :=
  match bodyIn cls [.id (name% "std"), .sym (name% "::"), .id (name% "vector"), .sym (name% "<"), .id (name% "T"), .sym (name% ">"), .sym (name% "&"),
      .id (name% "data"), .sym (name% "("), .sym (name% ")")] l with
  | some (.cons (.ret e) .nil) =>
    some ⟨cls, name% "data", .var (name% "void"), [⟨.tmpl (name% "vector") (.cons (.var (name% "T")) .nil), false, name% "new"⟩],
      .cons (.expr (.assign e (.var (name% "new")))) .nil⟩
  | _ => none

end Mammon.Cpp
