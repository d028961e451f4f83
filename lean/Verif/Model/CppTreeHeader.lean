import Verif.Model.CppDefaults
/-!
# The declarations of the constructors of `HashTree`
-/

namespace Mammon.Cpp
open Nasm

/-- The defaults of the last arguments of the constructors that a class declares without a body (C++ [dcl.fct.default]; ssz/hashtree.hpp:42-43). -/
def declaredDefaults (cls : Nat) : List Decl → Option (List Ex)
  | [] => some []
  | ⟨head, body⟩ :: l => match body, upto (name% "(") [] (withoutLabels head) with
    | none, some (h, _) => match h.reverse with
      | .id m :: _ => bif Nat.beq m cls then
          match withoutDefault head with
          | none => none
          | some (_, e) => match assignment 50 e, declaredDefaults cls l with
            | some (e, []), some es => some (e :: es)
            | _, _ => none
        else declaredDefaults cls l
      | _ => declaredDefaults cls l
    | _, _ => declaredDefaults cls l

/-- Where the text of the declarations of the constructors of `HashTree` is: ssz/hashtree.hpp:42-43. -/
def treeDefaults (l : List Top) : Option (List Ex) := (classTokens (name% "HashTree") l).bind fun b => declaredDefaults (name% "HashTree") (declarationsIn 10000 b)

/-- The value of an expression without names (ssz/hashtree.hpp:42). -/
def constantOf (E : Env) (e : Ex) : Res Val := ((ctx [] none none E 0 0).value e ⟨[], [], [], []⟩).bind fun r => .ok r.1

end Mammon.Cpp
