import Verif.Model.CppConversions
/-!
# Constructors with a default argument, and the function that sets the limit
-/

namespace Mammon.Cpp
open Nasm

/-- The head of a function with one parameter `T x = e` as the head without `= e`, and `e` (C++ [dcl.fct.default]; common/slot.hpp:37, common/containers.hpp:125). -/
def withoutDefault (head : List Tok) : Option (List Tok × List Tok) :=
  match upto (name% "=") [] head with
  | none => none
  | some (h, rest) => match upto (name% ")") [] rest with
    | none => none
    | some (e, rest) => some (h ++ .sym (name% ")") :: rest, e)

/-- Is it the head of a destructor? (common/slot.hpp:38) -/
def isDestructor : List Tok → Bool
  | [] => false
  | t :: ts => t.isSym (name% "~") || isDestructor ts

/-- The only constructor with a body in a class, and the default of its only argument (common/slot.hpp:37, common/boolean.hpp:37, common/containers.hpp:125,167). -/
def defaulted (cls : Nat) (l : List Top) : Option (Func × Ex) :=
  match (classTokens cls l).map fun b => (members 10000 cls b).filter fun x => !isDestructor x.1 with
  | some [(h, b)] => match withoutDefault h with
    | none => none
    | some (h, e) => match constructed cls h b, assignment 50 e with
      | some f, some (e, []) => some (f, e)
      | _, _ => none
  | _ => none

/-- Run a constructor with an argument, or with its default (C++ [dcl.fct.default]; common/slot.hpp:37): the members afterwards. -/
def constructedWith (E : Env) (elem : Option Ty) (c : Option (Func × Ex)) (arg : Option Val) (g : Frame) : Res Frame :=
  (orStuck c).bind fun c => (match arg with
    | some v => Res.ok v
    | none => ((ctx [] none elem E 0 0).value c.2 ⟨[], [], [], []⟩).bind fun r => .ok r.1).bind fun v =>
      (run [] none elem E 0 0 c.1 [v] g []).bind fun r => .ok r.2.1

end Mammon.Cpp
