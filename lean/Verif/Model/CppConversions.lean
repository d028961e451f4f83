import Verif.Model.CppNames
/-!
# Conversions, sizes and inherited functions in the texts
-/

namespace Mammon.Cpp
open Nasm

/-- `T{e}` as `T(e)` in the body of a conversion: the same constructor is called, as nothing is narrowed and the class has no constructor from a list (C++ [dcl.init.list];
common/slot.hpp:46, common/boolean.hpp:40, common/bytes.hpp:70-87). Other bodies with braces cannot be read afterwards. -/
def parenthesised : List Tok → List Tok
  | [] => []
  | t :: ts => (match t with
    | .sym c => bif Nat.beq c (name% "{") then .sym (name% "(") else bif Nat.beq c (name% "}") then .sym (name% ")") else .sym c
    | t => t) :: parenthesised ts

/-- The functions `operator T() const` among declarations, for a name `T` (common/slot.hpp:44,46, common/boolean.hpp:38,40). Those that return a reference are left out. -/
def conversions (cls n : Nat) : List Decl → List (Option Func)
  | [] => []
  | ⟨head, body⟩ :: l => match body, withoutLabels head with
    | some b, .id o :: ts => bif Nat.beq o (name% "operator") then
        match typeName 20 ts with
        | some (.var m, [.sym a, .sym c, .id q]) =>
          bif Nat.beq m n && Nat.beq a (name% "(") && Nat.beq c (name% ")") && Nat.beq q (name% "const") then
            ((statements 100 (parenthesised b)).map fun ss => ⟨cls, n, .var m, [], ss⟩) :: conversions cls n l
          else conversions cls n l
        | _ => conversions cls n l
      else conversions cls n l
    | _, _ => conversions cls n l

/-- The only conversion of a class to the given type (common/slot.hpp:44,46, common/boolean.hpp:38,40). -/
def conversionIn (cls n : Nat) (l : List Top) : Option Func :=
  match (classTokens cls l).map fun b => conversions cls n (declarationsIn 10000 b) with
  | some [f] => f
  | _ => none

/-- What a function without arguments of an object returns (common/containers.hpp:65,126,169, common/bytes.hpp:141, common/slot.hpp:44). -/
def returned (E : Env) (o : Obj) (f : Option Func) : Res Val :=
  (orStuck f).bind fun f => (run [] none (elemOf o.1) E 0 0 f [] (fields o.1 o.2) []).bind fun r => .ok r.1

/-- Does the class declare a function of the given name, with or without a body? (common/containers.hpp:96-232, ssz/ssz_container.hpp:53) -/
def declaresFunction (n : Nat) : List Decl → Bool
  | [] => false
  | ⟨head, _⟩ :: l => (match upto (name% "(") [] head with
    | some (h, _) => match h.reverse with
      | .id m :: _ => Nat.beq m n
      | _ => false
    | none => false) || declaresFunction n l

/-- The only function with the given name in the given class, which is declared `virtual` there (ssz/ssz_container.hpp:53). -/
def virtualFunction (l : List Top) (cls n : Nat) : Option Func :=
  match (classTokens cls l).map (members 10000 n) with
  | some [(.id v :: h, b)] => bif Nat.beq v (name% "virtual") then understood cls n h b else none
  | _ => none

/-- `get_ssz_size` of a class that is derived from `ssz::Container`: its own, otherwise that of `ssz::Container` (C++ [class.virtual];
common/containers.hpp:97,161, ssz/ssz_container.hpp:53). `none` if there is no such class. -/
def inheritedSize (l base : List Top) (cls : Nat) : Option Func :=
  match classTokens cls l with
  | none => none
  | some b => bif declaresFunction (name% "get_ssz_size") (declarationsIn 10000 b) then memberFunction l cls (name% "get_ssz_size")
    else virtualFunction base (name% "Container") (name% "get_ssz_size")

end Mammon.Cpp
