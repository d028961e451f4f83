import Verif.Model.CppConversions
/-!
# `operator==` that is defaulted or inherited, in the texts
-/

namespace Mammon.Cpp
open Nasm

/-- The declarations of `operator==` in the body of a class, with or without a body (common/slot.hpp:62, ssz/ssz_container.hpp:61). -/
def equalities : List Decl → List Decl
  | [] => []
  | ⟨head, body⟩ :: l => match untemplate (withoutLabels head) with
    | some h => bif isOperator (name% "==") h then ⟨h, body⟩ :: equalities l else equalities l
    | none => equalities l

/-- The names of the data members, in order: declarations without a body, parentheses, `static` and `using` (common/slot.hpp:34, common/bitlist.hpp:32-33). -/
def dataMembers : List Decl → List Nat
  | [] => []
  | ⟨head, body⟩ :: l => match body, withoutLabels head with
    | none, .id k :: ts => bif among k [name% "static", name% "using", name% "friend"] || hasParen ts then dataMembers l
      else match ts.reverse with
        | .id n :: _ => n :: dataMembers l
        | _ => dataMembers l
    | _, _ => dataMembers l

/-- `bool operator==(const C &) const` with a body, as a function without parameters: the parameter has no name, so that the body cannot use it
(ssz/ssz_container.hpp:61). -/
def unnamedEquality (c : Nat) (d : Decl) : Option Func :=
  match d with
  | ⟨head, some b⟩ => match expect [.id (name% "bool"), .id (name% "operator"), .sym (name% "=="), .sym (name% "("), .id (name% "const"), .id c,
      .sym (name% "&"), .sym (name% ")"), .id (name% "const")] head with
    | some [] => match statements 1000 b with
      | some ss => some ⟨c, name% "==", .var (name% "bool"), [], ss⟩
      | none => none
    | _ => none
  | _ => none

/-- `==` of two members: of integers of one type, `bool`, `std::vector<bool>`, `std::array<bool, N>` and arrays of bytes (common/slot.hpp:34,
common/boolean.hpp:34, common/bitvector.hpp:38, common/bitlist.hpp:32-33). -/
def sameValue : Val → Val → Res Bool
  | .int t a, .int u b => bif t == u then .ok (a == b) else .stuck
  | .bool a, .bool b => .ok (a == b)
  | .bools a, .bools b => .ok (a == b)
  | .bytes a, .bytes b => .ok (a == b)
  | _, _ => .stuck

/-- Memberwise comparison in the order of the members, until two differ (C++ [class.eq]; common/slot.hpp:62, common/bitlist.hpp:52). -/
def memberwise (a b : Frame) : List Nat → Res Bool
  | [] => .ok true
  | n :: l => match valueOf n a, valueOf n b with
    | some x, some y => (sameValue x y).bind fun r => bif r then memberwise a b l else .ok false
    | _, _ => .stuck

/-- `Container::operator==` (ssz/ssz_container.hpp:61). -/
def baseEqual (E : Env) (base : List Top) : Res Bool :=
  match (classTokens (name% "Container") base).map fun b => equalities (declarationsIn 10000 b) with
  | some [d] => (orStuck (unnamedEquality (name% "Container") d)).bind fun f => (run [] none none E 0 0 f [] [] []).bind fun r => match r.1 with
    | .bool r => .ok r
    | _ => .stuck
  | _ => .stuck

/-- `a == b` for two objects of a class with the given members: without a declaration in the class that of `Container`; a defaulted one compares the
`Container` in the objects and then the members (C++ [class.eq]; common/slot.hpp:62, common/boolean.hpp:50, common/bitvector.hpp:91,
common/bitlist.hpp:52, common/containers.hpp:40-233). -/
def equalIn (E : Env) (base : List Top) (cls : Nat) (a b : Frame) (l : List Top) : Res Bool :=
  match (classTokens cls l).map (declarationsIn 10000) with
  | none => .stuck
  | some ds => match equalities ds with
    | [] => baseEqual E base
    | [⟨head, none⟩] => match expect (eqDecl cls) head with
      | some [] => (baseEqual E base).bind fun r => bif r then memberwise a b (dataMembers ds) else .ok false
      | _ => .stuck
    | _ => .stuck

end Mammon.Cpp
