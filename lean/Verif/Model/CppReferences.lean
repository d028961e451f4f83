import Verif.Model.CppConversions
/-!
# Functions that return references, and the conversion of `Bytes` to a vector, in the texts
-/

namespace Mammon.Cpp
open Nasm

/-- The bodies of the functions with exactly the given head (common/slot.hpp:45, common/boolean.hpp:39, common/bytes.hpp:89). -/
def bodiesOf (h : List Tok) : List Decl → List (List Tok)
  | [] => []
  | ⟨head, body⟩ :: l => match body, expect h (withoutLabels head) with
    | some b, some [] => b :: bodiesOf h l
    | _, _ => bodiesOf h l

/-- The body of the only function with exactly the given head in a class (common/slot.hpp:45, common/boolean.hpp:39, common/bytes.hpp:89). -/
def bodyIn (cls : Nat) (h : List Tok) (l : List Top) : Option Sts :=
  match (classTokens cls l).map fun b => bodiesOf h (declarationsIn 10000 b) with
  | some [b] => statements 100 b
  | _ => none

/-- `std::vector<std::uint8_t>` (common/bytes.hpp:89). -/
def byteVector : List Tok :=
  [.id (name% "std"), .sym (name% "::"), .id (name% "vector"), .sym (name% "<"), .id (name% "std"), .sym (name% "::"), .id (name% "uint8_t"), .sym (name% ">")]

/-- `operator std::vector<std::uint8_t>()` of `Bytes` (common/bytes.hpp:89-92). -/
def vectorConversion (l : List Top) : Option Func :=
  match bodyIn (name% "Bytes") (.id (name% "operator") :: byteVector ++ [.sym (name% "("), .sym (name% ")")]) l, typeName 20 byteVector with
  | some ss, some (t, []) => some ⟨name% "Bytes", name% "operator", t, [], ss⟩
  | _, _ => none

/-- `operator T&()` of a class (common/slot.hpp:45, common/boolean.hpp:39), used as in `static_cast<T&>(x) = v`: a function that assigns its argument to
what is returned, which is an lvalue. The parameter has a name that no variable has. -/
def assignThrough (cls : Nat) (ts : List Tok) (l : List Top) : Option Func :=
  match bodyIn cls (.id (name% "operator") :: ts ++ [.sym (name% "&"), .sym (name% "("), .sym (name% ")")]) l, typeName 20 ts with
  | some (.cons (.ret e) .nil), some (t, []) =>
    some ⟨cls, name% "operator", .var (name% "void"), [⟨t, false, name% "new"⟩], .cons (.expr (.assign e (.var (name% "new")))) .nil⟩
  | _, _ => none

/-- The members of an object after the call of a function with one argument (common/slot.hpp:45, common/boolean.hpp:39). -/
def membersAfter (E : Env) (o : Obj) (f : Option Func) (v : Val) : Res Frame :=
  (orStuck f).bind fun f => (run [] none (elemOf o.1) E 0 0 f [v] (fields o.1 o.2) []).bind fun r => .ok r.2.1

end Mammon.Cpp
