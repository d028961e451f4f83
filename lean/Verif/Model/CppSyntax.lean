import Verif.Model.Cpp
/-!
# Statements and expressions

The part of the C++ grammar that the bodies of the functions use. A qualified name stands for its last component, unless it is a member of a class
given by a template parameter (`T::ssz_size`). Whatever is outside that part makes the result `none`.
-/

namespace Mammon.Cpp

/-- Binary operators without short circuit, without assignment (common/bitlist.cpp:38-61, ssz/hashtree.cpp:77-98). -/
inductive Op
  | add | sub | mul | div | mod | shl | shr | band | bor | xor | eq | ne | lt | gt | le | ge
  deriving DecidableEq, Repr

mutual
/-- Expressions and types; a type is an expression made of names and template arguments (common/bitlist.cpp:33-63, ssz/hashtree.cpp:29-131). -/
inductive Ex
  /-- A number with its suffix (ssz/hashtree.cpp:119). -/
  | num (n suffix : Nat)
  /-- A string literal (common/bytes.hpp:60). -/
  | str (n : Nat)
  /-- A name (ssz/hashtree.cpp:78). -/
  | var (n : Nat)
  /-- A member of a class, `T::ssz_size`; the arguments of a class template are left out, `std::numeric_limits<T>::max` (common/containers.hpp:148,
  helpers/math.hpp:52). -/
  | scope (c n : Nat)
  /-- A name with template arguments (helpers/math.hpp:39). -/
  | tmpl (n : Nat) (args : Exs)
  /-- `*e` (common/bitlist.cpp:55). -/
  | deref (e : Ex)
  /-- `&e` (ssz/ssz_container.cpp:89). -/
  | addr (e : Ex)
  /-- `!e` (ssz/ssz_container.cpp:84). -/
  | not (e : Ex)
  /-- `-e` (no occurrence in the files read; C++ [expr.unary.op]). -/
  | neg (e : Ex)
  /-- `++e` and `--e` (common/bitlist.cpp:54,58). -/
  | inc (down : Bool) (e : Ex)
  /-- `e++` and `e--` (ssz/hashtree.cpp:91). -/
  | post (down : Bool) (e : Ex)
  /-- `sizeof(e)` (common/slot.hpp:57). -/
  | sizeof (e : Ex)
  /-- An operator (ssz/hashtree.cpp:80). -/
  | bin (o : Op) (a b : Ex)
  /-- `a && b` (helpers/math.hpp:54). -/
  | and (a b : Ex)
  /-- `a || b` (helpers/math.hpp:55). -/
  | or (a b : Ex)
  /-- `a = b` (ssz/ssz_container.cpp:98). -/
  | assign (a b : Ex)
  /-- `a += b` and the like (ssz/ssz_container.cpp:86). -/
  | update (o : Op) (a b : Ex)
  /-- `c ? a : b` (ssz/hashtree.cpp:115). -/
  | cond (c a b : Ex)
  /-- `f(args)`, `T(args)` (ssz/ssz_container.cpp:54). -/
  | call (f : Ex) (args : Exs)
  /-- `T{args}`; `{args}` is written with the type `auto` (ssz/ssz_container.cpp:51). -/
  | brace (t : Ex) (args : Exs)
  /-- `e.n`; `e->n` is `(*e).n` (ssz/ssz_container.cpp:58). -/
  | mem (e : Ex) (n : Nat)
  /-- `a[i]` (common/bitlist.cpp:48). -/
  | index (a i : Ex)
  /-- `(T)e` (helpers/math.hpp:51) and `static_cast<T>(e)` (ssz/hasher.hpp:45). -/
  | cast (t e : Ex)
  /-- The comma operator (helpers/bytes_to_int.hpp:71). -/
  | comma (a b : Ex)
  /-- `[...](params) { body }` (ssz/ssz_container.cpp:36-42). -/
  | lam (params : List Nat) (body : Sts)
/-- Arguments (ssz/ssz_container.cpp:61). -/
inductive Exs
  | nil
  | cons (e : Ex) (es : Exs)
/-- Statements (ssz/ssz_container.cpp:48-105). -/
inductive Stmt
  /-- An expression (ssz/ssz_container.cpp:86). -/
  | expr (e : Ex)
  /-- `T x;` (ssz/ssz_container.cpp:56). -/
  | declare (t : Ex) (n : Nat)
  /-- `T x = e;` (ssz/ssz_container.cpp:77). -/
  | init (t : Ex) (n : Nat) (e : Ex)
  /-- `T &x = e;` (common/containers.hpp:54). -/
  | refer (t : Ex) (n : Nat) (e : Ex)
  /-- `T x(args);` (ssz/ssz_container.cpp:60). -/
  | construct (t : Ex) (n : Nat) (args : Exs)
  /-- `T x{args};` (ssz/hashtree.cpp:69). -/
  | list (t : Ex) (n : Nat) (args : Exs)
  /-- `return e;` (ssz/ssz_container.cpp:70). -/
  | ret (e : Ex)
  /-- `throw e;` (ssz/hashtree.cpp:113). -/
  | throw (e : Ex)
  /-- `if (c) a` and `if (c) a else b` (ssz/ssz_container.cpp:59-68). -/
  | ite (c : Ex) (a b : Stmt)
  /-- `while (c) b` (ssz/hashtree.cpp:85). -/
  | while (c : Ex) (b : Stmt)
  /-- `for (i; c; s) b` (common/bitlist.cpp:47). -/
  | for (i : Stmt) (c s : Ex) (b : Stmt)
  /-- `for (T x : e) b` (ssz/ssz_container.cpp:57). -/
  | range (t : Ex) (ref : Bool) (n : Nat) (e : Ex) (b : Stmt)
  /-- `{ ... }` (ssz/ssz_container.cpp:57-69). -/
  | block (b : Sts)
  /-- The declarations of one statement: `T x, y;` (ssz/ssz_container.cpp:56). -/
  | decls (b : Sts)
/-- Statements one after the other (ssz/ssz_container.cpp:48-71). -/
inductive Sts
  | nil
  | cons (s : Stmt) (ss : Sts)
end

/-! ## Reading expressions -/

/-- The precedence of a binary operator, larger for operators that bind tighter, and the operator (C++ [expr.compound]; helpers/math.hpp:54-60). -/
def binary (c : Nat) : Option (Nat × Op) :=
  bif Nat.beq c (name% "*") then some (10, .mul) else bif Nat.beq c (name% "/") then some (10, .div)
  else bif Nat.beq c (name% "%") then some (10, .mod) else bif Nat.beq c (name% "+") then some (9, .add)
  else bif Nat.beq c (name% "-") then some (9, .sub) else bif Nat.beq c (name% "<<") then some (8, .shl)
  else bif Nat.beq c (name% ">>") then some (8, .shr) else bif Nat.beq c (name% "<") then some (7, .lt)
  else bif Nat.beq c (name% ">") then some (7, .gt) else bif Nat.beq c (name% "<=") then some (7, .le)
  else bif Nat.beq c (name% ">=") then some (7, .ge) else bif Nat.beq c (name% "==") then some (6, .eq)
  else bif Nat.beq c (name% "!=") then some (6, .ne) else bif Nat.beq c (name% "&") then some (5, .band)
  else bif Nat.beq c (name% "^") then some (4, .xor) else bif Nat.beq c (name% "|") then some (3, .bor)
  else none

/-- Compound assignments (C++ [expr.ass]; common/bitlist.cpp:48). -/
def compound (c : Nat) : Option Op :=
  bif Nat.beq c (name% "+=") then some .add else bif Nat.beq c (name% "-=") then some .sub else bif Nat.beq c (name% "*=") then some .mul
  else bif Nat.beq c (name% "/=") then some .div else bif Nat.beq c (name% "%=") then some .mod else bif Nat.beq c (name% "|=") then some .bor
  else bif Nat.beq c (name% "&=") then some .band else bif Nat.beq c (name% "^=") then some .xor else none

/-- The namespaces (ssz/ssz_container.cpp:47, common/slot.hpp:31). -/
def namespaces : List Nat := [name% "std", name% "constants", name% "helpers", name% "eth", name% "ssz"]

/-- A name, qualified or not (C++ [expr.prim.id]; common/bitlist.cpp:47, common/containers.hpp:148). A leading `::` is left out
(ssz/hasher.cpp:59). -/
def qualifiedName : List Tok → Option (Ex × List Tok)
  | .id m :: .sym c :: .id n :: ts =>
    bif Nat.beq c (name% "::") then
      bif among m namespaces then
        match ts with
        | .sym c :: .id k :: ts' =>
          bif Nat.beq c (name% "::") then bif among n namespaces then some (.var k, ts') else some (.scope n k, ts') else some (.var n, .sym c :: .id k :: ts')
        | _ => some (.var n, ts)
      else some (.scope m n, ts)
    else some (.var m, .sym c :: .id n :: ts)
  | .id n :: ts => some (.var n, ts)
  | .sym c :: .id n :: ts => bif Nat.beq c (name% "::") then some (.var n, ts) else none
  | _ => none

/-- Words that begin a type and do not matter here (common/bytes.hpp:45-59). -/
def typeWords : List Nat := [name% "const", name% "constexpr", name% "static", name% "typename", name% "inline"]

/-- Words that are no names (C++ [lex.key]; ssz/ssz_container.cpp:48-105). -/
def keywords : List Nat :=
  [name% "return", name% "if", name% "else", name% "while", name% "for", name% "throw", name% "sizeof", name% "switch", name% "case", name% "break",
   name% "using", name% "default"]

/-- The tokens without the words that do not matter (ssz/hashtree.cpp:36). -/
def skipWords : Nat → List Tok → List Tok
  | 0, ts => ts
  | fuel + 1, ts => match ts with
    | .id n :: ts => bif among n typeWords then skipWords fuel ts else .id n :: ts
    | ts => ts

/-- Behind a type: whether it is a reference, and the rest (ssz/ssz_container.cpp:57, common/containers.hpp:54). Pointers are values. -/
def declaratorMark : Nat → Bool → List Tok → Bool × List Tok
  | 0, r, ts => (r, ts)
  | fuel + 1, r, ts => match ts with
    | .sym c :: rest => bif Nat.beq c (name% "*") then declaratorMark fuel r rest else bif Nat.beq c (name% "&") then declaratorMark fuel true rest else (r, ts)
    | .id n :: rest => bif Nat.beq n (name% "const") then declaratorMark fuel r rest else (r, ts)
    | ts => (r, ts)

/-- The names of parameters (ssz/ssz_container.cpp:36): the last word before each comma outside of brackets. -/
def paramNames : Nat → Nat → List Tok → Option (List Nat)
  | _, last, [] => bif Nat.beq last 0 then some [] else some [last]
  | d, last, t :: ts =>
    bif t.isSym (name% "<") || t.isSym (name% "(") then paramNames (d + 1) last ts
    else bif t.isSym (name% ">") || t.isSym (name% ")") then paramNames (d - 1) last ts
    else bif t.isSym (name% ",") && Nat.beq d 0 then
      bif Nat.beq last 0 then none else match paramNames 0 0 ts with
        | none => none
        | some l => some (last :: l)
    else match t with
      | .id n => paramNames d n ts
      | _ => paramNames d last ts

/-- What is furthest to the left in `a << b << c` (common/bitvector.hpp:69). -/
def leftmost : Ex → Ex
  | .bin _ a _ => leftmost a
  | e => e

/-- The tokens of one group of a `switch`, up to its `break;`, and those behind it. A group that does not end with `break;`, or with another statement in it
that a `break` can belong to, is not modelled (C++ [stmt.switch], [stmt.break]; ssz/hasher.cpp:67-69). -/
def untilBreak (acc : List Tok) : List Tok → Option (List Tok × List Tok)
  | [] => none
  | .id k :: rest =>
    bif Nat.beq k (name% "break") then
      match rest with
      | .sym c :: rest => bif Nat.beq c (name% ";") then some (acc.reverse, rest) else none
      | _ => none
    else bif among k [name% "case", name% "default", name% "switch", name% "while", name% "for"] then none
    else untilBreak (.id k :: acc) rest
  | t :: rest => untilBreak (t :: acc) rest

/-- An expression used as a statement. `os << a << b;` changes `os`, so it is read as `os = os << a << b`; nothing else is done with `<<` in a statement
(C++ [ostream.formatted]; common/bitvector.hpp:67-69). -/
def effect : Ex → Stmt
  | .bin .shl a b => .expr (.assign (leftmost a) (.bin .shl a b))
  | e => .expr e

mutual
/-- A type: words that do not matter, a name, template arguments (ssz/ssz_container.cpp:34,56). -/
def typeName : Nat → List Tok → Option (Ex × List Tok)
  | 0, _ => none
  | fuel + 1, ts => match qualifiedName (skipWords 4 ts) with
    | none => none
    | some (.var n, rest) =>
      bif among n keywords then none
      else bif Nat.beq n (name% "unsigned") then
        match rest with
        | .id m :: rest' => bif among m [name% "int", name% "char"] then some (.tmpl n (.cons (.var m) .nil), rest') else some (.var n, rest)
        | _ => some (.var n, rest)
      else match rest with
        | .sym c :: rest' =>
          bif Nat.beq c (name% "<") then
            match templateArgs fuel rest' with
            | none => some (.var n, rest)
            | some (as, rest'') => some (.tmpl n as, rest'')
          else some (.var n, rest)
        | _ => some (.var n, rest)
    | some (e, rest) => some (e, rest)

/-- Template arguments up to `>`: types with `*` or `&` behind them, or expressions without comparisons (ssz/ssz_container.cpp:34, common/bitvector.hpp:79). -/
def templateArgs : Nat → List Tok → Option (Exs × List Tok)
  | 0, _ => none
  | fuel + 1, ts =>
    match (match typeName fuel ts with
      | some (t, rest) => match declaratorMark 4 false rest with
        | (_, .sym c :: rest') => bif among c [name% ">", name% ">>", name% ","] then some (t, Tok.sym c :: rest') else additive fuel ts
        | _ => additive fuel ts
      | none => additive fuel ts) with
    | some (e, .sym c :: rest) =>
      bif Nat.beq c (name% ">") then some (.cons e .nil, rest)
      else bif Nat.beq c (name% ">>") then some (.cons e .nil, .sym (name% ">") :: rest)
      else bif Nat.beq c (name% ",") then
        match templateArgs fuel rest with
        | none => none
        | some (es, rest) => some (.cons e es, rest)
      else none
    | _ => none

/-- Operators that bind tighter than shifts (common/bitvector.hpp:79). -/
def additive : Nat → List Tok → Option (Ex × List Tok)
  | 0, _ => none
  | fuel + 1, ts => match unary fuel ts with
    | none => none
    | some (a, rest) => climb fuel 9 a rest

/-- An expression (C++ [expr.ass]; ssz/hashtree.cpp:88). -/
def assignment : Nat → List Tok → Option (Ex × List Tok)
  | 0, _ => none
  | fuel + 1, ts => match logical fuel ts with
    | none => none
    | some (a, rest) => match rest with
      | .sym c :: rest' =>
        bif Nat.beq c (name% "=") then
          match assignment fuel rest' with
          | none => none
          | some (b, rest) => some (.assign a b, rest)
        else bif Nat.beq c (name% "?") then
          match assignment fuel rest' with
          | some (b, .sym d :: rest) =>
            bif Nat.beq d (name% ":") then
              match assignment fuel rest with
              | none => none
              | some (e, rest) => some (.cond a b e, rest)
            else none
          | _ => none
        else match compound c with
          | none => some (a, rest)
          | some o => match assignment fuel rest' with
            | none => none
            | some (b, rest) => some (.update o a b, rest)
      | _ => some (a, rest)

/-- `a || b` (C++ [expr.log.or]; helpers/math.hpp:55). -/
def logical : Nat → List Tok → Option (Ex × List Tok)
  | 0, _ => none
  | fuel + 1, ts => match conjunction fuel ts with
    | none => none
    | some (a, rest) => match rest with
      | .sym c :: rest' =>
        bif Nat.beq c (name% "||") then
          match logical fuel rest' with
          | none => none
          | some (b, rest) => some (.or a b, rest)
        else some (a, rest)
      | _ => some (a, rest)

/-- `a && b` (C++ [expr.log.and]; helpers/math.hpp:54). Operands are grouped from the right, which gives the same value. -/
def conjunction : Nat → List Tok → Option (Ex × List Tok)
  | 0, _ => none
  | fuel + 1, ts => match unary fuel ts with
    | none => none
    | some (a, rest) => match climb fuel 0 a rest with
      | none => none
      | some (a, rest) => match rest with
        | .sym c :: rest' =>
          bif Nat.beq c (name% "&&") then
            match conjunction fuel rest' with
            | none => none
            | some (b, rest) => some (.and a b, rest)
          else some (a, rest)
        | _ => some (a, rest)

/-- The binary operators of at least the given precedence behind an operand (C++ [expr.mul] to [expr.or]; helpers/math.hpp:37). -/
def climb : Nat → Nat → Ex → List Tok → Option (Ex × List Tok)
  | 0, _, _, _ => none
  | fuel + 1, p, a, ts => match ts with
    | .sym c :: rest => match binary c with
      | none => some (a, ts)
      | some (q, o) =>
        bif Nat.blt q p then some (a, ts)
        else match unary fuel rest with
          | none => none
          | some (b, rest) => match climb fuel (q + 1) b rest with
            | none => none
            | some (b, rest) => climb fuel p (.bin o a b) rest
    | _ => some (a, ts)

/-- Unary operators and casts (C++ [expr.unary], [expr.cast]; helpers/math.hpp:51, common/bitlist.cpp:54). -/
def unary : Nat → List Tok → Option (Ex × List Tok)
  | 0, _ => none
  | fuel + 1, ts => match ts with
    | .sym c :: rest =>
      bif Nat.beq c (name% "*") then (match unary fuel rest with | none => none | some (e, rest) => some (.deref e, rest))
      else bif Nat.beq c (name% "&") then (match unary fuel rest with | none => none | some (e, rest) => some (.addr e, rest))
      else bif Nat.beq c (name% "!") then (match unary fuel rest with | none => none | some (e, rest) => some (.not e, rest))
      else bif Nat.beq c (name% "-") then (match unary fuel rest with | none => none | some (e, rest) => some (.neg e, rest))
      else bif Nat.beq c (name% "++") then (match unary fuel rest with | none => none | some (e, rest) => some (.inc false e, rest))
      else bif Nat.beq c (name% "--") then (match unary fuel rest with | none => none | some (e, rest) => some (.inc true e, rest))
      else bif Nat.beq c (name% "(") then
        match (match typeName fuel rest with
          | some (t, .sym d :: .id n :: rest') => bif Nat.beq d (name% ")") && !among n keywords then some (t, Tok.id n :: rest') else none
          | some (t, .sym d :: .sym e :: rest') => bif Nat.beq d (name% ")") && Nat.beq e (name% "(") then some (t, Tok.sym e :: rest') else none
          | some (t, .sym d :: .num n h s :: rest') => bif Nat.beq d (name% ")") then some (t, Tok.num n h s :: rest') else none
          | _ => none) with
        | some (t, rest') => (match unary fuel rest' with | none => none | some (e, rest) => some (.cast t e, rest))
        | none => match assignment fuel rest with
          | some (e, .sym d :: rest) => bif Nat.beq d (name% ")") then suffixes fuel e rest else none
          | _ => none
      else bif Nat.beq c (name% "[") then
        match upto (name% "]") [] rest with
        | some (_, .sym d :: rest) =>
          bif Nat.beq d (name% "(") then
            match inside (name% "(") (name% ")") 0 [] rest with
            | none => none
            | some (ps, rest) => match upto (name% "{") [] rest with
              | none => none
              | some (_, rest) => match inside (name% "{") (name% "}") 0 [] rest, paramNames 0 0 ps with
                | some (b, rest), some ns => match statements fuel b with
                  | some ss => some (.lam ns ss, rest)
                  | none => none
                | _, _ => none
          else none
        | _ => none
      else bif Nat.beq c (name% "{") then
        match arguments fuel (name% "}") rest with
        | none => none
        | some (as, rest) => some (.brace (.var (name% "auto")) as, rest)
      else bif Nat.beq c (name% "::") then
        match rest with
        | .id n :: rest => suffixes fuel (.var n) rest
        | _ => none
      else none
    | .num n _ s :: rest => some (.num n s, rest)
    | .str n :: rest => some (.str n, rest)
    | .id n :: rest =>
      bif Nat.beq n (name% "sizeof") then
        match rest with
        | .sym c :: rest => bif Nat.beq c (name% "(") then
            match assignment fuel rest with
            | some (e, .sym d :: rest) => bif Nat.beq d (name% ")") then some (.sizeof e, rest) else none
            | _ => none
          else none
        | _ => none
      else bif Nat.beq n (name% "static_cast") then
        match typeName fuel (.id n :: rest) with
        | some (.tmpl _ (.cons t .nil), .sym c :: rest) => bif Nat.beq c (name% "(") then
            match assignment fuel rest with
            | some (e, .sym d :: rest) => bif Nat.beq d (name% ")") then suffixes fuel (.cast t e) rest else none
            | _ => none
          else none
        | _ => none
      else bif among n keywords then none
      else match typeName fuel (.id n :: rest) with
        | some (.tmpl m as, .sym c :: .id k :: rest') =>
          bif Nat.beq c (name% "::") then suffixes fuel (.scope m k) rest'
          else bif Nat.beq c (name% "(") || Nat.beq c (name% "{") then suffixes fuel (.tmpl m as) (.sym c :: .id k :: rest')
          else match qualifiedName (.id n :: rest) with
            | none => none
            | some (e, rest) => suffixes fuel e rest
        | some (.tmpl m as, .sym c :: rest') =>
          bif Nat.beq c (name% "(") || Nat.beq c (name% "{") then suffixes fuel (.tmpl m as) (.sym c :: rest')
          else match qualifiedName (.id n :: rest) with
            | none => none
            | some (e, rest) => suffixes fuel e rest
        | _ => match qualifiedName (.id n :: rest) with
          | none => none
          | some (e, rest) => suffixes fuel e rest
    | _ => none

/-- What follows an operand: calls, braces, members, indices, `++` (C++ [expr.post]; ssz/ssz_container.cpp:57-70). -/
def suffixes : Nat → Ex → List Tok → Option (Ex × List Tok)
  | 0, _, _ => none
  | fuel + 1, e, ts => match ts with
    | .sym c :: rest =>
      bif Nat.beq c (name% "(") then
        match arguments fuel (name% ")") rest with
        | none => none
        | some (as, rest) => suffixes fuel (.call e as) rest
      else bif Nat.beq c (name% "{") then
        match arguments fuel (name% "}") rest with
        | none => none
        | some (as, rest) => suffixes fuel (.brace e as) rest
      else bif Nat.beq c (name% "[") then
        match assignment fuel rest with
        | some (i, .sym d :: rest) => bif Nat.beq d (name% "]") then suffixes fuel (.index e i) rest else none
        | _ => none
      else bif Nat.beq c (name% ".") then
        match rest with
        | .id n :: rest => suffixes fuel (.mem e n) rest
        | _ => none
      else bif Nat.beq c (name% "->") then
        match rest with
        | .id n :: rest => suffixes fuel (.mem (.deref e) n) rest
        | _ => none
      else bif Nat.beq c (name% "++") then suffixes fuel (.post false e) rest
      else bif Nat.beq c (name% "--") then suffixes fuel (.post true e) rest
      else some (e, ts)
    | _ => some (e, ts)

/-- Arguments up to the closing bracket (C++ [expr.call]; ssz/ssz_container.cpp:61). -/
def arguments : Nat → Nat → List Tok → Option (Exs × List Tok)
  | 0, _, _ => none
  | fuel + 1, close, ts => match ts with
    | .sym c :: rest =>
      bif Nat.beq c close then some (.nil, rest) else arguments1 fuel close ts
    | ts => arguments1 fuel close ts

/-- At least one argument (C++ [expr.call]; ssz/ssz_container.cpp:61). -/
def arguments1 : Nat → Nat → List Tok → Option (Exs × List Tok)
  | 0, _, _ => none
  | fuel + 1, close, ts => match assignment fuel ts with
    | some (e, .sym c :: rest) =>
      bif Nat.beq c close then some (.cons e .nil, rest)
      else bif Nat.beq c (name% ",") then
        match arguments1 fuel close rest with
        | none => none
        | some (es, rest) => some (.cons e es, rest)
      else none
    | _ => none

/-- The declarators of a declaration behind its type (C++ [dcl.decl]; ssz/ssz_container.cpp:56). -/
def declared1 : Nat → Ex → Bool → List Tok → Option (Sts × List Tok)
  | 0, _, _, _ => none
  | fuel + 1, t, ref, ts => match ts with
    | .id n :: .sym c :: rest =>
      match (bif Nat.beq c (name% "=") then
          match assignment fuel rest with
          | none => none
          | some (e, rest) => some (bif ref then Stmt.refer t n e else Stmt.init t n e, rest)
        else bif Nat.beq c (name% "(") then
          match arguments fuel (name% ")") rest with
          | none => none
          | some (as, rest) => some (Stmt.construct t n as, rest)
        else bif Nat.beq c (name% "{") then
          match arguments fuel (name% "}") rest with
          | none => none
          | some (as, rest) => some (Stmt.list t n as, rest)
        else some (Stmt.declare t n, Tok.sym c :: rest)) with
      | some (s, .sym d :: rest) =>
        bif Nat.beq d (name% ";") then some (.cons s .nil, rest)
        else bif Nat.beq d (name% ",") then
          match declared1 fuel t ref rest with
          | none => none
          | some (ss, rest) => some (.cons s ss, rest)
        else none
      | _ => none
    | _ => none

/-- A declaration or an expression, up to and with the `;` (C++ [stmt.dcl], [stmt.expr]; ssz/ssz_container.cpp:54-61). It is a declaration if a name
follows a type. -/
def simple : Nat → List Tok → Option (Stmt × List Tok)
  | 0, _ => none
  | fuel + 1, ts =>
    match (match typeName fuel ts with
      | some (t, rest) => match declaratorMark 4 false rest with
        | (ref, .id n :: rest) => some (t, ref, Tok.id n :: rest)
        | _ => none
      | none => none) with
    | some (t, ref, rest) => match declared1 fuel t ref rest with
      | some (.cons s .nil, rest) => some (s, rest)
      | some (ss, rest) => some (.decls ss, rest)
      | none => none
    | none => match assignment fuel ts with
      | some (e, .sym c :: rest) => bif Nat.beq c (name% ";") then some (effect e, rest) else none
      | _ => none

/-- A statement (C++ [stmt.stmt]; ssz/ssz_container.cpp:48-105). -/
def statement : Nat → List Tok → Option (Stmt × List Tok)
  | 0, _ => none
  | fuel + 1, ts => match ts with
    | .sym c :: rest =>
      bif Nat.beq c (name% "{") then
        match inside (name% "{") (name% "}") 0 [] rest with
        | none => none
        | some (b, rest) => match statements fuel b with
          | none => none
          | some ss => some (.block ss, rest)
      else simple fuel ts
    | .id k :: rest =>
      bif Nat.beq k (name% "return") then
        match assignment fuel rest with
        | some (e, .sym c :: rest) => bif Nat.beq c (name% ";") then some (.ret e, rest) else none
        | _ => none
      else bif Nat.beq k (name% "throw") then
        match assignment fuel rest with
        | some (e, .sym c :: rest) => bif Nat.beq c (name% ";") then some (.throw e, rest) else none
        | _ => none
      else bif Nat.beq k (name% "using") then
        match upto (name% ";") [] rest with
        | none => none
        | some (_, rest) => some (.block .nil, rest)
      else bif Nat.beq k (name% "if") then
        match (match rest with | .id n :: r => bif Nat.beq n (name% "constexpr") then r else rest | _ => rest) with
        | .sym c :: rest => bif Nat.beq c (name% "(") then
            match assignment fuel rest with
            | some (e, .sym d :: rest) => bif Nat.beq d (name% ")") then
                match statement fuel rest with
                | none => none
                | some (a, rest) => match rest with
                  | .id n :: rest' => bif Nat.beq n (name% "else") then
                      match statement fuel rest' with
                      | none => none
                      | some (b, rest) => some (.ite e a b, rest)
                    else some (.ite e a (.block .nil), rest)
                  | _ => some (.ite e a (.block .nil), rest)
              else none
            | _ => none
          else none
        | _ => none
      else bif Nat.beq k (name% "while") then
        match rest with
        | .sym c :: rest => bif Nat.beq c (name% "(") then
            match assignment fuel rest with
            | some (e, .sym d :: rest) => bif Nat.beq d (name% ")") then
                match statement fuel rest with
                | none => none
                | some (a, rest) => some (.while e a, rest)
              else none
            | _ => none
          else none
        | _ => none
      else bif Nat.beq k (name% "for") then
        match rest with
        | .sym c :: rest => bif Nat.beq c (name% "(") then
            match (match typeName fuel rest with
              | some (t, rest) => match declaratorMark 4 false rest with
                | (ref, .id n :: .sym d :: rest) => bif Nat.beq d (name% ":") then some (t, ref, n, rest) else none
                | _ => none
              | none => none) with
            | some (t, ref, n, rest) => match assignment fuel rest with
              | some (e, .sym d :: rest) => bif Nat.beq d (name% ")") then
                  match statement fuel rest with
                  | none => none
                  | some (b, rest) => some (.range t ref n e b, rest)
                else none
              | _ => none
            | none => match simple fuel rest with
              | none => none
              | some (i, rest) => match assignment fuel rest with
                | some (e, .sym d :: rest) => bif Nat.beq d (name% ";") then
                    match assignment fuel rest with
                    | some (s, .sym d :: rest) => bif Nat.beq d (name% ")") then
                        match statement fuel rest with
                        | none => none
                        | some (b, rest) => some (.for i e s b, rest)
                      else bif Nat.beq d (name% ",") then
                        match assignment fuel rest with
                        | some (s', .sym d :: rest) => bif Nat.beq d (name% ")") then
                            match statement fuel rest with
                            | none => none
                            | some (b, rest) => some (.for i e (.comma s s') b, rest)
                          else none
                        | _ => none
                      else none
                    | _ => none
                  else none
                | _ => none
          else none
        | _ => none
      else bif Nat.beq k (name% "switch") then
        match rest with
        | .sym c :: .id n :: .sym d :: .sym b :: rest =>
          bif Nat.beq c (name% "(") && Nat.beq d (name% ")") && Nat.beq b (name% "{") then
            match inside (name% "{") (name% "}") 0 [] rest with
            | none => none
            | some (b, rest) => match groups fuel (.var n) b with
              | none => none
              | some s => some (s, rest)
          else none
        | _ => none
      else simple fuel ts
    | ts => simple fuel ts

/-- The groups of a `switch` on a variable, the `default` group last. Since the labels differ and each group ends with `break;` they are read as
`if (v == label) { ... } else ...` (C++ [stmt.switch]; ssz/hasher.cpp:66-81). -/
def groups : Nat → Ex → List Tok → Option Stmt
  | 0, _, _ => none
  | fuel + 1, v, ts => match ts with
    | .id k :: rest =>
      bif Nat.beq k (name% "case") then
        match assignment fuel rest with
        | some (e, .sym c :: rest) => bif Nat.beq c (name% ":") then
            match untilBreak [] rest with
            | none => none
            | some (b, rest) => match statements fuel b, groups fuel v rest with
              | some ss, some s => some (.ite (.bin .eq v e) (.block ss) s)
              | _, _ => none
          else none
        | _ => none
      else bif Nat.beq k (name% "default") then
        match rest with
        | .sym c :: rest => bif Nat.beq c (name% ":") then
            match statements fuel rest with
            | none => none
            | some ss => some (.block ss)
          else none
        | _ => none
      else none
    | _ => none

/-- Statements one after the other (ssz/ssz_container.cpp:48-105). -/
def statements : Nat → List Tok → Option Sts
  | 0, _ => none
  | fuel + 1, ts => match ts with
    | [] => some .nil
    | .sym c :: rest => bif Nat.beq c (name% ";") then statements fuel rest else statements1 fuel ts
    | ts => statements1 fuel ts

/-- At least one statement (ssz/ssz_container.cpp:48-105). -/
def statements1 : Nat → List Tok → Option Sts
  | 0, _ => none
  | fuel + 1, ts => match statement fuel ts with
    | none => none
    | some (s, rest) => match statements fuel rest with
      | none => none
      | some ss => some (.cons s ss)
end

/-! ## Functions -/

/-- A parameter: its type, whether it is a reference to something that may be changed, its name (ssz/ssz_container.cpp:34,48). -/
structure Param where
  type : Ex
  ref : Bool
  name : Nat

/-- A function: the class it is defined for if that is outside of the class, its name, its return type, its parameters, its body
(ssz/ssz_container.cpp:48). -/
structure Func where
  cls : Nat
  name : Nat
  type : Ex
  params : List Param
  body : Sts

/-- Does the type begin with `const`? (ssz/ssz_container.cpp:48) -/
def isConst : List Tok → Bool
  | .id n :: _ => Nat.beq n (name% "const")
  | _ => false

/-- Parameters with their types; `const auto`, `std::unsigned_integral auto` and the like have the type `auto` (helpers/math.hpp:34,60). -/
def parameters : Nat → List Tok → Option (List Param)
  | 0, _ => none
  | _ + 1, [] => some []
  | fuel + 1, t :: ts => match typeName 50 (t :: ts) with
    | none => none
    | some (ty, rest) =>
      match (match rest with | .id n :: r => bif Nat.beq n (name% "auto") then (Ex.var n, r) else (ty, rest) | _ => (ty, rest)) with
      | (ty, rest) => match declaratorMark 4 false rest with
        | (ref, .id n :: rest) => match rest with
          | [] => some [⟨ty, ref && !isConst (t :: ts), n⟩]
          | .sym c :: rest => bif Nat.beq c (name% ",") then (match parameters fuel rest with
              | none => none
              | some ps => some (⟨ty, ref && !isConst (t :: ts), n⟩ :: ps)) else none
          | _ => none
        | _ => none

/-- The declaration without `template <...>` and `requires (...)` in front of it (helpers/math.hpp:33, ssz/hashtree.cpp:45). -/
def untemplate (head : List Tok) : Option (List Tok) :=
  match head with
  | .id k :: .sym c :: rest =>
    bif Nat.beq k (name% "template") && Nat.beq c (name% "<") then
      match upto (name% ">") [] rest with
      | none => none
      | some (_, rest) => match rest with
        | .id r :: .sym c :: rest' =>
          bif Nat.beq r (name% "requires") && Nat.beq c (name% "(") then
            match inside (name% "(") (name% ")") 0 [] rest' with
            | none => none
            | some (_, rest') => some rest'
          else some rest
        | _ => some rest
    else some head
  | _ => some head

/-- The class (0: none) and the name of a function, the tokens of its head and of its body (ssz/ssz_container.cpp:48). -/
def named (head : List Tok) (body : Option (List Tok)) : Option (Nat × Nat × List Tok × List Tok) :=
  match body, untemplate head with
  | some b, some head => match upto (name% "(") [] head with
    | none => none
    | some (h, _) => match fnName h.reverse with
      | none => none
      | some (c, n) => some (c, n, head, b)
  | _, _ => none

/-- The function with the given head and body; `(void)` is `()` (ssz/ssz_container.cpp:48, common/containers.hpp:126). -/
def understood (c n : Nat) (head b : List Tok) : Option Func :=
  match upto (name% "(") [] head with
  | none => none
  | some (h, rest) => match inside (name% "(") (name% ")") 0 [] rest with
    | none => none
    | some (ps, _) => match typeName 50 h, (match ps with | [.id v] => bif Nat.beq v (name% "void") then some [] else none | ps => parameters 50 ps),
        statements 1000 b with
      | some (t, _), some ps, some ss => some ⟨c, n, t, ps, ss⟩
      | _, _, _ => none

/-- The functions with a body and the given class and name (0: no class) among declarations outside classes (ssz/ssz_container.cpp:34-48). -/
def outside (cls n : Nat) : List Top → List (List Tok × List Tok)
  | [] => []
  | ⟨_, ⟨head, body⟩⟩ :: l => match named head body with
    | none => outside cls n l
    | some (c, m, head, b) => bif Nat.beq c cls && Nat.beq m n then (head, b) :: outside cls n l else outside cls n l

/-- The body of the class with the given name, template or not (common/containers.hpp:40-41,96-97). -/
def classTokens (c : Nat) : List Top → Option (List Tok)
  | [] => none
  | ⟨_, ⟨head, body⟩⟩ :: l =>
    match body, untemplate head with
    | some b, some (.id k :: .id n :: _) => bif among k [name% "class", name% "struct"] && Nat.beq n c then some b else classTokens c l
    | _, _ => classTokens c l

/-- The functions with a body and the given name in the body of a class (common/containers.hpp:75). -/
def members : Nat → Nat → List Tok → List (List Tok × List Tok)
  | 0, _, _ => []
  | _ + 1, _, [] => []
  | fuel + 1, n, t :: ts =>
    bif t.isSym (name% ";") then members fuel n ts
    else match declaration fuel 0 [] (t :: ts) with
      | none => []
      | some (⟨head, body⟩, rest) => match named (withoutLabels head) body with
        | none => members fuel n rest
        | some (_, m, head, b) => bif Nat.beq m n then (head, b) :: members fuel n rest else members fuel n rest

/-- Is it the head of the operator with the given symbol? (common/bytes.hpp:115,133, helpers/bytes_to_int.hpp:54) -/
def isOperator (c : Nat) (head : List Tok) : Bool :=
  match upto (name% "(") [] head with
  | some (h, _) => match h.reverse with
    | .sym d :: .id k :: _ => Nat.beq d c && Nat.beq k (name% "operator")
    | .sym r :: .sym l :: .id k :: _ => Nat.beq c (name% "[]") && Nat.beq l (name% "[") && Nat.beq r (name% "]") && Nat.beq k (name% "operator")
    | _ => false
  | none => false

/-- The operators with a body and the given symbol in the body of a class (common/bytes.hpp:115-139). -/
def operatorsIn : Nat → Nat → List Tok → List (List Tok × List Tok)
  | 0, _, _ => []
  | _ + 1, _, [] => []
  | fuel + 1, c, t :: ts =>
    bif t.isSym (name% ";") then operatorsIn fuel c ts
    else match declaration fuel 0 [] (t :: ts) with
      | none => []
      | some (⟨head, body⟩, rest) => match body, untemplate (withoutLabels head) with
        | some b, some head => bif isOperator c head then (head, b) :: operatorsIn fuel c rest else operatorsIn fuel c rest
        | _, _ => operatorsIn fuel c rest

/-- The only function with the given class and name among declarations outside classes (ssz/ssz_container.cpp:48). -/
def freeFunction (l : List Top) (cls n : Nat) : Option Func :=
  match outside cls n l with
  | [(h, b)] => understood cls n h b
  | _ => none

/-- The only function with the given name in the given class (common/containers.hpp:75). -/
def memberFunction (l : List Top) (cls n : Nat) : Option Func :=
  match classTokens cls l with
  | none => none
  | some b => match members 10000 n b with
    | [(h, b)] => understood cls n h b
    | _ => none

/-- The operators with the given symbol in the given class, in order (common/bytes.hpp:115-139). -/
def operatorFunctions (l : List Top) (cls c : Nat) : Option (List Func) :=
  match classTokens cls l with
  | none => none
  | some b => (operatorsIn 10000 c b).mapM fun (h, b) => understood cls c h b

/-- What follows the parameters of a function (common/containers.hpp:46,48). -/
def tailOf (head : List Tok) : List Tok :=
  match upto (name% "(") [] head with
  | none => []
  | some (_, rest) => match inside (name% "(") (name% ")") 0 [] rest with
    | none => []
    | some (_, rest) => rest

/-- The only function with the given name in the given class that is for template arguments that are basic objects, or for the others: `requires
BasicObject<T>` and `requires(!BasicObject<T>)` (common/containers.hpp:46,48,103,110). -/
def constrainedFunction (l : List Top) (cls n : Nat) (basic : Bool) : Option Func :=
  match classTokens cls l with
  | none => none
  | some b => match (members 10000 n b).filter fun f => tailOf f.1 == bif basic then
        [.id (name% "const"), .id (name% "requires"), .id (name% "BasicObject"), .sym (name% "<"), .id (name% "T"), .sym (name% ">")]
      else [.id (name% "const"), .id (name% "requires"), .sym (name% "("), .sym (name% "!"), .id (name% "BasicObject"), .sym (name% "<"), .id (name% "T"),
        .sym (name% ">"), .sym (name% ")")] with
    | [(h, b)] => understood cls n h b
    | _ => none

/-- A constructor; one that delegates to another constructor begins with a call of it (ssz/hashtree.cpp:108,131); one
with `: m{}`, with `m = {};` (helpers/bytes_to_int.hpp:31); one with `: m{e}`, with `m = e;` (ssz/hasher.hpp:54). -/
def constructed (cls : Nat) (head b : List Tok) : Option Func :=
  match upto (name% "(") [] head with
  | none => none
  | some (_, rest) => match inside (name% "(") (name% ")") 0 [] rest with
    | none => none
    | some (_, rest) => match rest with
      | [] => understood cls cls head b
      | .sym c :: .id m :: .sym o :: rest =>
        bif Nat.beq c (name% ":") && Nat.beq m cls && Nat.beq o (name% "{") then
          match inside (name% "{") (name% "}") 0 [] rest with
          | some (args, []) => understood cls cls head (.id cls :: .sym (name% "(") :: (args ++ .sym (name% ")") :: .sym (name% ";") :: b))
          | _ => none
        else bif Nat.beq c (name% ":") && Nat.beq o (name% "{") then
          match rest with
          | [.sym d] => bif Nat.beq d (name% "}") then
              understood cls cls head (.id m :: .sym (name% "=") :: .sym o :: .sym d :: .sym (name% ";") :: b)
            else none
          | rest => match inside (name% "{") (name% "}") 0 [] rest with
            | some (e, []) => understood cls cls head (.id m :: .sym (name% "=") :: (e ++ .sym (name% ";") :: b))
            | _ => none
        else none
      | _ => none

/-- The enumerators `n = k, ...` with their values (C++ [dcl.enum]; ssz/hasher.hpp:37-41). -/
def enumerated : List Tok → Option (List (Nat × Nat))
  | [] => some []
  | [.id n, .sym e, .num k _ _] => bif Nat.beq e (name% "=") then some [(n, k)] else none
  | .id n :: .sym e :: .num k _ _ :: .sym c :: rest =>
    bif Nat.beq e (name% "=") && Nat.beq c (name% ",") then (match enumerated rest with | none => none | some l => some ((n, k) :: l)) else none
  | _ => none

/-- The body of `enum class n { ... }` among tokens (ssz/hasher.hpp:36-42). -/
def enumTokens (n : Nat) : List Tok → Option (List Tok)
  | [] => none
  | t :: ts => match expect [.id (name% "enum"), .id (name% "class"), .id n, .sym (name% "{")] (t :: ts) with
    | some rest => match inside (name% "{") (name% "}") 0 [] rest with
      | some (b, _) => some b
      | none => none
    | none => enumTokens n ts

/-- The enumerators of the enumeration `n` in the class `cls` (ssz/hasher.hpp:36-42). -/
def enumeratorsIn (l : List Top) (cls n : Nat) : Option (List (Nat × Nat)) :=
  ((classTokens cls l).bind (enumTokens n)).bind enumerated

/-- The only constructor that is defined in the given class (helpers/bytes_to_int.hpp:31). -/
def constructorIn (l : List Top) (cls : Nat) : Option Func :=
  match classTokens cls l with
  | none => none
  | some b => match members 10000 cls b with
    | [(h, b)] => constructed cls h b
    | _ => none

/-- The constructors of a class that are defined outside of it, in order (ssz/hashtree.cpp:108,131). -/
def constructors (l : List Top) (cls : Nat) : Option (List Func) := (outside cls cls l).mapM fun (h, b) => constructed cls h b

end Mammon.Cpp
