import Verif.Model.Nasm
import Verif.Model.CppText
import Verif.Model.Config
/-!
# The compiler's view of the declarations

The part of C++ that the declarations of the container classes and of the constants use: splitting the text into tokens, top level declarations,
the members of a class, and what each class hands to the operations of `ssz::Container`. Names are numbers as in `Model/Nasm.lean`. Whatever is
outside that part makes the result `none`.
-/

namespace Mammon.Cpp
open Nasm (isDigit isLetter spell digits)

/-! ## Tokens -/

/-- Tokens: identifiers and keywords, numbers (hexadecimal or not, with suffix), string literals, operators and punctuation, and the name of a
preprocessor directive, the rest of whose line is left out (all kinds occur in beacon-chain/beacon_state.hpp:22-40, config/constants.hpp:27-36). -/
inductive Tok
  | id (n : Nat)
  | num (n : Nat) (hex : Bool) (suffix : Nat)
  | str (n : Nat)
  | sym (c : Nat)
  | dir (n : Nat)
  | bad
  deriving DecidableEq, Repr

/-- Are the tokens the same? (config/constants.hpp:27-36) -/
def Tok.same : Tok → Tok → Bool
  | .id m, .id n => Nat.beq m n
  | .str m, .str n => Nat.beq m n
  | .sym m, .sym n => Nat.beq m n
  | .dir m, .dir n => Nat.beq m n
  | .num m h s, .num n h' s' => Nat.beq m n && (h == h') && Nat.beq s s'
  | _, _ => false

/-- Is it the given punctuation? (config/constants.hpp:27) -/
def Tok.isSym (c : Nat) : Tok → Bool
  | .sym d => Nat.beq c d
  | _ => false

/-- Is it the given word? (config/constants.hpp:27) -/
def Tok.isId (n : Nat) : Tok → Bool
  | .id m => Nat.beq n m
  | _ => false

/-- Characters that begin an identifier (beacon-chain/beacon_state.hpp:33). -/
def isStart (c : Nat) : Bool := isLetter c || Nat.beq c 95
/-- Characters of an identifier or of a number (beacon-chain/beacon_state.hpp:33, config/constants.hpp:29). -/
def isRest (c : Nat) : Bool := isStart c || isDigit c

/-- The operators of more than one character (C++ [lex.operators]; the ones in common/containers.hpp:36-231, ssz/ssz.hpp:33). -/
def operators : List Nat :=
  [name% "::", name% "==", name% "!=", name% "<=", name% ">=", name% "&&", name% "||", name% "++", name% "--", name% "+=", name% "-=", name% "*=",
   name% "/=", name% "%=", name% "|=", name% "&=", name% "^=", name% "<<", name% ">>", name% "->", name% "<=>", name% "<<=", name% ">>="]

/-- Is it one of the numbers? (common/containers.hpp:36-231) -/
def among (n : Nat) : List Nat → Bool
  | [] => false
  | m :: ms => Nat.beq n m || among n ms

/-- The digits of a number up to its suffix, with the value so far (config/constants.hpp:29-33). -/
def scan (b : Nat) : List Nat → Nat → Nat × List Nat
  | [], n => (n, [])
  | c :: cs, n => match Nasm.digit c with
    | none => (n, c :: cs)
    | some d => bif Nat.ble b d then (n, c :: cs) else scan b cs (Nat.add (Nat.mul n b) d)

/-- The name with the given characters (config/constants.hpp:29). -/
def nameOf (cs : List Nat) : Nat := cs.foldl (fun n c => Nat.add (Nat.mul n 256) c) 0

/-- A number: hexadecimal with `0x` or `0X`, otherwise decimal; no suffix, `ul` or `ull` (C++ [lex.icon]; config/constants.hpp:27-36). Octal
numbers are not read. -/
def number (n : Nat) : Tok :=
  match spell 64 n [] with
  | 48 :: x :: c :: cs =>
    bif Nat.beq x 120 || Nat.beq x 88 then
      match scan 16 (c :: cs) 0 with
      | (v, s) => match s with
        | [] => .num v true 0
        | [117, 108, 108] => .num v true (name% "ull")
        | [117, 108] => .num v true (name% "ul")
        | _ => .bad
    else .bad
  | [48, _] => .bad
  | cs => match scan 10 cs 0 with
    | (v, s) => match s with
      | [] => .num v false 0
      | [117, 108, 108] => .num v false (name% "ull")
      | [117, 108] => .num v false (name% "ul")
      | _ => .bad

/-- What the reader is in the middle of (C++ [lex.phases]; common/containers.hpp:1-60). -/
inductive Mode
  | none | ident | num | op | string | char | line | block | star | hash | skip

/-- Read a character that does not continue the token before it: what it begins (C++ [lex.pptoken]; common/containers.hpp:1-60). Newlines only
end comments and directives; `#` begins a directive wherever it is. -/
def begins (c : Nat) : List Tok × Mode × Nat :=
  bif Nat.beq c 32 || Nat.beq c 9 || Nat.beq c 10 then ([], .none, 0)
  else bif isStart c then ([], .ident, c)
  else bif isDigit c then ([], .num, c)
  else bif Nat.beq c 34 then ([], .string, 0)
  else bif Nat.beq c 39 then ([], .char, 0)
  else bif Nat.beq c 35 then ([], .hash, 0)
  else bif among c [58, 61, 33, 60, 62, 38, 124, 43, 45, 42, 47, 37, 94] then ([], .op, c)
  else bif among c [123, 125, 40, 41, 91, 93, 59, 44, 46, 63, 126] then ([.sym c], .none, 0)
  else ([.bad], .none, 0)

/-- The tokens of a text (C++ [lex.phases]; common/containers.hpp:1-60): the longest operator is taken; comments of both kinds are white space.
String and character literals have no escapes; a character literal is a number with the suffix `char` (common/bitlist.cpp:88). -/
def lex : List Nat → Mode → Nat → List Tok
  | [], m, a => match m with
    | .none => []
    | .line => []
    | .skip => []
    | .ident => [.id a]
    | .num => [number a]
    | .op => [.sym a]
    | .hash => [.dir a]
    | _ => [.bad]
  | c :: cs, m, a => match m with
    | .none => match begins c with | (ts, m', a') => ts ++ lex cs m' a'
    | .ident =>
      bif isRest c then lex cs .ident (Nat.add (Nat.mul a 256) c) else .id a :: match begins c with | (ts, m', a') => ts ++ lex cs m' a'
    | .num =>
      bif isRest c then lex cs .num (Nat.add (Nat.mul a 256) c) else number a :: match begins c with | (ts, m', a') => ts ++ lex cs m' a'
    | .op =>
      bif among (Nat.add (Nat.mul a 256) c) operators then lex cs .op (Nat.add (Nat.mul a 256) c)
      else bif Nat.beq a 47 && Nat.beq c 47 then lex cs .line 0
      else bif Nat.beq a 47 && Nat.beq c 42 then lex cs .block 0
      else .sym a :: match begins c with | (ts, m', a') => ts ++ lex cs m' a'
    | .string =>
      bif Nat.beq c 34 then .str a :: lex cs .none 0
      else bif Nat.beq c 92 || Nat.beq c 10 then [.bad]
      else lex cs .string (Nat.add (Nat.mul a 256) c)
    | .char =>
      bif Nat.beq c 39 then .num a false (name% "char") :: lex cs .none 0
      else bif Nat.beq c 92 || Nat.beq c 10 || Nat.blt 0 a then [.bad]
      else lex cs .char c
    | .line => bif Nat.beq c 10 then lex cs .none 0 else lex cs .line 0
    | .block => bif Nat.beq c 42 then lex cs .star 0 else lex cs .block 0
    | .star => bif Nat.beq c 47 then lex cs .none 0 else bif Nat.beq c 42 then lex cs .star 0 else lex cs .block 0
    | .hash =>
      bif isRest c then lex cs .hash (Nat.add (Nat.mul a 256) c) else bif Nat.beq c 10 then .dir a :: lex cs .none 0 else .dir a :: lex cs .skip 0
    | .skip => bif Nat.beq c 10 then lex cs .none 0 else lex cs .skip 0

/-- The characters of a file from those of its lines (common/containers.hpp:1-329). -/
def joined : List (List Nat) → List Nat
  | [] => []
  | l :: ls => l ++ 10 :: joined ls

/-- The tokens of a file given by the characters of its lines (common/containers.hpp:1-329). -/
def tokens (ls : List (List Nat)) : List Tok := lex (joined ls) .none 0

/-! ## Declarations -/

/-- The tokens up to the one that closes what is open, and those behind it (C++ [lex.operators]; common/containers.hpp:236-263). -/
def inside (opening closing : Nat) : Nat → List Tok → List Tok → Option (List Tok × List Tok)
  | _, _, [] => none
  | d, acc, t :: ts =>
    bif t.isSym opening then inside opening closing (d + 1) (t :: acc) ts
    else bif t.isSym closing then
      match d with
      | 0 => some (acc.reverse, ts)
      | d + 1 => inside opening closing d (t :: acc) ts
    else inside opening closing d (t :: acc) ts

/-- The tokens up to the first of the given kind, and those behind it (beacon-chain/beacon_state.hpp:38). -/
def upto (c : Nat) : List Tok → List Tok → Option (List Tok × List Tok)
  | _, [] => none
  | acc, t :: ts => bif t.isSym c then some (acc.reverse, ts) else upto c (t :: acc) ts

/-- The tokens without the given ones at the beginning (beacon-chain/beacon_state.hpp:30). -/
def expect : List Tok → List Tok → Option (List Tok)
  | [], ts => some ts
  | _ :: _, [] => none
  | u :: us, t :: ts => bif u.same t then expect us ts else none

/-- A declaration with the block that ends it, if any: a class, a function, or anything that ends with `;`
(common/containers.hpp:36-38,235-263, config/constants.hpp:27-36). -/
structure Decl where
  head : List Tok
  body : Option (List Tok)

/-- Words after which a pair of braces is a block and not an initialiser (common/containers.hpp:35,40,235). -/
def blockWords : List Nat := [name% "struct", name% "class", name% "template"]

/-- What braces behind the tokens read so far are: 0 initialisers; 1 the body of a function; 2 the body of a class or of a template; 3 behind a
name an initialiser, otherwise the body of a constructor (common/containers.hpp:125,235,240, ssz/hashtree.cpp:131). -/
def opens (block : Nat) : Tok → Nat
  | .sym c =>
    bif Nat.beq c (name% "(") then (bif Nat.beq block 0 then 1 else block)
    else bif Nat.beq c (name% ":") && Nat.beq block 1 then 3
    else block
  | .id n => bif among n blockWords then 2 else block
  | _ => block

/-- Is the last token read a name? (ssz/hashtree.cpp:131) -/
def afterName : List Tok → Bool
  | .id _ :: _ => true
  | _ => false

/-- Read a declaration (common/containers.hpp:36-38,235-263, config/constants.hpp:27-36). Braces behind a parenthesis, or behind `class`,
`struct` or `template`, are a block, which ends the declaration; other braces, and those of the member initialisers of a constructor, are
initialisers. -/
def declaration (fuel : Nat) (block : Nat) (acc : List Tok) (ts : List Tok) : Option (Decl × List Tok) :=
  match fuel with
  | 0 => none
  | fuel + 1 =>
    match ts with
    | [] => none
    | t :: ts =>
      bif t.isSym (name% ";") then some (⟨acc.reverse, none⟩, ts)
      else bif t.isSym (name% "{") then
        match inside (name% "{") (name% "}") 0 [] ts with
        | none => none
        | some (b, rest) =>
          bif Nat.beq block 0 || Nat.beq block 3 && afterName acc then declaration fuel block (.sym (name% "}") :: (b.reverse ++ t :: acc)) rest
          else some (⟨acc.reverse, some b⟩, rest)
      else declaration fuel (opens block t) (t :: acc) ts

/-- A declaration with the namespaces it is in (common/containers.hpp:34, config/constants.hpp:26). -/
structure Top where
  ns : List Nat
  decl : Decl

/-- The declarations of a file outside classes (common/containers.hpp:34-329, config/constants.hpp:26-37). The directives are `#include` and
`#pragma once`; what is included is read as a file of its own; and `#ifndef CUSTOM_HASHER` (ssz/hashtree.cpp:105-107), which holds for the library
(CMakeLists.txt:103,116 define the name for the hash tests and benchmarks only). -/
def tops : Nat → List Nat → List Tok → Option (List Top)
  | 0, _, _ => none
  | fuel + 1, ns, ts =>
    match ts with
    | [] => match ns with
      | [] => some []
      | _ :: _ => none
    | .dir n :: rest => bif among n [name% "include", name% "pragma", name% "ifndef", name% "endif"] then tops fuel ns rest else none
    | .sym c :: rest =>
      bif Nat.beq c (name% ";") then tops fuel ns rest
      else bif Nat.beq c (name% "}") then
        match ns with
        | [] => none
        | _ :: ns => tops fuel ns rest
      else none
    | t :: rest =>
      match (bif t.isId (name% "namespace") then rest else []) with
      | .id n :: .sym c :: rest => bif Nat.beq c (name% "{") then tops fuel (n :: ns) rest else none
      | .sym c :: rest => bif Nat.beq c (name% "{") then tops fuel (0 :: ns) rest else none
      | _ =>
        match declaration fuel 0 [] (t :: rest) with
        | none => none
        | some (d, rest) => match tops fuel ns rest with
          | none => none
          | some l => some (⟨ns, d⟩ :: l)

/-- Were all tokens read? (common/containers.hpp:1-329) -/
def clean : List Tok → Bool
  | [] => true
  | .bad :: _ => false
  | _ :: ts => clean ts

/-- The declarations of a file given by its tokens (common/containers.hpp:1-329). -/
def parse (ts : List Tok) : Option (List Top) := bif clean ts then tops 10000 [] ts else none

/-- The declarations of a file given by the characters of its lines (common/containers.hpp:1-329). -/
def read (ls : List (List Nat)) : Option (List Top) := parse (tokens ls)

/-! ## Constant expressions and types -/

/-- The string of a name (beacon-chain/beacon_state.hpp:33). -/
def text (n : Nat) : String := String.ofList ((spell 64 n []).map Char.ofNat)

/-- A name with or without one of the three namespaces of the project in front of it (beacon-chain/beacon_state.hpp:38,
beacon-chain/deposits.hpp:91). No name is declared in two of them. -/
def qualified : List Tok → Option (Nat × List Tok)
  | .id m :: .sym c :: .id n :: ts =>
    bif Nat.beq c (name% "::") then
      bif among m [name% "constants", name% "eth", name% "ssz"] then some (n, ts) else none
    else some (m, .sym c :: .id n :: ts)
  | .id n :: ts => some (n, ts)
  | _ => none

/-- An operand: a decimal number or the name of a constant (beacon-chain/deposits.hpp:90-93). -/
def operand : List Tok → Option (Source.CExpr × List Tok)
  | .num n hex s :: ts => bif hex || Nat.blt 0 s then none else some (.lit n, ts)
  | ts => match qualified ts with
    | none => none
    | some (n, ts) => some (.const (text n), ts)

/-- The operands of `*` after the first (C++ [expr.mul]; beacon-chain/beacon_state.hpp:40). -/
def products : Nat → Source.CExpr → List Tok → Option (Source.CExpr × List Tok)
  | 0, _, _ => none
  | fuel + 1, a, ts => match ts with
    | .sym c :: rest =>
      bif Nat.beq c (name% "*") then
        match operand rest with
        | none => none
        | some (b, rest) => products fuel (.mul a b) rest
      else some (a, .sym c :: rest)
    | ts => some (a, ts)

/-- The terms of `+` after the first (C++ [expr.add]; beacon-chain/deposits.hpp:93). -/
def sums : Nat → Source.CExpr → List Tok → Option (Source.CExpr × List Tok)
  | 0, _, _ => none
  | fuel + 1, a, ts => match ts with
    | .sym c :: rest =>
      bif Nat.beq c (name% "+") then
        match operand rest with
        | none => none
        | some (b, rest) => match products fuel b rest with
          | none => none
          | some (b, rest) => sums fuel (.add a b) rest
      else some (a, .sym c :: rest)
    | ts => some (a, ts)

/-- A constant expression (C++ [expr.const]; beacon-chain/beacon_state.hpp:37-50, beacon-chain/deposits.hpp:90-93). -/
def expression (ts : List Tok) : Option Source.CExpr :=
  match operand ts with
  | none => none
  | some (a, rest) => match products 100 a rest with
    | none => none
    | some (a, rest) => match sums 100 a rest with
      | some (a, []) => some a
      | _ => none

/-- A type: its name and its template arguments (beacon-chain/beacon_state.hpp:33-52). -/
def type (ts : List Tok) : Option (Nat × Option (List Tok) × List Tok) :=
  match qualified ts with
  | none => none
  | some (n, rest) => match rest with
    | .sym c :: rest =>
      bif Nat.beq c (name% "<") then
        match upto (name% ">") [] rest with
        | none => none
        | some (args, rest) => some (n, some args, rest)
      else none
    | rest => some (n, none, rest)

/-- The name of a class as a template argument (beacon-chain/beacon_state.hpp:38). -/
def element (ts : List Tok) : Option String :=
  match qualified ts with
  | some (n, []) => some (text n)
  | _ => none

/-- The type of a data member with its initialiser (beacon-chain/beacon_state.hpp:33-52, beacon-chain/attestation.hpp:66). -/
def memberType (n : Nat) (args init : Option (List Tok)) : Option Source.CType :=
  match args, init with
  | none, none => bif among n [name% "Bitlist"] then none else some (.named (text n))
  | none, some e =>
    bif Nat.beq n (name% "Bitlist") then
      match expression e with
      | none => none
      | some e => some (.bitlist e)
    else none
  | some a, none =>
    bif Nat.beq n (name% "Bitvector") then
      match expression a with
      | none => none
      | some e => some (.bitvector e)
    else bif Nat.beq n (name% "VectorFixedSizedParts") then
      match upto (name% ",") [] a with
      | none => none
      | some (t, e) => match element t, expression e with
        | some t, some e => some (.vector t e)
        | _, _ => none
    else none
  | some a, some e =>
    match element a, expression e with
    | some t, some e =>
      bif Nat.beq n (name% "ListFixedSizedParts") then some (.listFixed t e)
      else bif Nat.beq n (name% "ListVariableSizedParts") then some (.listVariable t e)
      else none
    | _, _ => none

/-- The data members of one declaration (C++ [dcl.decl]; beacon-chain/beacon_state.hpp:38,47-49). -/
def declarators (fuel : Nat) (n : Nat) (args : Option (List Tok)) (ts : List Tok) : Option (List (String × Source.CType)) :=
  match fuel with
  | 0 => none
  | fuel + 1 =>
    match ts with
    | .id m :: rest =>
      match (match rest with
        | .sym c :: rest' => bif Nat.beq c (name% "{") then
            match inside (name% "{") (name% "}") 0 [] rest' with
            | none => none
            | some (e, rest') => some (some e, rest')
          else some (none, rest)
        | _ => some (none, rest) : Option (Option (List Tok) × List Tok)) with
      | none => none
      | some (init, rest) =>
        match memberType n args init with
        | none => none
        | some t =>
          match rest with
          | [] => some [(text m, t)]
          | .sym c :: rest =>
            bif Nat.beq c (name% ",") then
              match declarators fuel n args rest with
              | none => none
              | some l => some ((text m, t) :: l)
            else none
          | _ => none
    | _ => none

/-! ## Classes -/

/-- A function: the class it is defined for if that is outside of the class, its name, its parameters, what is between them and the body, the body
(beacon-chain/attestation.cpp:27-55, common/containers.hpp:240-263). -/
structure Fn where
  cls : Nat
  name : Nat
  params : List Tok
  quals : List Tok
  body : Option (List Tok)

/-- What the declarations in a class are: data members, `ssz_size`, a defaulted `operator==`, functions (common/containers.hpp:235-263). -/
structure Raw where
  name : Nat
  members : List (String × Source.CType)
  size : List Source.CExpr
  eq : Nat
  fns : List Fn

/-- The last token and the one or three tokens that name a function: `name`, or `Class::name` (beacon-chain/attestation.cpp:27). -/
def fnName : List Tok → Option (Nat × Nat)
  | .id n :: .sym c :: .id m :: _ => bif Nat.beq c (name% "::") then some (m, n) else some (0, n)
  | .id n :: _ => some (0, n)
  | _ => none

/-- A function (common/containers.hpp:240-263, beacon-chain/attestation.cpp:27-55). -/
def function (d : Decl) : Option Fn :=
  match d with
  | ⟨head, body⟩ => match upto (name% "(") [] head with
    | none => none
    | some (h, rest) => match inside (name% "(") (name% ")") 0 [] rest with
      | none => none
      | some (ps, qs) => match fnName h.reverse with
        | none => none
        | some (c, n) => some ⟨c, n, ps, qs, body⟩

/-- Is there a parenthesis? (common/containers.hpp:240) -/
def hasParen : List Tok → Bool
  | [] => false
  | t :: ts => t.isSym (name% "(") || hasParen ts

/-- `static constexpr std::size_t ssz_size =` (common/containers.hpp:239). -/
def sizeHead : List Tok :=
  [.id (name% "static"), .id (name% "constexpr"), .id (name% "std"), .sym (name% "::"), .id (name% "size_t"), .id (name% "ssz_size"), .sym (name% "=")]

/-- `bool operator==(const C &) const = default` (common/containers.hpp:252). -/
def eqDecl (c : Nat) : List Tok :=
  [.id (name% "bool"), .id (name% "operator"), .sym (name% "=="), .sym (name% "("), .id (name% "const"), .id c, .sym (name% "&"), .sym (name% ")"),
   .id (name% "const"), .sym (name% "="), .id (name% "default")]

/-- The declaration without access labels (beacon-chain/beacon_state.hpp:31,54). -/
def withoutLabels : List Tok → List Tok
  | .id n :: .sym c :: ts =>
    bif among n [name% "private", name% "public", name% "protected"] && Nat.beq c (name% ":") then withoutLabels ts else .id n :: .sym c :: ts
  | ts => ts

/-- Add a declaration to what is known of a class (common/containers.hpp:235-263). -/
def addMember (r : Raw) (head : List Tok) (body : Option (List Tok)) : Option Raw :=
  match r with
  | ⟨c, ms, size, eq, fns⟩ =>
    match expect sizeHead head with
    | some e => match expression e with
      | none => none
      | some e => some ⟨c, ms, e :: size, eq, fns⟩
    | none => match expect (eqDecl c) head with
      | some [] => some ⟨c, ms, size, eq + 1, fns⟩
      | _ =>
        bif hasParen head then
          match function ⟨head, body⟩ with
          | none => none
          | some f => some ⟨c, ms, size, eq, f :: fns⟩
        else match type head with
          | none => none
          | some (n, args, rest) => match declarators 100 n args rest with
            | none => none
            | some l => some ⟨c, ms ++ l, size, eq, fns⟩

/-- Read the declarations in a class (common/containers.hpp:236-262). -/
def classBody : Nat → Raw → List Tok → Option Raw
  | 0, _, _ => none
  | _ + 1, r, [] => some r
  | fuel + 1, r, t :: ts =>
    bif t.isSym (name% ";") then classBody fuel r ts
    else match declaration fuel 0 [] (t :: ts) with
      | none => none
      | some (⟨head, body⟩, rest) => match addMember r (withoutLabels head) body with
        | none => none
        | some r => classBody fuel r rest

/-- `: public ssz::Container` (common/containers.hpp:235). -/
def base : List Tok := [.sym (name% ":"), .id (name% "public"), .id (name% "ssz"), .sym (name% "::"), .id (name% "Container")]

/-- The classes and the functions defined outside of classes among the declarations of a file (common/containers.hpp:34-329,
beacon-chain/attestation.cpp:26-122): templates are left out, classes only declared and declarations of types as well. A class that is not derived
from `ssz::Container` alone is not read. -/
def classesOf : List Top → Option (List Raw × List Fn)
  | [] => some ([], [])
  | ⟨_, ⟨head, body⟩⟩ :: l =>
    match classesOf l with
    | none => none
    | some (rs, fs) =>
      match head with
      | .id k :: rest =>
        bif among k [name% "template", name% "using"] then some (rs, fs)
        else bif among k [name% "class", name% "struct"] then
          match rest, body with
          | [.id _], none => some (rs, fs)
          | .id n :: rest, some b =>
            match expect base rest with
            | some [] => match classBody 10000 ⟨n, [], [], 0, []⟩ b with
              | none => none
              | some r => some (r :: rs, fs)
            | _ => none
          | _, _ => none
        else match function ⟨head, body⟩ with
          | none => none
          | some f => some (rs, f :: fs)
      | _ => none

/-! ## What a class hands to the operations -/

/-- The functions of a class with the given name and a body, in the class or outside (beacon-chain/attestation.hpp:41, beacon-chain/attestation.cpp:27). -/
def bodies (c n : Nat) (own : List Fn) (outside : List Fn) : List Fn :=
  (own.filter fun f => Nat.beq f.name n && f.body.isSome) ++ outside.filter fun f => Nat.beq f.cls c && Nat.beq f.name n && f.body.isSome

/-- Pointers to members, separated by commas (common/containers.hpp:243). -/
def pointers : Nat → List Tok → Option (List String)
  | 0, _ => none
  | fuel + 1, ts => match ts with
    | .sym a :: .id n :: rest =>
      bif Nat.beq a (name% "&") then
        match rest with
        | [] => some [text n]
        | .sym c :: rest => bif Nat.beq c (name% ",") then (match pointers fuel rest with
            | none => none
            | some l => some (text n :: l)) else none
        | _ => none
      else none
    | _ => none

/-- Pairs of a key and a pointer to a member, separated by commas (common/containers.hpp:254-257). -/
def pairs : Nat → List Tok → Option (List (String × String))
  | 0, _ => none
  | fuel + 1, ts => match ts with
    | .sym o :: .str k :: .sym c :: .sym a :: .id n :: .sym e :: rest =>
      bif Nat.beq o (name% "{") && Nat.beq c (name% ",") && Nat.beq a (name% "&") && Nat.beq e (name% "}") then
        match rest with
        | [] => some [(text k, text n)]
        | .sym c :: rest => bif Nat.beq c (name% ",") then (match pairs fuel rest with
            | none => none
            | some l => some ((text k, text n) :: l)) else none
        | _ => none
      else none
    | _ => none

/-- The list in a function whose body is `return callee(args {list});` and that has the given parameters (common/containers.hpp:242-263). -/
def handed (f : Fn) (callee : Nat) (params args : List Tok) : Option (List Tok) :=
  match f with
  | ⟨_, _, ps, _, body⟩ => match expect params ps, body with
    | some [], some b => match expect (.id (name% "return") :: .id callee :: .sym (name% "(") :: (args ++ [.sym (name% "{")])) b with
      | none => none
      | some rest => match inside (name% "{") (name% "}") 0 [] rest with
        | none => none
        | some (l, rest) => match expect [.sym (name% ")"), .sym (name% ";")] rest with
          | some [] => some l
          | _ => none
    | _, _ => none

/-- The members a class hands to `serialize_` or `hash_tree_`, or to `deserialize_` behind the two iterators (common/containers.hpp:242-250). -/
def operation (r : Raw) (fs : List Fn) (n callee : Nat) (params args : List Tok) : Option (List String) :=
  match r with
  | ⟨c, _, _, _, own⟩ => match bodies c n own fs with
    | [f] => match handed f callee params args with
      | none => none
      | some l => pointers 100 l
    | _ => none

/-- The pairs a class hands to `encode_`, or to `decode_` behind the node (common/containers.hpp:254-263). -/
def keyed (r : Raw) (fs : List Fn) (n callee : Nat) (params args : List Tok) : Option (List (String × String)) :=
  match r with
  | ⟨c, _, _, _, own⟩ => match bodies c n own fs with
    | [f] => match handed f callee params args with
      | none => none
      | some l => pairs 100 l
    | _ => none

/-- `ssz::SSZIterator it, ssz::SSZIterator end` (common/containers.hpp:248). -/
def iterators : List Tok :=
  [.id (name% "ssz"), .sym (name% "::"), .id (name% "SSZIterator"), .id (name% "it"), .sym (name% ","), .id (name% "ssz"), .sym (name% "::"),
   .id (name% "SSZIterator"), .id (name% "end")]

/-- `const YAML::Node &node` (common/containers.hpp:260). -/
def node : List Tok := [.id (name% "const"), .id (name% "YAML"), .sym (name% "::"), .id (name% "Node"), .sym (name% "&"), .id (name% "node")]

/-- `ssz_size`, if `get_ssz_size` returns it; `some none` if the class has neither (common/containers.hpp:239-240). -/
def sizeOf (r : Raw) : Option (Option Source.CExpr) :=
  match r with
  | ⟨c, _, size, _, own⟩ => match size, bodies c (name% "get_ssz_size") own [] with
    | [], [] => some none
    | [e], [⟨_, _, [], _, some b⟩] =>
      match expect [.id (name% "return"), .id (name% "ssz_size"), .sym (name% ";")] b with
      | some [] => some (some e)
      | _ => none
    | _, _ => none

/-- The accessors: functions without parameters of the form `T name() const { return member; }`, in the order of declaration
(beacon-chain/beacon_state.hpp:54-74). The functions come in the reverse order. -/
def getters : List Fn → List (String × String) → List (String × String)
  | [], l => l
  | ⟨_, n, ps, qs, body⟩ :: fs, l =>
    match ps, qs, body with
    | [], [.id q], some [.id r, .id m, .sym s] =>
      bif Nat.beq q (name% "const") && Nat.beq r (name% "return") && Nat.beq s (name% ";") then getters fs ((text n, text m) :: l) else getters fs l
    | _, _, _ => getters fs l

/-- The declaration of a class (common/containers.hpp:235-263): each of the five operations has exactly one definition, `operator==` is defaulted once
or not declared. -/
def classDecl (fs : List Fn) (r : Raw) : Option Source.ClassDecl :=
  match r with
  | ⟨c, ms, size, eq, own⟩ =>
    match sizeOf ⟨c, ms, size, eq, own⟩,
        operation ⟨c, ms, size, eq, own⟩ fs (name% "serialize") (name% "serialize_") [] [],
        operation ⟨c, ms, size, eq, own⟩ fs (name% "deserialize") (name% "deserialize_") iterators
          [.id (name% "it"), .sym (name% ","), .id (name% "end"), .sym (name% ",")],
        operation ⟨c, ms, size, eq, own⟩ fs (name% "hash_tree") (name% "hash_tree_") [] [],
        keyed ⟨c, ms, size, eq, own⟩ fs (name% "encode") (name% "encode_") [] [],
        keyed ⟨c, ms, size, eq, own⟩ fs (name% "decode") (name% "decode_") node [.id (name% "node"), .sym (name% ",")] with
    | some size, some ser, some des, some hash, some enc, some dec =>
      match eq with
      | 0 => some ⟨text c, ms, size, false, ser, des, hash, enc, dec, getters own []⟩
      | 1 => some ⟨text c, ms, size, true, ser, des, hash, enc, dec, getters own []⟩
      | _ => none
    | _, _, _, _, _, _ => none

/-- All of a list or nothing (common/containers.hpp:235-327). -/
def allOf {α β : Type} (f : α → Option β) : List α → Option (List β)
  | [] => some []
  | a :: l => match f a, allOf f l with
    | some b, some bs => some (b :: bs)
    | _, _ => none

/-- The classes and functions among the declarations of files (common/containers.hpp:34-329, beacon-chain/*). -/
def merged : List (List Top) → Option (List Raw × List Fn)
  | [] => some ([], [])
  | l :: ls => match classesOf l, merged ls with
    | some (rs', fs'), some (rs, fs) => some (rs' ++ rs, fs' ++ fs)
    | _, _ => none

/-- The declarations of the classes among the declarations of files (common/containers.hpp:34-329, beacon-chain/*). -/
def classDeclsOf (ls : List (List Top)) : Option (List Source.ClassDecl) :=
  match merged ls with
  | none => none
  | some (rs, fs) => allOf (classDecl fs) rs

/-- The declarations of the classes in files (common/containers.hpp:34-329, beacon-chain/*). -/
def classDecls (files : List (List (List Nat))) : Option (List Source.ClassDecl) :=
  match allOf read files with
  | none => none
  | some ls => classDeclsOf ls

/-! ## Names of types -/

/-- The names declared by `using` for one class or for `Bytes<n>` (common/slot.hpp:70-76, common/bytes.hpp:164-181): the pairs so far tell what the
names before it denote. Other uses of `using` are left out (common/bytes.hpp:171). -/
def aliasesOf : List (Nat × Ty) → List Top → List (Nat × Ty)
  | known, [] => known
  | known, ⟨_, ⟨head, body⟩⟩ :: l =>
    match head, body with
    | [.id k, .id a, .sym e, .id b], none =>
      bif Nat.beq k (name% "using") && Nat.beq e (name% "=") then
        match known.find? fun p => Nat.beq p.1 b with
        | some (_, t) => aliasesOf (known ++ [(a, t)]) l
        | none => aliasesOf known l
      else aliasesOf known l
    | [.id k, .id a, .sym e, .id b, .sym o, .num n false 0, .sym c], none =>
      bif Nat.beq k (name% "using") && Nat.beq e (name% "=") && Nat.beq b (name% "Bytes") && Nat.beq o (name% "<") && Nat.beq c (name% ">") then
        aliasesOf (known ++ [(a, .bytes n)]) l
      else aliasesOf known l
    | _, _ => aliasesOf known l

/-- The names of the basic types (common/slot.hpp:32,70-76, common/boolean.hpp:32, common/bytes.hpp:164-181): the classes `Slot` and `Boolean`, and
the names declared in the files. -/
def aliases (slot bytes : List (List Nat)) : Option (List (Nat × Ty)) :=
  match read slot, read bytes with
  | some s, some b => some (aliasesOf (aliasesOf [(name% "Slot", .uint64)] s ++ [(name% "Boolean", .boolean)]) b)
  | _, _ => none

/-! ## Constants -/

/-- The kind of constant a type name stands for (config/mainnet.hpp.in:30-91, config/constants.hpp:27-36, ssz/ssz.hpp:27-29). -/
def kindOf (names : List (Nat × Ty)) (ts : List Tok) : Option Config.Kind :=
  match ts with
  | [.id n] =>
    bif Nat.beq n (name% "uint64_t") then some .uint64 else bif Nat.beq n (name% "uint") then some .uint else bif Nat.beq n (name% "int") then some .int
    else none
  | [.id m, .id n] => bif Nat.beq m (name% "unsigned") && Nat.beq n (name% "int") then some .uint else none
  | [.id m, .sym c, .id n] =>
    bif Nat.beq c (name% "::") then
      bif Nat.beq m (name% "std") then
        bif Nat.beq n (name% "uint64_t") then some .uint64 else bif Nat.beq n (name% "uint32_t") then some .uint else none
      else bif Nat.beq m (name% "eth") then
        match names.find? fun p => Nat.beq p.1 n with
        | some (_, .uint64) => some .slot
        | some (_, .bytes k) => some (.bytes k)
        | _ => none
      else none
    else none
  | _ => none

/-- An initialiser (config/mainnet.hpp.in:30-91, config/constants.hpp:27-36). -/
def initOf : List Tok → Option Config.Init
  | [.num n hex s] => bif hex then bif Nat.beq s 0 then some (.hex n) else some (.hexULL n) else bif Nat.beq s 0 then some (.dec n) else none
  | [.str n] => some (.str (text n))
  | _ => none

/-- Everything but the last token, and that one (config/constants.hpp:27). -/
def splitLast : List Tok → List Tok → Option (List Tok × Tok)
  | _, [] => none
  | acc, [t] => some (acc.reverse, t)
  | acc, t :: u :: ts => splitLast (t :: acc) (u :: ts)

/-- The tokens up to `=` or `{`, and the initialiser behind it (config/mainnet.hpp.in:32,56). -/
def initialiser : List Tok → List Tok → Option (List Tok × List Tok)
  | _, [] => none
  | acc, t :: ts =>
    bif t.isSym (name% "=") then some (acc.reverse, ts)
    else bif t.isSym (name% "{") then
      match upto (name% "}") [] ts with
      | some (e, []) => some (acc.reverse, e)
      | _ => none
    else initialiser (t :: acc) ts

/-- A constant declared with `auto` (config/constants.hpp:27-35): `T{literal}` has the type `T`, a literal with the suffix `ull` is an
`unsigned long long`. -/
def autoOf (names : List (Nat × Ty)) (e : List Tok) : Option (Config.Kind × Config.Init) :=
  match e with
  | [.num n true s] => bif Nat.beq s (name% "ull") then some (.uint64, .hexULL n) else none
  | _ => match upto (name% "{") [] e with
    | none => none
    | some (t, rest) => match upto (name% "}") [] rest with
      | some (e, []) => match kindOf names t, initOf e with
        | some k, some i => some (k, i)
        | _, _ => none
      | _ => none

/-- A constant, `some none` if it is an `auto` initialised by a string: these are the two paths of test vectors (config/mainnet.hpp.in:58-59), which
`Model/Config.lean` leaves out. -/
def constant (names : List (Nat × Ty)) (head : List Tok) : Option (Option Config.Decl) :=
  match expect [.id (name% "constexpr")] head with
  | none => none
  | some ts => match initialiser [] (match expect [.id (name% "const")] ts with | some ts => ts | none => ts) with
    | none => none
    | some (h, e) => match splitLast [] h with
      | some (t, .id n) => match t, e with
        | [.id k], [.str _] => bif Nat.beq k (name% "auto") then some none else none
        | [.id k], _ =>
          bif Nat.beq k (name% "auto") then
            match autoOf names e with
            | some (k, i) => some (some ⟨text n, k, i⟩)
            | none => none
          else match kindOf names t, initOf e with
            | some k, some i => some (some ⟨text n, k, i⟩)
            | _, _ => none
        | _, _ => match kindOf names t, initOf e with
          | some k, some i => some (some ⟨text n, k, i⟩)
          | _, _ => none
      | _ => none

/-- The constants among declarations (config/mainnet.hpp.in:28-93): those in the namespace `constants`; `using` is left out, and so is what is in other
namespaces (ssz/ssz.hpp:32-34). -/
def constantsOf (names : List (Nat × Ty)) : List Top → Option (List Config.Decl)
  | [] => some []
  | ⟨ns, ⟨head, body⟩⟩ :: l =>
    match constantsOf names l with
    | none => none
    | some ds => match ns, body with
      | [n], none =>
        bif Nat.beq n (name% "constants") then
          match constant names head with
          | none => none
          | some none => some ds
          | some (some d) => some (d :: ds)
        else some ds
      | _, _ => some ds

/-- The constants a file declares, with the names of types declared in two others (config/mainnet.hpp.in:28-93, config/minimal.hpp.in:28-92,
config/constants.hpp:26-37, ssz/ssz.hpp:26-30). -/
def constants (slot bytes file : List (List Nat)) : Option (List Config.Decl) :=
  match aliases slot bytes, read file with
  | some names, some l => constantsOf names l
  | _, _ => none

/-! ## The files -/

/-- The files that declare or define classes derived from `ssz::Container` without being templates, apart from `Slot`, `Boolean` and the bit lists
(common/containers.hpp, beacon-chain/*). -/
def files : List (List (List Nat)) :=
  [Nasm.codes Text.containers, Nasm.codes Text.attestationHpp, Nasm.codes Text.attestationCpp, Nasm.codes Text.eth1Data,
   Nasm.codes Text.beaconBlockHpp, Nasm.codes Text.beaconBlockCpp, Nasm.codes Text.deposits, Nasm.codes Text.validatorHpp,
   Nasm.codes Text.validatorCpp, Nasm.codes Text.beaconStateHpp, Nasm.codes Text.beaconStateCpp]

end Mammon.Cpp
