import Verif.Model.X86
import Verif.Model.AsmText
/-!
# The assembler's view of the sources

The part of NASM that the sources of the SHA-256 routines use: splitting lines into tokens, the preprocessor (`%define`, `%xdefine`, `%assign`,
`%macro`, `%rep`, `%ifdef`, `%include`), symbols, data, and the instructions with their operands. Names are numbers: the codes of the characters
as digits to the base 256, so that comparing names is comparing numbers. Everything outside that part is an error (`Tok.bad`, `Stmt.bad`).
-/

namespace Mammon.Nasm

open Lean in
/-- `name% "text"`: the number of a name (the symbols of ssz/sha256_avx.asm). -/
macro "name% " s:str : term => do
  let n := s.getString.toList.foldl (fun n c => n * 256 + c.toNat) 0
  return Syntax.mkNumLit (toString n)

/-! ## Tokens -/

/-- Tokens: identifiers, numbers, other characters, an opening parenthesis right after an identifier, `%1`, `%%name` (with the number of the
macro call it belongs to), `%directive`, `%+`, strings (all kinds occur in ssz/transpose_avx2.asm:31-86, ssz/reg_sizes.asm:292-298). -/
inductive Tok
  | id (n : Nat)
  | num (n : Nat)
  | sym (c : Nat)
  | adj
  | par (k : Nat)
  | loc (m n : Nat)
  | dir (n : Nat)
  | paste
  | str (n : Nat)
  | bad
  deriving DecidableEq, Repr

/-- Decimal digits (ssz/sha256_avx.asm:110). -/
def isDigit (c : Nat) : Bool := Nat.ble 48 c && Nat.ble c 57
/-- Letters (ssz/sha256_avx.asm:110). -/
def isLetter (c : Nat) : Bool := (Nat.ble 97 c && Nat.ble c 122) || (Nat.ble 65 c && Nat.ble c 90)
/-- Characters that begin an identifier: letters, `.`, `_`, `?` (ssz/sha256_avx.asm:110,468). -/
def isStart (c : Nat) : Bool := isLetter c || Nat.beq c 95 || Nat.beq c 46 || Nat.beq c 63
/-- Characters of an identifier: also digits, `$`, `#`, `@`, `~` (ssz/sha256_avx.asm:110). -/
def isRest (c : Nat) : Bool := isStart c || isDigit c || Nat.beq c 36 || Nat.beq c 35 || Nat.beq c 64 || Nat.beq c 126

/-- The characters of a name, put in front of a list (ssz/reg_sizes.asm:296). -/
def spell : (fuel : Nat) → (n : Nat) → List Nat → List Nat
  | 0, _, cs => cs
  | _ + 1, 0, cs => cs
  | fuel + 1, n + 1, cs => spell fuel ((n + 1) / 256) ((n + 1) % 256 :: cs)

/-- Two names put together (ssz/reg_sizes.asm:296, ssz/sha256_avx2.asm:450-454). -/
def glue (a b : Nat) : Nat := (spell 64 b []).foldl (fun n c => Nat.add (Nat.mul n 256) c) a

/-- The value of a digit to the bases up to 16 (ssz/sha256_avx.asm:314). -/
def digit (c : Nat) : Option Nat :=
  bif isDigit c then some (c - 48) else bif Nat.ble 97 c && Nat.ble c 102 then some (c - 87) else bif Nat.ble 65 c && Nat.ble c 70 then some (c - 55)
  else none

/-- The value of digits to a base (ssz/sha256_avx.asm:314). -/
def digits (b : Nat) : List Nat → Nat → Option Nat
  | [], n => some n
  | c :: cs, n => match digit c with
    | none => none
    | some d => bif Nat.ble b d then none else digits b cs (n * b + d)

/-- The digits of a binary number that ends with `b` (ssz/sha256_avx_one_block.asm:263). -/
def binary : List Nat → Nat → Option Nat
  | [], _ => none
  | [98], n => some n
  | c :: cs, n => bif Nat.beq c 48 then binary cs (n * 2) else bif Nat.beq c 49 then binary cs (n * 2 + 1) else none

/-- A number: hexadecimal with `0x`, binary with `b`, decimal (ssz/sha256_avx.asm:110,314, ssz/sha256_avx_one_block.asm:263). -/
def number (n : Nat) : Tok :=
  match spell 64 n [] with
  | 48 :: 120 :: c :: cs => match digits 16 (c :: cs) 0 with
    | some v => .num v
    | none => .bad
  | cs => match digits 10 cs 0 with
    | some v => .num v
    | none => match binary cs 0 with
      | some v => .num v
      | none => .bad

/-- What the reader of a line is in the middle of (ssz/sha256_avx.asm:139-145). -/
inductive Mode
  | none | ident | num | percent | local | param | string | directive | comment

/-- Read a character that does not continue the token before it: tokens it completes, what it begins, and with which name so far
(ssz/sha256_avx.asm:139-145). -/
def begins (c : Nat) : List Tok × Mode × Nat :=
  bif Nat.beq c 32 || Nat.beq c 9 then ([], .none, 0)
  else bif isStart c then ([], .ident, c)
  else bif isDigit c then ([], .num, c)
  else bif Nat.beq c 59 then ([], .comment, 0)
  else bif Nat.beq c 37 then ([], .percent, 0)
  else bif Nat.beq c 34 then ([], .string, 0)
  else ([.sym c], .none, 0)

/-- The tokens of a line; comments begin with `;` (ssz/sha256_avx.asm:139-158). -/
def lex : List Nat → Mode → Nat → List Tok
  | [], .none, _ => []
  | [], .comment, _ => []
  | [], .ident, a => [.id a]
  | [], .num, a => [number a]
  | [], .local, a => [.loc 0 a]
  | [], .param, a => [.par a]
  | [], .directive, a => [.dir a]
  | [], .percent, _ => [.bad]
  | [], .string, _ => [.bad]
  | c :: cs, m, a =>
    match m with
    | .comment => []
    | .none => match begins c with | (ts, m', a') => ts ++ lex cs m' a'
    | .ident =>
      bif isRest c then lex cs .ident (Nat.add (Nat.mul a 256) c)
      else bif Nat.beq c 40 then .id a :: .adj :: lex cs .none 0
      else .id a :: match begins c with | (ts, m', a') => ts ++ lex cs m' a'
    | .num => bif isRest c then lex cs .num (Nat.add (Nat.mul a 256) c) else number a :: match begins c with | (ts, m', a') => ts ++ lex cs m' a'
    | .percent =>
      bif isDigit c then lex cs .param (c - 48)
      else bif isLetter c then lex cs .directive c
      else bif Nat.beq c 37 then lex cs .local 0
      else bif Nat.beq c 43 then .paste :: lex cs .none 0
      else [.bad]
    | .local => bif isRest c then lex cs .local (Nat.add (Nat.mul a 256) c) else .loc 0 a :: match begins c with | (ts, m', a') => ts ++ lex cs m' a'
    | .param => bif isDigit c then lex cs .param (a * 10 + (c - 48)) else .par a :: match begins c with | (ts, m', a') => ts ++ lex cs m' a'
    | .directive => bif isRest c then lex cs .directive (Nat.add (Nat.mul a 256) c) else .dir a :: match begins c with | (ts, m', a') => ts ++ lex cs m' a'
    | .string => bif Nat.beq c 34 then .str a :: lex cs .none 0 else lex cs .string (Nat.add (Nat.mul a 256) c)

/-- Does the line end with `\`, and what is before it? (ssz/sha256_avx2.asm:649-657) -/
def continued : List Tok → Option (List Tok)
  | [] => none
  | [t] => if t = .sym 92 then some [] else none
  | t :: ts => (continued ts).map (t :: ·)

/-- The lines of a file as tokens; a line that ends with `\` is continued on the next one (ssz/sha256_avx2.asm:649-657). -/
def readLines : List (List Nat) → List (List Tok)
  | [] => []
  | l :: ls => match continued (lex l .none 0) with
    | none => lex l .none 0 :: readLines ls
    | some ts => match readLines ls with
      | [] => [[.bad]]
      | l' :: ls' => (ts ++ l') :: ls'

/-! ## Single-line macros -/

/-- A single-line macro: parameters in parentheses, if any, and replacement (ssz/reg_sizes.asm:292-298, ssz/sha256_avx.asm:87). -/
structure Def where
  params : Option (List Nat)
  body : List Tok

/-- The definition of a name in a list (ssz/sha256_avx.asm:87). -/
def assoc (k : Nat) : List (Nat × Def) → Option Def
  | [] => none
  | (j, d) :: b => bif Nat.beq j k then some d else assoc k b

/-- Replace the definition of a name in a list (ssz/sha256_avx.asm:162-172). -/
def replace (k : Nat) (d : Def) : List (Nat × Def) → List (Nat × Def)
  | [] => [(k, d)]
  | (j, e) :: b => bif Nat.beq j k then (k, d) :: b else (j, e) :: replace k d b

/-- The hash of a name (ssz/sha256_avx.asm:87). -/
def hash (k : Nat) : Nat := Nat.mod k 8191

/-- Eight things (the definitions of ssz/sha256_avx2.asm:364-456). -/
structure Oct (α : Type) where
  (a b c d e f g h : α)

/-- Number `k` of eight things, by the last three bits of `k` (the definitions of ssz/sha256_avx2.asm:364-456). -/
def Oct.get {α : Type} (o : Oct α) (k : Nat) : α :=
  bif Nat.beq (Nat.mod k 2) 0 then
    bif Nat.beq (Nat.mod k 4) 0 then bif Nat.beq (Nat.mod k 8) 0 then o.a else o.e
    else bif Nat.beq (Nat.mod k 8) 2 then o.c else o.g
  else
    bif Nat.beq (Nat.mod k 4) 1 then bif Nat.beq (Nat.mod k 8) 1 then o.b else o.f
    else bif Nat.beq (Nat.mod k 8) 3 then o.d else o.h

/-- Replace number `k` of eight things (the definitions of ssz/sha256_avx2.asm:364-456). -/
def Oct.set {α : Type} (o : Oct α) (k : Nat) (x : α) : Oct α :=
  match o with
  | ⟨a, b, c, d, e, f, g, h⟩ =>
    bif Nat.beq (Nat.mod k 2) 0 then
      bif Nat.beq (Nat.mod k 4) 0 then bif Nat.beq (Nat.mod k 8) 0 then ⟨x, b, c, d, e, f, g, h⟩ else ⟨a, b, c, d, x, f, g, h⟩
      else bif Nat.beq (Nat.mod k 8) 2 then ⟨a, b, x, d, e, f, g, h⟩ else ⟨a, b, c, d, e, f, x, h⟩
    else
      bif Nat.beq (Nat.mod k 4) 1 then bif Nat.beq (Nat.mod k 8) 1 then ⟨a, x, c, d, e, f, g, h⟩ else ⟨a, b, c, d, e, x, g, h⟩
      else bif Nat.beq (Nat.mod k 8) 3 then ⟨a, b, c, x, e, f, g, h⟩ else ⟨a, b, c, d, e, f, g, x⟩

/-- Eight times the same (the definitions of ssz/sha256_avx2.asm:364-456). -/
def Oct.all {α : Type} (x : α) : Oct α := ⟨x, x, x, x, x, x, x, x⟩

/-- Single-line macros by name, in 64 lists by the hash of the name (the definitions of ssz/sha256_avx2.asm:364-456). -/
abbrev Defs := Oct (Oct (List (Nat × Def)))

/-- Look up a name (ssz/sha256_avx.asm:87). -/
def find (t : Defs) (k : Nat) : Option Def := assoc k ((t.get (hash k)).get (Nat.div (hash k) 8))

/-- Define a name (ssz/sha256_avx.asm:87,162-172). -/
def insert (t : Defs) (k : Nat) (d : Def) : Defs :=
  t.set (hash k) ((t.get (hash k)).set (Nat.div (hash k) 8) (replace k d ((t.get (hash k)).get (Nat.div (hash k) 8))))

/-- The state of the preprocessor: single-line macros, those whose names begin with `%%` (by the number of the macro call), multi-line macros by
name and number of parameters, number of macro calls so far (ssz/sha256_avx.asm:139-205). -/
structure PP where
  defs : Defs
  locals : List (Nat × Nat × List Tok)
  macros : List (Nat × Nat × List (List Tok))
  calls : Nat

/-- The definition of a local name (ssz/sha256_avx.asm:139-158). -/
def findLocal (m n : Nat) : List (Nat × Nat × List Tok) → Option (List Tok)
  | [] => none
  | (m', n', b) :: l => bif Nat.beq n n' && Nat.beq m m' then some b else findLocal m n l

/-- The multi-line macro with the given name and number of parameters (ssz/sha256_avx.asm:175-205: `PRORD` has two versions). -/
def findMacro (n k : Nat) : List (Nat × Nat × List (List Tok)) → Option (List (List Tok))
  | [] => none
  | (n', k', b) :: l => bif Nat.beq n n' && Nat.beq k k' then some b else findMacro n k l

/-- Split at the commas outside parentheses and brackets (ssz/sha256_avx.asm:499, ssz/sha256_avx2.asm:649-657). -/
def commas : List Tok → (depth : Nat) → List (List Tok)
  | [], _ => [[]]
  | t :: ts, d =>
    match t with
    | .adj => match commas ts (d + 1) with | [] => [] | l :: ls => (t :: l) :: ls
    | .sym c =>
      bif Nat.beq c 44 && Nat.beq d 0 then [] :: commas ts 0
      else match commas ts (bif Nat.beq c 40 || Nat.beq c 91 then d + 1 else bif Nat.beq c 41 || Nat.beq c 93 then d - 1 else d) with
        | [] => []
        | l :: ls => (t :: l) :: ls
    | _ => match commas ts d with | [] => [] | l :: ls => (t :: l) :: ls

/-- The operands or macro arguments of a line (ssz/sha256_avx.asm:499). -/
def operands (ts : List Tok) : List (List Tok) :=
  match ts with
  | [] => []
  | _ => commas ts 0

/-- Cut a list after the parenthesis that closes the one before it (ssz/transpose_avx2.asm:67). -/
def closing : List Tok → (depth : Nat) → Option (List Tok × List Tok)
  | [], _ => none
  | t :: ts, d =>
    match t with
    | .adj => (closing ts (d + 1)).map fun p => (t :: p.1, p.2)
    | .sym c =>
      bif Nat.beq c 41 then bif Nat.beq d 0 then some ([], ts) else (closing ts (d - 1)).map fun p => (t :: p.1, p.2)
      else (closing ts (bif Nat.beq c 40 then d + 1 else d)).map fun p => (t :: p.1, p.2)
    | _ => (closing ts d).map fun p => (t :: p.1, p.2)

/-- The argument for a parameter of a single-line macro (ssz/reg_sizes.asm:296). -/
def argument (n : Nat) : List Nat → List (List Tok) → Option (List Tok)
  | p :: ps, a :: as => bif Nat.beq p n then some a else argument n ps as
  | _, _ => none

/-- Put arguments in the place of the parameters of a single-line macro (ssz/reg_sizes.asm:296). -/
def fill (ps : List Nat) (as : List (List Tok)) : List Tok → List Tok
  | [] => []
  | .id n :: ts => match argument n ps as with
    | some a => a ++ fill ps as ts
    | none => .id n :: fill ps as ts
  | t :: ts => t :: fill ps as ts

/-- Put together the names on both sides of `%+` (ssz/reg_sizes.asm:296). -/
def pasted : List Tok → List Tok
  | [] => []
  | .id a :: .paste :: .id b :: ts => .id (glue a b) :: pasted ts
  | t :: ts => t :: pasted ts

/-- Is the number in the list? (ssz/sha256_avx.asm:87) -/
def among (n : Nat) : List Nat → Bool
  | [] => false
  | k :: ks => Nat.beq n k || among n ks

/-- Expand the single-line macros in a line, those being expanded excepted (ssz/sha256_avx.asm:110-113, ssz/transpose_avx2.asm:67). -/
def expand : (fuel : Nat) → PP → (active : List Nat) → List Tok → List Tok
  | 0, _, _, _ => [.bad]
  | _ + 1, _, _, [] => []
  | fuel + 1, s, act, t :: ts =>
    match t with
    | .id n => bif among n act then t :: expand fuel s act ts else
      match find s.defs n with
      | none => t :: expand fuel s act ts
      | some ⟨none, b⟩ => expand fuel s (n :: act) b ++ expand fuel s act ts
      | some ⟨some ps, b⟩ =>
        match ts with
        | .adj :: us => match closing us 0 with
          | none => [.bad]
          | some (a, vs) =>
            expand fuel s (n :: act) (pasted (fill ps ((commas a 0).map (expand fuel s act)) b)) ++ expand fuel s act vs
        | _ => t :: expand fuel s act ts
    | .loc m n => match findLocal m n s.locals with
      | none => [.bad]
      | some b => expand fuel s act b ++ expand fuel s act ts
    | .par _ => [.bad]
    | _ => t :: expand fuel s act ts

/-- Steps that are enough to expand a line (ssz/sha256_avx2.asm:649-657). -/
def lineFuel : Nat := 200

/-! ## Expressions -/

/-- The general registers by name: number of bytes and register (ssz/sha256_avx_one_block.asm:128-146, ssz/sha256_avx.asm:74-85). -/
def gprs : List (Nat × Nat × X86.R) :=
  [(name% "rsp", 8, .rsp), (name% "rcx", 8, .rcx), (name% "rsi", 8, .rsi), (name% "rdi", 8, .rdi), (name% "rax", 8, .rax),
   (name% "rbx", 8, .rbx), (name% "rdx", 8, .rdx), (name% "rbp", 8, .rbp), (name% "r8", 8, .r8), (name% "r9", 8, .r9),
   (name% "r10", 8, .r10), (name% "r11", 8, .r11), (name% "r12", 8, .r12), (name% "r13", 8, .r13), (name% "r14", 8, .r14),
   (name% "r15", 8, .r15),
   (name% "r13d", 4, .r13), (name% "r14d", 4, .r14), (name% "r15d", 4, .r15), (name% "eax", 4, .rax), (name% "ebx", 4, .rbx),
   (name% "edx", 4, .rdx), (name% "r8d", 4, .r8), (name% "r9d", 4, .r9), (name% "r10d", 4, .r10), (name% "r11d", 4, .r11),
   (name% "r12d", 4, .r12), (name% "ecx", 4, .rcx), (name% "esi", 4, .rsi), (name% "edi", 4, .rdi), (name% "ebp", 4, .rbp),
   (name% "esp", 4, .rsp)]

/-- The general register with a name (ssz/sha256_avx.asm:74-85). -/
def gpr (n : Nat) : List (Nat × Nat × X86.R) → Option (Nat × X86.R)
  | [] => none
  | (k, p) :: l => bif Nat.beq k n then some p else gpr n l

/-- The vector registers in order (ssz/sha256_avx.asm:87-100). -/
def vectors : List X86.X := [.x0, .x1, .x2, .x3, .x4, .x5, .x6, .x7, .x8, .x9, .x10, .x11, .x12, .x13, .x14, .x15]

/-- The vector register with a name: `xmm` or `ymm` and a number (ssz/sha256_avx.asm:87-100, ssz/sha256_avx2.asm:408-421). -/
def vector (n : Nat) : Option (X86.Width × X86.X) :=
  let at_ (p k : Nat) : Option (X86.Width × X86.X) :=
    bif Nat.beq p (name% "xmm") then (vectors[k]?).map (.xmm, ·) else bif Nat.beq p (name% "ymm") then (vectors[k]?).map (.ymm, ·) else none
  bif isDigit (n % 256) then
    bif Nat.beq (n / 256 % 256) 49 then at_ (n / 65536) (10 + (n % 256 - 48)) else at_ (n / 256) (n % 256 - 48)
  else none

/-- The value of a symbol: a number (member of a structure) or a place in a section (ssz/sha256_avx.asm:116-121,313). -/
inductive Value
  | abs (n : Nat)
  | at (sec off : Nat)

/-- The value of a symbol (ssz/sha256_avx.asm:116-121,313). -/
def symbol (k : Nat) : List (Nat × Value) → Option Value
  | [] => none
  | (j, v) :: l => bif Nat.beq j k then some v else symbol k l

/-- A sum of registers, places in sections and a number (ssz/sha256_avx.asm:218,475). -/
structure Sum where
  regs : List X86.R
  places : List (Nat × Nat)
  n : Nat

/-- Combine two numbers; registers and places take part in sums only (ssz/sha256_avx.asm:218,250). -/
def combine (op : Nat) (x y : Sum) : Option Sum :=
  bif Nat.beq op 43 then some ⟨x.regs ++ y.regs, x.places ++ y.places, x.n + y.n⟩
  else match x, y with
    | ⟨[], [], a⟩, ⟨[], [], b⟩ =>
      bif Nat.beq op 42 then some ⟨[], [], a * b⟩
      else bif Nat.beq op 38 then some ⟨[], [], Nat.land a b⟩
      else bif Nat.beq op 45 && Nat.ble b a then some ⟨[], [], a - b⟩
      else none
    | _, _ => none

/-- The strength of a binary operator: `&` is weaker than `+` and `-`, these are weaker than `*` (ssz/sha256_avx.asm:218,250). -/
def strength (c : Nat) : Nat := bif Nat.beq c 38 then 1 else bif Nat.beq c 43 || Nat.beq c 45 then 2 else bif Nat.beq c 42 then 3 else 0

mutual
/-- Read a number, a register, a symbol or an expression in parentheses, and the operators stronger than `p` that follow it
(ssz/sha256_avx.asm:218,250). -/
def expr : (fuel : Nat) → List (Nat × Value) → (p : Nat) → List Tok → Option (Sum × List Tok)
  | 0, _, _, _ => none
  | fuel + 1, syms, p, .num n :: ts => more fuel syms p ⟨[], [], n⟩ ts
  | fuel + 1, syms, p, .id n :: ts => match gpr n gprs with
    | some (8, r) => more fuel syms p ⟨[r], [], 0⟩ ts
    | some _ => none
    | none => match symbol n syms with
      | some (.abs v) => more fuel syms p ⟨[], [], v⟩ ts
      | some (.at s o) => more fuel syms p ⟨[], [(s, o)], 0⟩ ts
      | none => none
  | fuel + 1, syms, p, .sym 40 :: ts => match expr fuel syms 0 ts with
    | some (v, .sym 41 :: us) => more fuel syms p v us
    | _ => none
  | _ + 1, _, _, _ => none

/-- The operators stronger than `p` that follow a value (ssz/sha256_avx.asm:218,250). -/
def more : (fuel : Nat) → List (Nat × Value) → (p : Nat) → Sum → List Tok → Option (Sum × List Tok)
  | 0, _, _, _, _ => none
  | fuel + 1, syms, p, v, ts => match ts with
    | .sym c :: us => bif Nat.ble (strength c) p then some (v, ts) else
      match expr fuel syms (strength c) us with
      | none => none
      | some (w, vs) => match combine c v w with
        | none => none
        | some x => more fuel syms p x vs
    | _ => some (v, ts)
end

/-- Steps that are enough for an expression (ssz/sha256_avx.asm:250). -/
def exprFuel : Nat := 60

/-- The value of an expression that takes up all tokens (ssz/sha256_avx.asm:250). -/
def evaluate (syms : List (Nat × Value)) (ts : List Tok) : Option Sum :=
  match expr exprFuel syms 0 ts with
  | some (v, []) => some v
  | _ => none

/-- The value of an expression that is a number (ssz/sha256_avx.asm:487,503). -/
def evaluateNat (syms : List (Nat × Value)) (ts : List Tok) : Option Nat :=
  match evaluate syms ts with
  | some ⟨[], [], n⟩ => some n
  | _ => none

/-! ## Multi-line macros and directives -/

/-- What the preprocessor still has to read: lines, and the ends of macro calls, where the names that begin with `%%` are forgotten
(ssz/sha256_avx.asm:139-158). -/
inductive Line
  | text (ts : List Tok)
  | done (m : Nat)

/-- Put arguments in the place of `%1`, `%2`, ... and mark the names that begin with `%%` (ssz/sha256_avx.asm:139-158). -/
def instantiate (m : Nat) (as : List (List Tok)) : List Tok → List Tok
  | [] => []
  | .par k :: ts => match k with
    | 0 => [.bad]
    | k + 1 => match as[k]? with
      | some a => a ++ instantiate m as ts
      | none => [.bad]
  | .loc _ n :: ts => .loc m n :: instantiate m as ts
  | t :: ts => t :: instantiate m as ts

/-- The lines of a macro definition and those after it (ssz/sha256_avx.asm:139-158). -/
def macroBody : List Line → List (List Tok) × List Line
  | [] => ([[.bad]], [])
  | .done m :: ls => ([[.bad]], .done m :: ls)
  | .text ts :: ls => match ts with
    | .dir d :: _ =>
      bif Nat.beq d (name% "endm") || Nat.beq d (name% "endmacro") then ([], ls)
      else match macroBody ls with | (b, r) => (ts :: b, r)
    | _ => match macroBody ls with | (b, r) => (ts :: b, r)

/-- The lines up to the matching `%endrep` and those after it (ssz/sha256_avx.asm:488-504). -/
def repBody : List Line → (depth : Nat) → List Line × List Line
  | [], _ => ([.text [.bad]], [])
  | l :: ls, d => match l with
    | .text (.dir k :: _) =>
      bif Nat.beq k (name% "endrep") && Nat.beq d 0 then ([], ls)
      else match repBody ls (bif Nat.beq k (name% "rep") then d + 1 else bif Nat.beq k (name% "endrep") then d - 1 else d) with
        | (b, r) => (l :: b, r)
    | _ => match repBody ls d with | (b, r) => (l :: b, r)

/-- The lines after the matching `%endif`, or after the matching `%else` if one is looked for (ssz/sha256_avx.asm:68-78). -/
def skip (orElse : Bool) : List Line → (depth : Nat) → List Line
  | [], _ => [.text [.bad]]
  | .text (.dir k :: _) :: ls, d =>
    bif Nat.beq k (name% "ifdef") || Nat.beq k (name% "ifndef") then skip orElse ls (d + 1)
    else bif Nat.beq k (name% "endif") then match d with
      | 0 => ls
      | d + 1 => skip orElse ls d
    else bif Nat.beq k (name% "else") && orElse && Nat.beq d 0 then ls
    else skip orElse ls d
  | _ :: ls, d => skip orElse ls d

/-- The parameters of a single-line macro up to the closing parenthesis (ssz/reg_sizes.asm:292-298). -/
def parameters : List Tok → Option (List Nat × List Tok)
  | .id n :: .sym 41 :: ts => some ([n], ts)
  | .id n :: .sym 44 :: ts => (parameters ts).map fun p => (n :: p.1, p.2)
  | _ => none

/-- A list repeated, followed by another (ssz/sha256_avx.asm:488-504). -/
def repeated {α : Type} (b : List α) : Nat → List α → List α
  | 0, r => r
  | n + 1, r => b ++ repeated b n r

/-- The lines of a file among the sources, by its name (ssz/sha256_avx2.asm:66, ssz/transpose_avx2.asm:31). -/
def lookupFile (n : Nat) : List (Nat × List (List Tok)) → Option (List (List Tok))
  | [] => none
  | (k, f) :: l => bif Nat.beq k n then some f else lookupFile n l

/-- Define a single-line macro (ssz/sha256_avx.asm:87). -/
def PP.define (s : PP) (n : Nat) (d : Def) : PP :=
  match s with
  | ⟨defs, locals, macros, calls⟩ => ⟨insert defs n d, locals, macros, calls⟩

/-- Handle a directive: `none` if there is an error; the new state and the lines to read next (ssz/sha256_avx.asm:68-205,487-504,
ssz/reg_sizes.asm:30-300). -/
def directive (files : List (Nat × List (List Tok))) (s : PP) (d : Nat) (ts : List Tok) (ls : List Line) : Option (PP × List Line) :=
  bif Nat.beq d (name% "define") then match ts with
    | .id n :: .adj :: us => match parameters us with
      | some (ps, b) => some (s.define n ⟨some ps, b⟩, ls)
      | none => none
    | .id n :: b => some (s.define n ⟨none, b⟩, ls)
    | .loc m n :: b => match s with
      | ⟨defs, locals, macros, calls⟩ => some (⟨defs, (m, n, b) :: locals, macros, calls⟩, ls)
    | _ => none
  else bif Nat.beq d (name% "xdefine") then match ts with
    | .id n :: b => some (s.define n ⟨none, expand lineFuel s [] b⟩, ls)
    | _ => none
  else bif Nat.beq d (name% "assign") then match ts with
    | .id n :: b => match evaluateNat [] (expand lineFuel s [] b) with
      | some v => some (s.define n ⟨none, [.num v]⟩, ls)
      | none => none
    | _ => none
  else bif Nat.beq d (name% "macro") then match ts, macroBody ls with
    | [.id n, .num k], (b, r) => match s with
      | ⟨defs, locals, macros, calls⟩ => some (⟨defs, locals, (n, k, b) :: macros, calls⟩, r)
    | _, _ => none
  else bif Nat.beq d (name% "rep") then match evaluateNat [] (expand lineFuel s [] ts), repBody ls 0 with
    | some n, (b, r) => some (s, repeated b n r)
    | none, _ => none
  else bif Nat.beq d (name% "ifdef") then match ts with
    | [.id n] => match find s.defs n with
      | some _ => some (s, ls)
      | none => some (s, skip true ls 0)
    | _ => none
  else bif Nat.beq d (name% "ifndef") then match ts with
    | [.id n] => match find s.defs n with
      | some _ => some (s, skip true ls 0)
      | none => some (s, ls)
    | _ => none
  else bif Nat.beq d (name% "else") then some (s, skip false ls 0)
  else bif Nat.beq d (name% "endif") then some (s, ls)
  else bif Nat.beq d (name% "include") then match ts with
    | [.str n] => match lookupFile n files with
      | some f => some (s, f.map .text ++ ls)
      | none => none
    | _ => none
  else none

/-- Forget the names of a macro call (ssz/sha256_avx.asm:139-158). -/
def forget (m : Nat) : List (Nat × Nat × List Tok) → List (Nat × Nat × List Tok)
  | [] => []
  | (k, p) :: l => bif Nat.beq k m then forget m l else (k, p) :: l

/-- The preprocessor: the lines that are left when all directives have been handled and all macros expanded. In a line that is not a directive the
single-line macros are expanded first, then it is looked up as a call of a multi-line macro (ssz/sha256_avx.asm:458-609). -/
def preprocess (files : List (Nat × List (List Tok))) : (fuel : Nat) → PP → List Line → List (List Tok)
  | 0, _, _ => [[.bad]]
  | _ + 1, _, [] => []
  | fuel + 1, ⟨defs, locals, macros, calls⟩, .done m :: ls => preprocess files fuel ⟨defs, forget m locals, macros, calls⟩ ls
  | fuel + 1, ⟨defs, locals, macros, calls⟩, .text ts :: ls => match ts with
    | [] => preprocess files fuel ⟨defs, locals, macros, calls⟩ ls
    | .dir d :: us => match directive files ⟨defs, locals, macros, calls⟩ d us ls with
      | none => [[.bad]]
      | some (s', ls') => preprocess files fuel s' ls'
    | t :: us => match expand lineFuel ⟨defs, locals, macros, calls⟩ [] (t :: us) with
      | .id n :: vs => match findMacro n (operands vs).length macros with
        | some b =>
          preprocess files fuel ⟨defs, locals, macros, calls + 1⟩
            (b.map (fun l => .text (instantiate (calls + 1) (operands vs) l)) ++ .done (calls + 1) :: ls)
        | none => (.id n :: vs) :: preprocess files fuel ⟨defs, locals, macros, calls⟩ ls
      | vs => vs :: preprocess files fuel ⟨defs, locals, macros, calls⟩ ls

/-! ## Sections, labels, data -/

/-- What a preprocessed line says: a symbol and its value, a word of data in a section, a label in the code, an instruction with its operands
(ssz/sha256_avx.asm:116-121,309-609). -/
inductive Stmt
  | symbol (n : Nat) (v : Value)
  | word (sec w : Nat)
  | label (n : Nat)
  | instr (n : Nat) (ops : List (List Tok))
  | bad

/-- Where the assembler is: the section, the number of bytes in each data section, the structure being defined with its size so far
(ssz/sha256_avx.asm:116-121,309). -/
structure Place where
  sec : Nat
  sizes : List (Nat × Nat)
  struc : Option (Nat × Nat)

/-- The number of bytes in a section (ssz/sha256_shani.asm:973-1024). -/
def sizeOf (k : Nat) : List (Nat × Nat) → Nat
  | [] => 0
  | (j, n) :: l => bif Nat.beq j k then n else sizeOf k l

/-- Add bytes to a section (ssz/sha256_shani.asm:973-1024). -/
def grow (k n : Nat) : List (Nat × Nat) → List (Nat × Nat)
  | [] => [(k, n)]
  | (j, m) :: l => bif Nat.beq j k then (j, m + n) :: l else (j, m) :: grow k n l

/-- The words of a number of `4 * k` bytes, little endian (ssz/sha256_avx.asm:314, ssz/sha256_shani.asm:993). -/
def wordsOf (sec : Nat) : (k : Nat) → (v : Nat) → List Stmt → List Stmt
  | 0, v, r => match v with | 0 => r | _ + 1 => .bad :: r
  | k + 1, v, r => .word sec (v % 4294967296) :: wordsOf sec k (v / 4294967296) r

/-- The numbers of a data directive; a comma at the end is ignored (ssz/sha256_avx.asm:314, ssz/sha256_avx_one_block.asm:52). -/
def numbers : List (List Tok) → List (List Tok)
  | [] => []
  | o :: os => match o, os with
    | [], [] => []
    | _, _ => o :: numbers os

/-- The data of a line: numbers of `4 * k` bytes (ssz/sha256_avx.asm:314, ssz/sha256_avx2.asm:205). -/
def dataOf (sec k : Nat) : List (List Tok) → List Stmt → List Stmt
  | [], r => r
  | o :: os, r => match o with
    | [.num v] => wordsOf sec k v (dataOf sec k os r)
    | _ => [.bad]

/-- The number of words in the numbers of a data directive, 0 if it is none: `dd`, `dq`, `ddq` (ssz/sha256_avx.asm:314,446,
ssz/sha256_avx2.asm:205). -/
def dataSize (n : Nat) : Nat :=
  bif Nat.beq n (name% "dd") then 1 else bif Nat.beq n (name% "dq") then 2 else bif Nat.beq n (name% "ddq") then 4 else 0

/-- A line in the definition of a structure: member and number of bytes (`resb`), either may be missing (ssz/sha256_avx.asm:116-121,
ssz/sha256_avx2.asm:444-449). A name that begins with a dot is put behind the name of the structure. -/
def member (s n : Nat) (ts : List Tok) : List Stmt × Option Nat :=
  let reserve (us : List Tok) : Option Nat := match us with
    | [] => some 0
    | .id r :: vs => bif Nat.beq r (name% "resb") then evaluateNat [] vs else none
    | _ => none
  let called (k : Nat) : Nat := match spell 64 k [] with
    | 46 :: _ => glue s k
    | _ => k
  match ts with
  | .id k :: .sym 58 :: us => ([.symbol (called k) (.abs n)], reserve us)
  | .id k :: us => bif Nat.beq k (name% "resb") then ([], reserve ts) else ([.symbol (called k) (.abs n)], reserve us)
  | _ => ([], none)

/-- Lines with these words say nothing about the code or the data: `global`, `extern`, `default` (ssz/sha256_avx.asm:66,310,460). -/
def ignored (n : Nat) : Bool := Nat.beq n (name% "global") || Nat.beq n (name% "extern") || Nat.beq n (name% "default")

/-- The preprocessed lines as statements. In a data section `align` is accepted only where it has no effect; in the code it inserts
instructions that do nothing and is left out (ssz/sha256_avx.asm:309-609). -/
def statements (p : Place) : List (List Tok) → List Stmt
  | [] => []
  | ts :: ls => match p.struc with
    | some (s, n) => match ts with
      | [.id k] => bif Nat.beq k (name% "endstruc") then .symbol (glue s (name% "_size")) (.abs n) :: statements { p with struc := none } ls else [.bad]
      | _ => match member s n ts with
        | (ss, some k) => ss ++ statements { p with struc := some (s, n + k) } ls
        | (_, none) => [.bad]
    | none => match ts with
      | .id k :: .sym 58 :: us =>
        let text := Nat.beq p.sec (name% ".text")
        let first := bif text then Stmt.label k else .symbol k (.at p.sec (sizeOf p.sec p.sizes))
        match us with
        | [] => first :: statements p ls
        | .id d :: vs => match dataSize d with
          | 0 => [.bad]
          | w + 1 => bif text then [.bad] else
            first :: dataOf p.sec (w + 1) (numbers (operands vs))
              (statements { p with sizes := grow p.sec (4 * ((w + 1) * (numbers (operands vs)).length)) p.sizes } ls)
        | _ => [.bad]
      | .id k :: us => match dataSize k with
        | w + 1 => bif Nat.beq p.sec (name% ".text") then [.bad] else
          dataOf p.sec (w + 1) (numbers (operands us)) (statements { p with sizes := grow p.sec (4 * ((w + 1) * (numbers (operands us)).length)) p.sizes } ls)
        | 0 =>
          bif Nat.beq k (name% "section") then match us with
            | .id n :: _ => statements { p with sec := n } ls
            | _ => [.bad]
          else bif Nat.beq k (name% "struc") then match us with
            | [.id n] => statements { p with struc := some (n, 0) } ls
            | _ => [.bad]
          else bif Nat.beq k (name% "align") then match us with
            | [.num (n + 1)] => bif Nat.beq p.sec (name% ".text") || Nat.beq (sizeOf p.sec p.sizes % (n + 1)) 0 then statements p ls else [.bad]
            | _ => [.bad]
          else bif ignored k then statements p ls
          else bif Nat.beq p.sec (name% ".text") then .instr k (operands us) :: statements p ls
          else [.bad]
      | _ => [.bad]

/-- The symbols of a file (ssz/sha256_avx.asm:116-121,309-456). -/
def symbols : List Stmt → List (Nat × Value)
  | [] => []
  | .symbol n v :: l => (n, v) :: symbols l
  | _ :: l => symbols l

/-- The data of a section (ssz/sha256_avx.asm:309-456). -/
def words (sec : Nat) : List Stmt → List (BitVec 32)
  | [] => []
  | .word s w :: l => bif Nat.beq s sec then BitVec.ofNat 32 w :: words sec l else words sec l
  | _ :: l => words sec l

/-! ## Instructions -/

/-- Operands: general registers of 8 and of 4 bytes, vector registers, memory, numbers, other names (ssz/sha256_avx.asm:458-609). -/
inductive Op
  | r64 (r : X86.R)
  | r32 (r : X86.R)
  | vec (w : X86.Width) (x : X86.X)
  | mem (a : X86.Addr)
  | imm (n : Nat)
  | name (n : Nat)
  | bad

/-- Drop the bracket at the end, and `wrt rip` before it: what is left, and whether `wrt rip` was there (ssz/sha256_shani.asm:609). -/
def bracket : List Tok → Option (List Tok × Bool)
  | [] => none
  | [t] => if t = .sym 93 then some ([], false) else none
  | .id n :: ts =>
    bif Nat.beq n (name% "wrt") then if ts = [.id (name% "rip"), .sym 93] then some ([], true) else none
    else (bracket ts).map fun p => (.id n :: p.1, p.2)
  | t :: ts => (bracket ts).map fun p => (t :: p.1, p.2)

/-- An address: a register and a number, two registers and a number, or a place relative to the instruction pointer
(ssz/sha256_avx.asm:218-219,475). -/
def address (regions : Nat → Option X86.Region) (rel : Bool) : Option Sum → Op
  | some ⟨[b], [], n⟩ => bif rel then .bad else .mem (.reg b n)
  | some ⟨[b, i], [], n⟩ => bif rel then .bad else .mem (.idx b i n)
  | some ⟨[], [(s, o)], n⟩ => bif rel then match regions s with | some r => .mem (.rel r (o + n)) | none => .bad else .bad
  | _ => .bad

/-- An operand (ssz/sha256_avx.asm:458-609). -/
def operand (regions : Nat → Option X86.Region) (syms : List (Nat × Value)) (ts : List Tok) : Op :=
  match ts with
  | [.id n] => match vector n with
    | some (w, x) => .vec w x
    | none => match gpr n gprs with
      | some (8, r) => .r64 r
      | some (_, r) => .r32 r
      | none => match symbol n syms with
        | some (.abs v) => .imm v
        | some _ => .bad
        | none => .name n
  | .sym 91 :: us => match bracket us with
    | none => .bad
    | some (vs, r) => match vs with
      | .id n :: ws => bif Nat.beq n (name% "rel") then address regions true (evaluate syms ws) else address regions r (evaluate syms vs)
      | _ => address regions r (evaluate syms vs)
  | _ => match evaluateNat syms ts with
    | some n => .imm n
    | none => .bad

/-- The vector operations on three operands (ssz/sha256_avx.asm:213-240). -/
def vopOf (n : Nat) : Option X86.VOp :=
  bif Nat.beq n (name% "vpaddd") then some .paddd
  else bif Nat.beq n (name% "vpxor") then some .pxor
  else bif Nat.beq n (name% "vpor") then some .por
  else bif Nat.beq n (name% "vpand") then some .pand
  else none

/-- The vector shifts (ssz/sha256_avx.asm:180-181, ssz/sha256_avx_one_block.asm:288). -/
def vshOf (n : Nat) : Option X86.VSh :=
  bif Nat.beq n (name% "vpslld") then some .pslld
  else bif Nat.beq n (name% "vpsrld") then some .psrld
  else bif Nat.beq n (name% "vpsrlq") then some .psrlq
  else none

/-- The vector moves with a VEX prefix (ssz/sha256_avx.asm:218,490,575). -/
def vmovOf (n : Nat) : Option X86.Mov :=
  bif Nat.beq n (name% "vmovdqa") then some .dqa
  else bif Nat.beq n (name% "vmovdqu") then some .dqu
  else bif Nat.beq n (name% "vmovups") then some .ups
  else none

/-- The vector moves without (ssz/sha256_shani.asm:131,633). -/
def movOf (n : Nat) : Option X86.Mov :=
  bif Nat.beq n (name% "movdqa") then some .dqa
  else bif Nat.beq n (name% "movdqu") then some .dqu
  else none

/-- The instruction with a name and operands; `vpshufb` with two operands takes the destination as the first source
(ssz/sha256_avx.asm:458-609, ssz/sha256_avx2.asm:616-793, ssz/sha256_avx_one_block.asm:426-642, ssz/sha256_shani.asm:112-971). -/
def instruction (n : Nat) : List Op → Option X86.Instr
  | [.vec w d, .vec w' s, .vec w'' t] =>
    if w' = w ∧ w'' = w then match vopOf n with
      | some o => some (.vop o w d s t)
      | none => bif Nat.beq n (name% "vpshufb") then some (.vpshufb w d s t) else none
    else none
  | [.vec w d, .vec w' s, .imm k] =>
    if w' = w then match vshOf n with
      | some o => some (.vshift o w d s k)
      | none =>
        bif Nat.beq n (name% "vpshufd") then some (.vpshufd w d s k)
        else if w = .xmm then
          bif Nat.beq n (name% "pshufd") then some (.pshufd d s k)
          else bif Nat.beq n (name% "palignr") then some (.palignr d s k)
          else bif Nat.beq n (name% "pblendw") then some (.pblendw d s k)
          else none
        else none
    else none
  | [.vec w d, .vec w' s, .mem a] =>
    if w' = w then match vopOf n with
      | some o => some (.vopLoad o w d s a)
      | none => none
    else none
  | [.vec w d, .vec w' s, .vec w'' t, .imm k] =>
    if w' = w ∧ w'' = w then
      bif Nat.beq n (name% "vshufps") then some (.vshufps w d s t k)
      else bif Nat.beq n (name% "vpalignr") then some (.vpalignr w d s t k)
      else bif Nat.beq n (name% "vperm2f128") then if w = .ymm then some (.vperm2f128 d s t k) else none
      else none
    else none
  | [.vec .ymm d, .vec .ymm s, .mem a, .imm k] => bif Nat.beq n (name% "vinserti128") then some (.vinserti128 d s a k) else none
  | [.vec w d, .vec w' s] =>
    if w' = w then
      bif Nat.beq n (name% "vmovdqa") then some (.vmov w d s)
      else bif Nat.beq n (name% "vpshufb") then some (.vpshufb w d d s)
      else if w = .xmm then
        bif Nat.beq n (name% "movdqa") then some (.movdqa d s)
        else bif Nat.beq n (name% "paddd") then some (.paddd d s)
        else bif Nat.beq n (name% "pshufb") then some (.pshufb d s)
        else bif Nat.beq n (name% "sha256rnds2") then some (.sha256rnds2 d s)
        else bif Nat.beq n (name% "sha256msg1") then some (.sha256msg1 d s)
        else bif Nat.beq n (name% "sha256msg2") then some (.sha256msg2 d s)
        else none
      else none
    else none
  | [.vec w d, .mem a] => match vmovOf n with
    | some m => some (.vload m w d a)
    | none =>
      if w = .xmm then match movOf n with
        | some m => some (.movLoadX m d a)
        | none => bif Nat.beq n (name% "paddd") then some (.padddLoad d a) else none
      else none
  | [.mem a, .vec w s] => match vmovOf n with
    | some m => some (.vstore m w a s)
    | none =>
      if w = .xmm then match movOf n with
        | some m => some (.movStoreX m a s)
        | none => none
      else none
  | [.r32 d, .r32 s] =>
    bif Nat.beq n (name% "mov") then some (.mov32 d s)
    else bif Nat.beq n (name% "add") then some (.add32 d s)
    else bif Nat.beq n (name% "xor") then some (.xor32 d s)
    else bif Nat.beq n (name% "and") then some (.and32 d s)
    else bif Nat.beq n (name% "or") then some (.or32 d s)
    else none
  | [.r32 d, .mem a] =>
    bif Nat.beq n (name% "mov") then some (.load32 d a) else bif Nat.beq n (name% "add") then some (.addLoad32 d a) else none
  | [.mem a, .r32 s] => bif Nat.beq n (name% "mov") then some (.store32 a s) else none
  | [.r32 d, .r32 s, .imm k] => bif Nat.beq n (name% "shld") then some (.shld32 d s k) else none
  | [.r32 d] => bif Nat.beq n (name% "bswap") then some (.bswap32 d) else none
  | [.r64 d, .r64 s] =>
    bif Nat.beq n (name% "mov") then some (.mov d s)
    else bif Nat.beq n (name% "xor") then some (.xor d s)
    else bif Nat.beq n (name% "test") then some (.test d s)
    else none
  | [.r64 d, .mem a] =>
    bif Nat.beq n (name% "mov") then some (.movLoad d a)
    else bif Nat.beq n (name% "and") then some (.andLoad d a)
    else bif Nat.beq n (name% "lea") then some (.lea d a)
    else none
  | [.mem a, .r64 s] => bif Nat.beq n (name% "mov") then some (.movStore a s) else none
  | [.r64 d, .imm k] =>
    bif Nat.beq n (name% "add") then some (.addImm d k)
    else bif Nat.beq n (name% "sub") then some (.subImm d k)
    else bif Nat.beq n (name% "cmp") then some (.cmpImm d k)
    else none
  | [.r64 d] =>
    bif Nat.beq n (name% "push") then some (.push d)
    else bif Nat.beq n (name% "pop") then some (.pop d)
    else bif Nat.beq n (name% "dec") then some (.dec d)
    else none
  | [] => bif Nat.beq n (name% "endbranch64") then some .endbranch64 else none
  | _ => none

/-- The code of a file: labels, instructions, jumps, calls and returns (ssz/sha256_avx.asm:458-609). -/
inductive Item
  | label (n : Nat)
  | instr (i : X86.Instr)
  | jmp (n : Nat)
  | jl (n : Nat)
  | jb (n : Nat)
  | jz (n : Nat)
  | call (n : Nat)
  | ret
  | bad
  deriving DecidableEq

/-- A statement with an instruction (ssz/sha256_avx.asm:458-609). -/
def itemOf (n : Nat) (ops : List Op) : Item :=
  match instruction n ops with
  | some i => .instr i
  | none => match ops with
    | [.name l] =>
      bif Nat.beq n (name% "jmp") then .jmp l
      else bif Nat.beq n (name% "jl") then .jl l
      else bif Nat.beq n (name% "jb") then .jb l
      else bif Nat.beq n (name% "jz") then .jz l
      else bif Nat.beq n (name% "call") then .call l
      else .bad
    | [] => bif Nat.beq n (name% "ret") then .ret else .bad
    | _ => .bad

/-- The code of a file (ssz/sha256_avx.asm:458-609). -/
def items (regions : Nat → Option X86.Region) (syms : List (Nat × Value)) : List Stmt → List Item
  | [] => []
  | .label n :: l => .label n :: items regions syms l
  | .instr n ops :: l => itemOf n (ops.map (operand regions syms)) :: items regions syms l
  | .bad :: l => .bad :: items regions syms l
  | _ :: l => items regions syms l

/-- The code cut into pieces at the labels that `names` knows, at jumps, calls and returns. The places after conditional jumps and calls have no
names in the sources; they are called as `anon` says, in order. `cur` is the piece being read with its instructions in reverse order, `none` after
an unconditional jump or a return, where a label must follow. A jump to a name not known is an error (ssz/sha256_avx.asm:458-609). -/
def pieces (names : Nat → Option X86.Label) : (cur : Option (X86.Label × List X86.Instr)) → (anon : List X86.Label) → List Item →
    Option (List (X86.Label × X86.Block))
  | none, _, [] => some []
  | some _, _, [] => none
  | none, anon, .label n :: is => match names n with
    | some l => pieces names (some (l, [])) anon is
    | none => none
  | none, _, _ :: _ => none
  | some (l, b), anon, i :: is =>
    match i with
    | .label n => match names n with
      | some l' => (pieces names (some (l', [])) anon is).map ((l, ⟨b.reverse, .goto l'⟩) :: ·)
      | none => pieces names (some (l, b)) anon is
    | .instr j => pieces names (some (l, j :: b)) anon is
    | .jmp n => match names n with
      | some l' => (pieces names none anon is).map ((l, ⟨b.reverse, .goto l'⟩) :: ·)
      | none => none
    | .jl n => match names n, anon with
      | some l', a :: as => (pieces names (some (a, [])) as is).map ((l, ⟨b.reverse, .jl l' a⟩) :: ·)
      | _, _ => none
    | .jb n => match names n, anon with
      | some l', a :: as => (pieces names (some (a, [])) as is).map ((l, ⟨b.reverse, .jb l' a⟩) :: ·)
      | _, _ => none
    | .jz n => match names n, anon with
      | some l', a :: as => (pieces names (some (a, [])) as is).map ((l, ⟨b.reverse, .jz l' a⟩) :: ·)
      | _, _ => none
    | .call n => match names n, anon with
      | some l', a :: as => (pieces names (some (a, [])) as is).map ((l, ⟨b.reverse, .call l' a⟩) :: ·)
      | _, _ => none
    | .ret => (pieces names none anon is).map ((l, ⟨b.reverse, .ret⟩) :: ·)
    | .bad => none

/-- Steps that are enough to preprocess a file (ssz/sha256_avx.asm:1-612). -/
def fileFuel : Nat := 20000

/-- The statements of a file, with the given names defined in the beginning (ssz/sha256_avx.asm:1-612). -/
def assemble (files : List (Nat × List (List Tok))) (defined : List Nat) (file : Nat) : List Stmt :=
  match lookupFile file files with
  | none => [.bad]
  | some f =>
    statements ⟨name% ".text", [], none⟩
      (preprocess files fileFuel (defined.foldl (fun s n => s.define n ⟨none, []⟩) ⟨Oct.all (Oct.all []), [], [], 0⟩) (f.map .text))

/-- The character codes of the lines of a text (ssz/sha256_avx.asm:1-612). -/
def codes (l : List String) : List (List Nat) := l.map fun s => s.toList.map Char.toNat

/-- The six files by the names under which they are included or given to the assembler (ssz/sha256_avx2.asm:66, ssz/transpose_avx2.asm:31,
CMakeLists.txt:71-74). -/
def sources : List (Nat × List (List Tok)) :=
  [(name% "ssz/reg_sizes.asm", readLines (codes Text.regSizes)), (name% "ssz/transpose_avx2.asm", readLines (codes Text.transpose)),
   (name% "ssz/sha256_avx_one_block.asm", readLines (codes Text.oneBlock)), (name% "ssz/sha256_avx.asm", readLines (codes Text.avx)),
   (name% "ssz/sha256_avx2.asm", readLines (codes Text.avx2)), (name% "ssz/sha256_shani.asm", readLines (codes Text.shani))]

/-- What the model calls things in a file: the file, its data sections, its labels, the places after conditional jumps and calls in order
(ssz/sha256_avx.asm:309,458-609). -/
structure Names where
  file : Nat
  region : Nat → Option X86.Region
  label : Nat → Option X86.Label
  anon : List X86.Label

/-- The code of a file. No name is defined in the beginning: the assembler is called without options that define names (CMakeLists.txt:13-20). -/
def program (f : Names) : Option (List (X86.Label × X86.Block)) :=
  pieces f.label none f.anon (items f.region (symbols (assemble sources [] f.file)) (assemble sources [] f.file))

/-- The contents of a section of a file (ssz/sha256_avx.asm:309-456). -/
def contents (f : Names) (sec : Nat) : List (BitVec 32) := words sec (assemble sources [] f.file)

/-- The value in a table (ssz/sha256_avx.asm:309,458-609). -/
def table {α : Type} : List (Nat × α) → Nat → Option α
  | [], _ => none
  | (k, v) :: l, n => bif Nat.beq k n then some v else table l n

/-- Names in ssz/sha256_avx_one_block.asm:30,427. -/
def one : Names where
  file := name% "ssz/sha256_avx_one_block.asm"
  region := table [(name% ".data", .one)]
  label := table [(name% "sha256_1_avx", .one)]
  anon := []

/-- Names in ssz/sha256_avx.asm:309,461-607. -/
def four : Names where
  file := name% "ssz/sha256_avx.asm"
  region := table [(name% ".data", .four)]
  label := table [(name% "sha256_4_avx", .four), (name% "sha256_1_avx", .one), (name% ".hash_4_blocks", .fourLoop), (name% ".Lrounds_16_xx", .fourXX),
    (name% ".Lrounds_padding", .fourPad), (name% ".hash_1_block", .fourTail), (name% ".done_hash", .fourDone)]
  anon := [.fourBlocks, .fourMid, .fourCall, .fourBack]

/-- Names in ssz/sha256_avx2.asm:70,617-785. -/
def eight : Names where
  file := name% "ssz/sha256_avx2.asm"
  region := table [(name% ".data", .eight)]
  label := table [(name% "sha256_8_avx2", .eight), (name% "sha256_4_avx", .four), (name% ".hash_8_blocks", .eightLoop),
    (name% ".Lrounds_16_xx", .eightXX), (name% ".Lrounds_padding", .eightPad), (name% ".hash_4_blocks", .eightTail)]
  anon := [.eightBlocks, .eightMid, .eightBack]

/-- Names in ssz/sha256_shani.asm:112-1019. -/
def shani : Names where
  file := name% "ssz/sha256_shani.asm"
  region := table [(name% ".data", .shaniRw), (name% ".rodata", .shaniRo)]
  label := table [(name% "sha256_shani", .shani), (name% ".hash_2_blocks", .shaniLoop), (name% ".hash_1_block", .shaniTail),
    (name% ".done_hash", .shaniDone)]
  anon := [.shaniTwo, .shaniOne]

end Mammon.Nasm
