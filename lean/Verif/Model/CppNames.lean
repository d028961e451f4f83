import Verif.Model.CppObject
/-!
# The declarations of the constants

The interpreter is given the values of constants, of template parameters and of other names (`consts`, `treeGlobals`, `zeroGlobals`, `hasherGlobals`,
`fields`). Here the declarations of these names are read from the texts and run, so that the values can be compared.
-/

namespace Mammon.Cpp
open Nasm

/-- The name before the first `=` or `{` (ssz/ssz.hpp:27, ssz/hashtree.cpp:42-43): 0 if there is none. -/
def declaredName : Nat → List Tok → Nat
  | _, [] => 0
  | last, t :: ts => match t with
    | .id n => declaredName n ts
    | .sym c => bif among c [name% "=", name% "{"] then last else declaredName 0 ts
    | _ => declaredName 0 ts

/-- The declarations of the given variable among declarations that do not end with a block (ssz/hashtree.cpp:42-43,55,109). -/
def variables (n : Nat) : List Decl → List (List Tok)
  | [] => []
  | ⟨head, body⟩ :: l => match body with
    | some _ => variables n l
    | none => bif Nat.beq (declaredName 0 (withoutLabels head)) n then withoutLabels head :: variables n l else variables n l

/-- The declarations in the body of a class (ssz/hasher.hpp:34-74). -/
def declarationsIn : Nat → List Tok → List Decl
  | 0, _ => []
  | _ + 1, [] => []
  | fuel + 1, t :: ts =>
    bif t.isSym (name% ";") then declarationsIn fuel ts
    else match declaration fuel 0 [] (t :: ts) with
      | none => []
      | some (d, rest) => d :: declarationsIn fuel rest

/-- The only declaration of a variable outside classes (ssz/ssz.hpp:27-29, ssz/hasher.cpp:30). -/
def variableIn (l : List Top) (n : Nat) : Option (List Tok) :=
  match variables n (l.map Top.decl) with
  | [h] => some h
  | _ => none

/-- The only declaration of a variable in the given class (ssz/hasher.hpp:70-72). -/
def staticIn (l : List Top) (cls n : Nat) : Option (List Tok) :=
  match classTokens cls l with
  | none => none
  | some b => match variables n (declarationsIn 10000 b) with
    | [h] => some h
    | _ => none

/-- The type that a `using` declaration gives a name to (ssz/ssz.hpp:33). -/
def aliasIn (l : List Top) (n : Nat) : Option (List Tok) :=
  match variableIn l n with
  | some (.id u :: .id _ :: .sym _ :: ts) => bif Nat.beq u (name% "using") then some ts else none
  | _ => none

/-- The tokens with a name replaced by the type it stands for (ssz/ssz.hpp:33, ssz/hashtree.cpp:43). -/
def unalias (n : Nat) (by_ : List Tok) : List Tok → List Tok
  | [] => []
  | t :: ts => match t with
    | .id m => bif Nat.beq m n then by_ ++ unalias n by_ ts else .id m :: unalias n by_ ts
    | t => t :: unalias n by_ ts

/-- The tokens without a class before the name that is declared (ssz/hashtree.cpp:109). -/
def unqualified (cls : Nat) : List Tok → List Tok
  | .id m :: .sym c :: ts => bif Nat.beq m cls && Nat.beq c (name% "::") then ts else .id m :: unqualified cls (.sym c :: ts)
  | t :: ts => t :: unqualified cls ts
  | [] => []

/-- `auto x = T{…}` as `T x{…}`, which means the same (C++ [dcl.init]: the temporary object is the variable; ssz/hashtree.cpp:109). -/
def elided : List Tok → List Tok
  | .id a :: .id x :: .sym e :: .id t :: .sym b :: ts =>
    bif Nat.beq a (name% "auto") && Nat.beq e (name% "=") && Nat.beq b (name% "{") then .id t :: .id x :: .sym b :: ts
    else .id a :: elided (.id x :: .sym e :: .id t :: .sym b :: ts)
  | t :: ts => t :: elided ts
  | [] => []

/-- Run the declaration of a variable when the names in it have the given values: the value that it gets (C++ [dcl.init]; ssz/ssz.hpp:27-29,
ssz/hashtree.cpp:42-43). -/
def initialised (E : Env) (elem : Option Ty) (g : Frame) (n : Nat) (d : Option (List Tok)) : Res Val :=
  match d with
  | none => .stuck
  | some ts => match simple 100 (ts ++ [.sym (name% ";")]) with
    | some (st, []) => ((ctx [] none elem E 0 0).exec st ⟨[], [], g, []⟩).bind fun r => orStuck ((slotOf n r.2.cur).bind fun k => getSlot k r.2.cur)
    | _ => .stuck

/-- The value that a name has among the given ones (ssz/hashtree.cpp:42). -/
def valueOf (n : Nat) (g : Frame) : Option Val := (slotOf n g).bind fun k => getSlot k g

/-- The initialiser `f<k>()` of a variable: `f` and `k` (ssz/hashtree.cpp:55). -/
def templateCall (d : Option (List Tok)) : Option (Nat × Nat) :=
  match d with
  | none => none
  | some ts => match upto (name% "=") [] ts with
    | some (_, [.id f, .sym a, .id k, .sym b, .sym c, .sym d]) =>
      bif Nat.beq a (name% "<") && Nat.beq b (name% ">") && Nat.beq c (name% "(") && Nat.beq d (name% ")") then some (f, k) else none
    | _ => none

/-- The type of the last template parameter, which must have the given name (C++ [temp.param]; ssz/hashtree.cpp:45, common/bytes.hpp:39,
common/bitvector.hpp:35, common/containers.hpp:40). -/
def lastParameter (n : Nat) (head : List Tok) : Option Ex :=
  match upto (name% ">") [] head with
  | none => none
  | some (ts, _) => match ts.reverse with
    | .id m :: _ => bif Nat.beq m n then
        match upto (name% "<") [] ts with
        | none => none
        | some (_, ps) => match upto (name% ",") [] ps with
          | none => (typeName 20 ps).map (·.1)
          | some (_, ps) => (typeName 20 ps).map (·.1)
      else none
    | _ => none

/-- The head of the class with the given name (common/bytes.hpp:39-40, common/bitvector.hpp:35-36). -/
def classHead (c : Nat) : List Top → Option (List Tok)
  | [] => none
  | ⟨_, ⟨head, body⟩⟩ :: l =>
    match body, untemplate head with
    | some _, some (.id k :: .id n :: _) => bif among k [name% "class", name% "struct"] && Nat.beq n c then some head else classHead c l
    | _, _ => classHead c l

/-- The head of the template of a function outside classes (ssz/hashtree.cpp:45-46). -/
def functionHead (n : Nat) : List Top → Option (List Tok)
  | [] => none
  | ⟨_, ⟨head, body⟩⟩ :: l =>
    match body, upto (name% "(") [] ((untemplate head).getD []) with
    | some _, some (h, _) => match h.reverse with
      | .id m :: _ => bif Nat.beq m n then some head else functionHead n l
      | _ => functionHead n l
    | _, _ => functionHead n l

/-- The integer type of a template parameter; `unsigned` is `unsigned int` (common/bitvector.hpp:35, common/bytes.hpp:39). -/
def parameterType (t : Option Ex) : Option IT :=
  match t with
  | some (.var n) => bif Nat.beq n (name% "unsigned") then some .u32 else (ctx [] none none ⟨0, fun a _ => a, fun _ => 0#8⟩ 0 0).itype (.var n)
  | _ => none

/-- Where the text of the constants of `ssz/ssz.hpp` is (ssz/ssz.hpp:27-29). -/
def sszVariable (n : Nat) : Option (List Tok) := (read (codes Text.ssz)).bind fun l => variableIn l n

/-- What `Chunk` stands for (ssz/ssz.hpp:33). -/
def chunkAlias : Option (List Tok) := (read (codes Text.ssz)).bind fun l => aliasIn l (name% "Chunk")

/-- Where the text of the variables of `ssz/hashtree.cpp` is (ssz/hashtree.cpp:42-43,55,109). -/
def treeVariable (n : Nat) : Option (List Tok) := (read (codes Text.hashtreeCpp)).bind fun l => variableIn l n

/-- Where the text of the constant of `ssz/hasher.cpp` is (ssz/hasher.cpp:30). -/
def hasherVariable (n : Nat) : Option (List Tok) := (read (codes Text.hasherCpp)).bind fun l => variableIn l n

/-- Where the text of the static members of `Hasher` is (ssz/hasher.hpp:70-72). -/
def hasherStatic (n : Nat) : Option (List Tok) := (read (codes Text.hasherHpp)).bind fun l => staticIn l (name% "Hasher") n

/-- The functions that are written in assembly, which ssz/hasher.hpp:27-29 declares (ssz/sha256_avx.asm, ssz/sha256_avx2.asm, ssz/sha256_shani.asm). -/
def externs : Frame := [(name% "sha256_4_avx", .routine .avx), (name% "sha256_8_avx2", .routine .avx2), (name% "sha256_shani", .routine .shani)]

/-- The type of the template parameter of a class (common/bytes.hpp:39, common/bitvector.hpp:35, common/containers.hpp:40). -/
def parameterOf (file : List String) (cls : Nat) : Option IT :=
  parameterType ((read (codes file)).bind fun l => (classHead cls l).bind fun h => lastParameter (name% "N") h)

/-- The type of the template parameter of a function of `ssz/hashtree.cpp` (ssz/hashtree.cpp:45). -/
def treeParameter (f : Nat) : Option IT :=
  parameterType ((read (codes Text.hashtreeCpp)).bind fun l => (functionHead f l).bind fun h => lastParameter (name% "N") h)

/-- What `get_ssz_size` of a class returns, with `ssz_size` from its declaration in the class (common/bitvector.hpp:41-42, common/boolean.hpp:52-53,
common/bytes.hpp:140-142, common/containers.hpp:62-63, common/slot.hpp:63-64). -/
def sizeIn (E : Env) (elem : Option Ty) (g : Frame) (cls : Nat) (l : List Top) : Res Val :=
  (initialised E elem g (name% "ssz_size") (staticIn l cls (name% "ssz_size"))).bind fun v =>
    (orStuck (memberFunction l cls (name% "get_ssz_size"))).bind fun f =>
      (run [] none elem E 0 0 f [] ((name% "ssz_size", v) :: g) []).bind fun r => .ok r.1

/-- What `get_ssz_size` of a class in a file returns, given its template arguments (common/bitvector.hpp:41-42, common/boolean.hpp:52-53,
common/bytes.hpp:140-142, common/containers.hpp:62-63, common/slot.hpp:63-64). -/
def sizeFrom (E : Env) (elem : Option Ty) (g : Frame) (cls : Nat) (file : List String) : Res Val := (orStuck (read (codes file))).bind (sizeIn E elem g cls)

/-- The names that `ssz/ssz.hpp` declares, with the values from its text (ssz/ssz.hpp:27-29). -/
def sszNames : List Nat := [name% "BYTES_PER_LENGTH_OFFSET", name% "BYTES_PER_CHUNK", name% "BITS_PER_BYTE"]

end Mammon.Cpp
