import Verif.Model.CppIterators
/-!
# `Hasher::hash_64b_blocks` in the text
-/

namespace Mammon.Cpp
open Nasm

/-- What `_hash_64b_blocks` points to, as a routine that notes its arguments (ssz/hasher.hpp:57-59,67): `output`, `input` and the number of blocks, of the types of
`SHA256_hasher` (ssz/hasher.hpp:66), which here are the ones of the values. -/
def noting : Func :=
  ⟨0, name% "_hash_64b_blocks", .var (name% "void"), [⟨.var (name% "auto"), false, name% "x"⟩, ⟨.var (name% "auto"), false, name% "y"⟩, ⟨.var (name% "auto"), false, name% "z"⟩],
    .cons (.expr (.assign (.var (name% "first")) (.var (name% "x")))) (.cons (.expr (.assign (.var (name% "second")) (.var (name% "y"))))
      (.cons (.expr (.assign (.var (name% "third")) (.var (name% "z")))) (.cons (.expr (.inc false (.var (name% "calls")))) .nil)))⟩

/-- The notes: the arguments of the last call and the number of calls (ssz/hasher.hpp:58). -/
def notes (a b c : Val) (n : Int) : Frame := [(name% "first", a), (name% "second", b), (name% "third", c), (name% "calls", .int .u64 n)]

/-- Run `hash_64b_blocks` of `Hasher` with a routine that notes its arguments (ssz/hasher.hpp:57-59): the notes afterwards. -/
def forwarded (E : Env) (l : List Top) (a b c : Val) : Res Frame :=
  (orStuck (memberFunction l (name% "Hasher") (name% "hash_64b_blocks"))).bind fun f =>
    (run [noting] none none E 0 1 f [a, b, c] (notes .void .void .void 0) []).bind fun r => .ok r.2.1

end Mammon.Cpp
