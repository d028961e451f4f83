import Verif.Model.X86
/-!
# Memory layout assumed by the calls

What the C++ language and the linker guarantee about the pieces of memory a routine works on.
-/

namespace Mammon.X86

/-- Every region fits in the address space, no two regions share an address, and the output and the stack may be written. -/
structure Env.Valid (env : Env) : Prop where
  fits : ∀ r, env.base r + env.size r < 2 ^ 64
  disjoint : ∀ r r' o o', o < env.size r → o' < env.size r' → env.base r + o = env.base r' + o' → r = r'
  output : env.writable .output = true
  stack : env.writable .stack = true

end Mammon.X86
