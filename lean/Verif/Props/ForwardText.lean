import Verif.Model.CppForward
import Verif.Props.IteratorText
/-!
# C92: the text of `Hasher::hash_64b_blocks`
-/

namespace Mammon.Cpp
open Nasm

/-- **C92** `hash_64b_blocks` in the text calls the routine of the object exactly once, with its own arguments in their order. -/
theorem C92_forwards (E : Env) (p q : Place) (i j : Int) (k : BitVec 64) : ∃ l, read (codes Text.hasherHpp) = some l ∧
    forwarded E l (.iter p i) (.iter q j) (.int .u64 k.toNat) = .ok (notes (.iter p i) (.iter q j) (.int .u64 k.toNat) 1) := by
  have h : (fun E p i q j (k : BitVec 64) => forwarded E hasherHppD (.iter p i) (.iter q j) (.int .u64 k.toNat)) =
      fun _ p i q j k => .ok (notes (.iter p i) (.iter q j) (.int .u64 ((k.toNat : Int) % 18446744073709551616)) 1) := by kernel_refl
  refine ⟨_, hasherHpp_read, ?_⟩
  have e := congrFun (congrFun (congrFun (congrFun (congrFun (congrFun h E) p) i) q) j) k
  beta_reduce at e
  have hk := k.isLt
  have : ((k.toNat : Int) % 18446744073709551616) = k.toNat := by omega
  rw [e, this]

/-- Output and input exchanged is seen. -/
example : (fun E => forwarded E ((read (codes ["class Hasher {",
    "    void hash_64b_blocks(unsigned char* output, const unsigned char* input, std::size_t blocks) const { _hash_64b_blocks(input, output, blocks); }", "};"])).getD [])
    (.iter (.part 0) 3) (.iter (.part 1) 4) (.int .u64 5)) = fun _ => .ok (notes (.iter (.part 1) 4) (.iter (.part 0) 3) (.int .u64 5) 1) := by kernel_refl

end Mammon.Cpp
