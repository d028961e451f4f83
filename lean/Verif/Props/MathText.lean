import Verif.Proofs.CppMath
import Verif.Proofs.CppMath32
import Verif.Props.Helpers
/-!
# C76: the text of the integer functions, run as C++, computes square roots and logarithms
-/

namespace Mammon.Cpp
open Nasm

/-- The text of one of the functions of helpers/math.hpp. -/
def mathFunction (n : Nat) : Option Func := (read (codes Text.math)).bind fun l => freeFunction l 0 n

/-- The functions that these functions call: `sqrt_helper` and `ct_sqrt` of helpers/math.hpp, from its text. -/
def mathText : List Func := (mathFunction (name% "sqrt_helper")).toList ++ (mathFunction (name% "ct_sqrt")).toList

theorem mathText_eq : mathText = [sqrtHelperF, ctSqrtF] := by
  rw [mathText, mathFunction, mathFunction, sqrtHelperF_read, ctSqrtF_read]
  rfl

theorem helperCalled : find (name% "sqrt_helper") mathText = some sqrtHelperF := by
  rw [mathText_eq]
  kernel_refl

theorem ctCalled : find (name% "ct_sqrt") mathText = some ctSqrtF := by
  rw [mathText_eq]
  kernel_refl

/-- **C76** The text of `integer_squareroot` on `std::uint64_t`: whatever the floating point estimate, it ends and returns the integer square root,
the recursion of `sqrt_helper` being at most 66 calls deep. -/
theorem C76_integer_squareroot (x est : Nat) (hx : x < 2 ^ 64) (he : est < 2 ^ 64) (E : Env) (hE : E.estimate = est) : ∃ f, ∃ r : Nat, mathFunction (name% "integer_squareroot") = some f ∧
    (∀ fuel depth, 2 ^ 64 ≤ fuel → 67 ≤ depth →
      run mathText (some .u64) none E fuel depth f [.int .u64 x] consts [] = .ok (.int .u64 r, consts, [])) ∧
    r * r ≤ x ∧ ∀ s, s * s ≤ x → s ≤ r := by
  obtain ⟨r, h1, h2, h3⟩ := C29_integer_squareroot 64 65 x est (by decide) (by decide) hx
  refine ⟨_, r, integerSquarerootF_read, fun fuel depth hf hd => ?_, h2, h3⟩
  obtain ⟨d, rfl⟩ := Nat.exists_eq_add_of_le' hd
  rw [run_eq, integer_squareroot mathText none fuel E x est r hE hx he hf helperCalled ctCalled 65 (d + 66) (d + 65) (d + 67) (by omega) rfl rfl h1]
  rfl

/-- **C76** The same on `std::uint32_t`. -/
theorem C76_integer_squareroot_32 (x est : Nat) (hx : x < 2 ^ 32) (he : est < 2 ^ 32) (E : Env) (hE : E.estimate = est) : ∃ f, ∃ r : Nat, mathFunction (name% "integer_squareroot") = some f ∧
    (∀ fuel depth, 2 ^ 32 ≤ fuel → 35 ≤ depth →
      run mathText (some .u32) none E fuel depth f [.int .u32 x] consts [] = .ok (.int .u32 r, consts, [])) ∧
    r * r ≤ x ∧ ∀ s, s * s ≤ x → s ≤ r := by
  obtain ⟨r, h1, h2, h3⟩ := C29_integer_squareroot 32 33 x est (by decide) (by decide) hx
  refine ⟨_, r, integerSquarerootF_read, fun fuel depth hf hd => ?_, h2, h3⟩
  obtain ⟨d, rfl⟩ := Nat.exists_eq_add_of_le' hd
  rw [run_eq, integer_squareroot_32 mathText none fuel E x est r hE hx he hf helperCalled ctCalled 33 (d + 34) (d + 33) (d + 35) (by omega) rfl rfl h1]
  rfl

/-- **C76** The text of `ct_sqrt` on `std::uint64_t` returns the integer square root. -/
theorem C76_ct_sqrt (x : Nat) (hx : x < 2 ^ 64) : ∃ f, ∃ r : Nat, mathFunction (name% "ct_sqrt") = some f ∧
    (∀ est fuel depth, 66 ≤ depth → run mathText (some .u64) none est fuel depth f [.int .u64 x] consts [] = .ok (.int .u64 r, consts, [])) ∧
    r * r ≤ x ∧ ∀ s, s * s ≤ x → s ≤ r := by
  obtain ⟨r, h1, h2, h3⟩ := C29_ct_sqrt 64 x (by decide) hx
  refine ⟨_, r, ctSqrtF_read, fun est fuel depth hd => ?_, h2, h3⟩
  obtain ⟨d, rfl⟩ := Nat.exists_eq_add_of_le' hd
  rw [run_eq, (ct_sqrt mathText none est fuel x hx helperCalled 65 (d + 65) (d + 66) r (by omega) rfl h1).2]
  rfl

/-- **C76** The text of `log2ceil` on 64-bit and on 32-bit unsigned types returns the least exponent of a power of two that is not less than the
argument (for the argument 0, it returns 0). -/
theorem C76_log2ceil (n : Nat) : ∃ f, mathFunction (name% "log2ceil") = some f ∧ ∀ int est fuel depth,
    (n < 2 ^ 64 → ∃ k : Nat, run [] int none est fuel depth f [.int .u64 n] consts [] = .ok (.int .i32 k, consts, []) ∧ n ≤ 2 ^ k ∧ ∀ d, n ≤ 2 ^ d → k ≤ d) ∧
    (n < 2 ^ 32 → ∃ k : Nat, run [] int none est fuel depth f [.int .u32 n] consts [] = .ok (.int .i32 k, consts, []) ∧ n ≤ 2 ^ k ∧ ∀ d, n ≤ 2 ^ d → k ≤ d) := by
  refine ⟨_, log2ceilF_read, fun int est fuel d => ⟨fun hn => ⟨_, by rw [run_eq, log2ceil_64 [] none est fuel n hn _ _ consts 2 rfl rfl]; rfl, ?_⟩,
    fun hn => ⟨_, by rw [run_eq, log2ceil_32 [] none est fuel n hn]; rfl, ?_⟩⟩⟩
  · have h := C30_log2ceil 64 (BitVec.ofNat 64 n)
    rw [BitVec.toNat_ofNat, Nat.mod_eq_of_lt hn] at h
    exact ⟨h.1, h.2.1⟩
  · have h := C30_log2ceil 32 (BitVec.ofNat 32 n)
    rw [BitVec.toNat_ofNat, Nat.mod_eq_of_lt hn] at h
    exact ⟨h.1, h.2.1⟩

-- the largest 64-bit number, with the estimate 2 ^ 32, which is one too large: the text returns 2 ^ 32 - 1
example : ∃ f, mathFunction (name% "integer_squareroot") = some f ∧
    run mathText (some .u64) none ⟨2 ^ 32, fun a _ => a, fun _ => 0#8⟩ (2 ^ 64) 67 f [.int .u64 (2 ^ 64 - 1)] consts [] = .ok (.int .u64 (2 ^ 32 - 1), consts, []) := by
  obtain ⟨f, r, h1, h2, h3, h4⟩ := C76_integer_squareroot (2 ^ 64 - 1) (2 ^ 32) (by decide) (by decide) ⟨2 ^ 32, fun a _ => a, fun _ => 0#8⟩ rfl
  have h5 := h4 (2 ^ 32 - 1) (by decide)
  have h6 : r < 2 ^ 32 := by
    by_cases h : r < 2 ^ 32
    · exact h
    · have : 2 ^ 32 * 2 ^ 32 ≤ r * r := Nat.mul_le_mul (by omega) (by omega)
      omega
  obtain rfl : r = 2 ^ 32 - 1 := by omega
  exact ⟨f, h1, h2 _ _ (Nat.le_refl _) (Nat.le_refl _)⟩

-- the text of `log2ceil` on 5 returns 3
example : ∃ f, mathFunction (name% "log2ceil") = some f ∧ run [] none none ⟨0, fun a _ => a, fun _ => 0#8⟩ 0 0 f [.int .u64 5] consts [] = .ok (.int .i32 3, consts, []) := by
  obtain ⟨f, h1, h2⟩ := C76_log2ceil 5
  obtain ⟨k, h3, h4, h5⟩ := (h2 none ⟨0, fun a _ => a, fun _ => 0#8⟩ 0 0).1 (by decide)
  have h6 := h5 3 (by decide)
  obtain rfl : k = 3 := by
    match k, h4, h6 with
    | 0, h, _ => exact absurd h (by decide)
    | 1, h, _ => exact absurd h (by decide)
    | 2, h, _ => exact absurd h (by decide)
    | 3, _, _ => rfl
  exact ⟨f, h1, h3⟩

end Mammon.Cpp
