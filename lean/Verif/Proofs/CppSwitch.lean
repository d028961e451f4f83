import Verif.Proofs.CppPredicates
/-!
# The constructor of `Hasher` that takes an implementation

What the text of ssz/hasher.cpp:65-82 does.
-/

namespace Mammon.Cpp
open Nasm

variable (fs : List Func) (int : Option IT) (E : Env) (fuel d : Nat)

/-- The function that is asked for by a value of `IMPL`. -/
def requestedOf (k : Int) : Option HashFn := if k = 8 then some .shani else if k = 4 then some .avx2 else if k = 2 then some .avx else if k = 1 then some .sse else none

theorem hasher_run (cpu : Cpu) (m : HashFn) (k : Int) (hk : IT.i32.conv k = k) (hf : find (name% "implemented") fs = some implementedF)
    (hb : find (name% "best_sha256_implementation") fs = some bestF) :
    run fs int none E fuel (d + 2) hasherF [.int .i32 k] (hasherGlobals cpu (.routine m)) [] =
      (match requestedOf k with
        | some f => Res.ok f
        | none => Res.of (bestImplementation cpu)).bind fun f => .ok (.void, hasherGlobals cpu (.routine f), []) := by
  have hl : ∀ (C : Ctx) t as s, C.library (name% "best_sha256_implementation") t as s = none := fun _ _ _ _ => rfl
  have hc : ∀ c b h, (ctx fs int none E fuel (d + 2)).call (name% "best_sha256_implementation") [] [] ⟨c, b, hasherGlobals cpu (.routine m), h⟩ =
      (Res.of (bestImplementation cpu)).bind fun f => .ok (.routine f, ⟨c, b, hasherGlobals cpu (.routine m), h⟩) := by
    intro c b h
    rw [ctx_call, hb]
    exact best_enter _ _ _ _ _ _ _ hf _ _ _
  generalize d + 2 = n at hc ⊢
  rw [requestedOf]
  cpp_pred [hasherF, hl, hc, hk]
  cpp_pred [hasherGlobals]
  by_cases h8 : k = 8
  · simp only [h8, decide_true, cond_true, if_true]
    rfl
  by_cases h4 : k = 4
  · simp only [h8, h4, decide_true, decide_false, cond_true, cond_false, if_true, if_false]
    rfl
  by_cases h2 : k = 2
  · simp only [h8, h4, h2, decide_true, decide_false, cond_true, cond_false, if_true, if_false]
    rfl
  by_cases h1 : k = 1
  · simp only [h8, h4, h2, h1, decide_true, decide_false, cond_true, cond_false, if_true, if_false]
    rfl
  simp only [h8, h4, h2, h1, decide_false, cond_false, if_false]
  cases bestImplementation cpu <;> rfl

theorem hasher_default_run (cpu : Cpu) (m : HashFn) (hf : find (name% "implemented") fs = some implementedF)
    (hb : find (name% "best_sha256_implementation") fs = some bestF) :
    run fs int none E fuel (d + 2) hasherDefaultF [] (hasherGlobals cpu (.routine m)) [] =
      (Res.of (bestImplementation cpu)).bind fun f => .ok (.void, hasherGlobals cpu (.routine f), []) := by
  have hl : ∀ (C : Ctx) t as s, C.library (name% "best_sha256_implementation") t as s = none := fun _ _ _ _ => rfl
  have hc : ∀ c b h, (ctx fs int none E fuel (d + 2)).call (name% "best_sha256_implementation") [] [] ⟨c, b, hasherGlobals cpu (.routine m), h⟩ =
      (Res.of (bestImplementation cpu)).bind fun f => .ok (.routine f, ⟨c, b, hasherGlobals cpu (.routine m), h⟩) := by
    intro c b h
    rw [ctx_call, hb]
    exact best_enter _ _ _ _ _ _ _ hf _ _ _
  generalize d + 2 = n at hc ⊢
  cpp_pred [hasherDefaultF, hl, hc]
  cases bestImplementation cpu <;> rfl

theorem conv_toInt (x : BitVec 32) : IT.i32.conv x.toInt = x.toInt := by
  have h1 := BitVec.le_toInt x
  have h2 := BitVec.toInt_lt (x := x)
  show (x.toInt + 2 ^ 31) % 2 ^ 32 - 2 ^ 31 = x.toInt
  omega

theorem bitwise_or (x y : BitVec 32) : bitwise .bor .i32 x.toInt y.toInt = (x ||| y).toInt := by
  show (BitVec.ofInt 32 x.toInt ||| BitVec.ofInt 32 y.toInt).toInt = _
  rw [BitVec.ofInt_toInt, BitVec.ofInt_toInt]

theorem bitwise_and (x y : BitVec 32) : bitwise .band .i32 x.toInt y.toInt = (x &&& y).toInt := by
  show (BitVec.ofInt 32 x.toInt &&& BitVec.ofInt 32 y.toInt).toInt = _
  rw [BitVec.ofInt_toInt, BitVec.ofInt_toInt]

theorem impl_or_run (elem : Option Ty) (x y : BitVec 32) (g : Frame) : run fs int elem E fuel d implOrF [.int .i32 x.toInt, .int .i32 y.toInt] g [] =
    .ok (.int .i32 (x ||| y).toInt, g, []) := by
  cpp_pred [implOrF, conv_toInt, bitwise_or]

theorem impl_and_run (elem : Option Ty) (x y : BitVec 32) (g : Frame) : run fs int elem E fuel d implAndF [.int .i32 x.toInt, .int .i32 y.toInt] g [] =
    .ok (.int .i32 (x &&& y).toInt, g, []) := by
  cpp_pred [implAndF, conv_toInt, bitwise_and]

theorem impl_not_run (elem : Option Ty) (x : BitVec 32) (g : Frame) : run fs int elem E fuel d implNotF [.int .i32 x.toInt] g [] =
    .ok (.bool (decide (x = 0)), g, []) := by
  cpp_pred [implNotF, conv_toInt]
  have h : x.toInt = 0 ↔ x = 0 := ⟨fun h => BitVec.eq_of_toInt_eq h, fun h => by rw [h]; rfl⟩
  have e : decide (x.toInt = 0) = decide (x = 0) := decide_eq_decide.mpr h
  rw [e]

end Mammon.Cpp
