import Verif.Proofs.CppMath
/-!
# Integer functions on 32-bit types

The functions of helpers/math.hpp with `T` a 32-bit type; the proofs are those of `CppMath` for 64 bits.
-/

namespace Mammon.Cpp
open Nasm

variable (fs : List Func) (elem : Option Ty) (est : Env) (fuel : Nat)

theorem sqrt_helper_32 (x : Nat) (hx : x < 2 ^ 32) (hfind : find (name% "sqrt_helper") fs = some sqrtHelperF) (k : Nat) :
    ∀ d lo hi r, lo < 2 ^ 32 → hi < 2 ^ 32 → k ≤ d + 1 → sqrtHelper 32 x k lo hi = some (.ok r) → r < 2 ^ 32 ∧ ∀ (i : IT) (c : Frame) (b : List Frame) (g : Frame) (h : List Obj),
    (ctx fs (some .u32) elem est fuel d).enter sqrtHelperF [.int .u32 x, .int i lo, .int .u32 hi] ⟨c, b, g, h⟩ = .ok (.int .u32 r, ⟨c, b, g, h⟩) := by
  induction k with
  | zero => intro d lo hi r _ _ _ h; exact absurd h (by simp [sqrtHelper])
  | succ k ih =>
    intro d lo hi r hlo hhi hd h
    rw [sqrtHelper] at h
    by_cases e : lo = hi
    · rw [if_pos e] at h
      obtain rfl : lo = r := by simpa using h
      refine ⟨hlo, fun i c b g hp => ?_⟩
      cpp_run [sqrtHelperF]
      cpp_arith []
    · rw [if_neg e] at h
      by_cases h1 : lo + hi + 1 < 2 ^ 32
      · rw [addW, if_pos (by omega), Out.bind, addW, if_pos h1] at h
        have hm : (lo + hi + 1) / 2 < 2 ^ 32 := by omega
        have hm0 : (lo + hi + 1) / 2 ≠ 0 := by omega
        have hq : x / ((lo + hi + 1) / 2) < 2 ^ 32 := Nat.lt_of_le_of_lt (Nat.div_le_self _ _) hx
        simp only [if_neg hm0] at h
        have hd1 : 1 ≤ d := by
          cases k with
          | zero => split at h <;> simp [sqrtHelper] at h
          | succ k => omega
        obtain ⟨e, he⟩ := Nat.exists_eq_add_of_le' hd1
        by_cases h2 : x / ((lo + hi + 1) / 2) < (lo + hi + 1) / 2
        · rw [if_pos h2] at h
          obtain ⟨hr, ih⟩ := ih e lo ((lo + hi + 1) / 2 - 1) r hlo (by omega) (by omega) h
          rw [show (((lo + hi + 1) / 2 - 1 : Nat) : Int) = (((lo + hi + 1) / 2 : Nat) : Int) - 1 by omega] at ih
          refine ⟨hr, fun i c b g hp => ?_⟩
          cpp_run [sqrtHelperF]
          cpp_arith [half_sum, tdiv_nat]
          generalize x / ((lo + hi + 1) / 2) = q at *
          cpp_arith []
          simp only [library_helper, pick_helper, he, ctx_call, hfind, ih]
          cpp_run []
          cpp_arith []
        · rw [if_neg h2] at h
          obtain ⟨hr, ih⟩ := ih e ((lo + hi + 1) / 2) hi r (by omega) (by omega) (by omega) h
          refine ⟨hr, fun i c b g hp => ?_⟩
          cpp_run [sqrtHelperF]
          cpp_arith [half_sum, tdiv_nat]
          generalize x / ((lo + hi + 1) / 2) = q at *
          simp only [library_helper, pick_helper, he, ctx_call, hfind, ih]
          cpp_run []
          cpp_arith []
      · have : ((addW 32 lo hi).bind fun s => addW 32 s 1) = .ub := by
          rw [addW]
          split
          · exact if_neg h1
          · rfl
        rw [this] at h
        simp at h

theorem ct_sqrt_32 (x : Nat) (hx : x < 2 ^ 32) (hfind : find (name% "sqrt_helper") fs = some sqrtHelperF) (k d D r : Nat) (hd : k ≤ d + 1) (hD : D = d + 1)
    (h : ctSqrt 32 k x = some (.ok r)) : r < 2 ^ 32 ∧ ∀ (c : Frame) (b : List Frame) (g : Frame) (h : List Obj),
    (ctx fs (some .u32) elem est fuel D).enter ctSqrtF [.int .u32 x] ⟨c, b, g, h⟩ = .ok (.int .u32 r, ⟨c, b, g, h⟩) := by
  rw [ctSqrt, addW] at h
  rw [if_pos (by omega)] at h
  obtain ⟨hr, ih⟩ := sqrt_helper_32 fs elem est fuel x hx hfind k d 0 (x / 2 + 1) r (by omega) (by omega) hd h
  refine ⟨hr, fun c b g hp => ?_⟩
  rw [show ((x / 2 + 1 : Nat) : Int) = ((x / 2 : Nat) : Int) + 1 by omega, Int.natCast_zero] at ih
  cpp_run [ctSqrtF]
  cpp_arith [tdiv_two]
  simp only [library_helper, pick_helper, hD, ctx_call, hfind, ih]
  cpp_run []
  cpp_arith []

theorem sqrt_up_32 (x m : Nat) (hx : x < 2 ^ 32) (hm : m < 2 ^ 32) (r r' : Nat) (hr : r < 2 ^ 32) (h : sqrtUp 32 m x r = .ok r') (k : Nat)
    (hk : m - r < k) (b : List Frame) (g : Frame) (p : List Obj) : r' < 2 ^ 32 ∧
    (ctx fs (some .u32) elem est fuel d).whileLoop (integerSquarerootF.body.nth 2).cond (integerSquarerootF.body.nth 2).inner k
      ⟨[(name% "sqrt_max", .int .u32 m), (name% "r", .int .u32 r), (name% "x", .int .u32 x)], b, g, p⟩ =
    .ok (none, ⟨[(name% "sqrt_max", .int .u32 m), (name% "r", .int .u32 r'), (name% "x", .int .u32 x)], b, g, p⟩) := by
  induction k generalizing r with
  | zero => omega
  | succ k ih =>
    rw [whileLoop_succ]
    rw [sqrtUp] at h
    by_cases h1 : r < m
    · rw [if_pos h1, mulW] at h
      by_cases h2 : r * r < 2 ^ 32
      · simp only [if_pos h2] at h
        have e : (r : Int) * r = (r * r : Nat) := by simp
        by_cases h3 : r * r < x
        · rw [if_pos h3] at h
          replace ih := ih (r + 1) (by omega) h (by omega)
          refine ⟨ih.1, ?_⟩
          replace ih := ih.2
          cpp_run [integerSquarerootF]
          cpp_arith [e]
          cpp_run [integerSquarerootF] at ih
          exact ih
        · rw [if_neg h3] at h
          obtain rfl : r = r' := by simpa using h
          refine ⟨hr, ?_⟩
          cpp_run [integerSquarerootF]
          cpp_arith [e]
      · simp [if_neg h2] at h
    · rw [if_neg h1] at h
      obtain rfl : r = r' := by simpa using h
      refine ⟨hr, ?_⟩
      cpp_run [integerSquarerootF]
      cpp_arith []

theorem sqrt_down_32 (x m : Nat) (hx : x < 2 ^ 32) (hm : m < 2 ^ 32) (r r' : Nat) (hr : r < 2 ^ 32) (h : sqrtDown 32 m x r = .ok r') (k : Nat)
    (hk : r < k) (b : List Frame) (g : Frame) (p : List Obj) : r' < 2 ^ 32 ∧
    (ctx fs (some .u32) elem est fuel d).whileLoop (integerSquarerootF.body.nth 3).cond (integerSquarerootF.body.nth 3).inner k
      ⟨[(name% "sqrt_max", .int .u32 m), (name% "r", .int .u32 r), (name% "x", .int .u32 x)], b, g, p⟩ =
    .ok (none, ⟨[(name% "sqrt_max", .int .u32 m), (name% "r", .int .u32 r'), (name% "x", .int .u32 x)], b, g, p⟩) := by
  induction k generalizing r with
  | zero => omega
  | succ k ih =>
    rw [whileLoop_succ]
    have e : (r : Int) * r = (r * r : Nat) := by simp
    have dec : (match r with | 0 => Out.ub | r + 1 => sqrtDown 32 m x r) = .ok r' → ∃ n, r = n + 1 ∧ sqrtDown 32 m x n = .ok r' := by
      cases r with
      | zero => simp
      | succ n => exact fun h => ⟨n, rfl, h⟩
    rw [sqrtDown.eq_def] at h
    by_cases h1 : r > m
    · simp only [if_pos h1] at h
      obtain ⟨n, hn, h⟩ := dec h
      replace ih := ih n (by omega) h (by omega)
      refine ⟨ih.1, ?_⟩
      replace ih := ih.2
      cpp_run [integerSquarerootF] at ih
      cpp_run [integerSquarerootF]
      cpp_arith []
      rw [show (r : Int) - 1 = n by omega]
      exact ih
    · by_cases h2 : r * r < 2 ^ 32
      · simp only [if_neg h1, mulW, if_pos h2] at h
        by_cases h3 : r * r > x
        · rw [if_pos h3] at h
          obtain ⟨n, hn, h⟩ := dec h
          replace ih := ih n (by omega) h (by omega)
          refine ⟨ih.1, ?_⟩
          replace ih := ih.2
          cpp_run [integerSquarerootF] at ih
          cpp_run [integerSquarerootF]
          cpp_arith [e]
          rw [show (r : Int) - 1 = n by omega]
          exact ih
        · rw [if_neg h3] at h
          obtain rfl : r = r' := by simpa using h
          refine ⟨hr, ?_⟩
          cpp_run [integerSquarerootF]
          cpp_arith [e]
      · simp [if_neg h1, mulW, if_neg h2] at h

theorem integer_squareroot_32 (E : Env) (x est r : Nat) (hE : E.estimate = est) (hx : x < 2 ^ 32) (he : est < 2 ^ 32) (hf : 2 ^ 32 ≤ fuel)
    (hfind : find (name% "sqrt_helper") fs = some sqrtHelperF) (hct : find (name% "ct_sqrt") fs = some ctSqrtF)
    (k d e D : Nat) (hd : k ≤ e + 1) (hD : d = e + 1) (hD : D = d + 1)
    (h : integerSquareroot 32 k x est = some (.ok r)) (c : Frame) (b : List Frame) (g : Frame) (p : List Obj) :
    (ctx fs (some .u32) elem E fuel D).enter integerSquarerootF [.int .u32 x] ⟨c, b, g, p⟩ = .ok (.int .u32 r, ⟨c, b, g, p⟩) := by
  rw [integerSquareroot] at h
  cases hm : ctSqrt 32 k (2 ^ 32 - 1) with
  | none => simp [hm] at h
  | some o =>
    cases o with
    | throws e => simp [hm, Out.bind] at h
    | ub => simp [hm, Out.bind] at h
    | ok m =>
      simp only [hm, Option.map_some, Out.bind] at h
      obtain ⟨hml, hm⟩ := ct_sqrt_32 fs elem E fuel (2 ^ 32 - 1) (by omega) hfind k e d m hd ‹_› hm
      cases hu : sqrtUp 32 m x est with
      | throws e => simp [hu] at h
      | ub => simp [hu] at h
      | ok s =>
        simp only [hu, Option.some.injEq] at h
        obtain ⟨hs, up⟩ := sqrt_up_32 fs elem E fuel (d := d + 1) x m hx hml est s he hu fuel (by omega) (c :: b) g p
        obtain ⟨hr, down⟩ := sqrt_down_32 fs elem E fuel (d := d + 1) x m hx hml s r hs h fuel (by omega) (c :: b) g p
        cpp_run [integerSquarerootF] at up down
        cpp_run [integerSquarerootF, hE]
        cpp_arith []
        rw [show ((2 ^ 32 - 1 : Nat) : Int) = 4294967295 by decide] at hm
        simp only [library_ct, pick_ct, hD, ctx_call, hct, hm]
        cpp_run []
        cpp_arith []
        rw [up]
        cpp_run []
        rw [down]
        cpp_run []
        cpp_arith []

end Mammon.Cpp
