import Verif.Model.Math
/-!
# Lemmas on `helpers/math.hpp`
-/

namespace Mammon

theorem sq_le_sq {a b : Nat} (h : a ≤ b) : a * a ≤ b * b := Nat.mul_le_mul h h

theorem sq_lt_sq {a b : Nat} (h : a < b) : a * a < b * b := Nat.mul_lt_mul_of_lt_of_le h (Nat.le_of_lt h) (by omega)

theorem lt_of_sq_lt {a b : Nat} (h : a * a < b * b) : a < b := by
  apply Classical.byContradiction
  intro h'
  have := sq_le_sq (Nat.le_of_not_lt h')
  omega

theorem le_of_sq_le {a b : Nat} (h : a * a < (b + 1) * (b + 1)) : a ≤ b := Nat.le_of_lt_succ (lt_of_sq_lt h)

/-- A square root is at most a quarter plus one. -/
theorem root_le_quarter {s x : Nat} (h : s * s ≤ x) : 4 * s ≤ x + 4 := by
  rcases Nat.lt_or_ge s 2 with h' | h'
  · omega
  · obtain ⟨t, rfl⟩ := Nat.exists_eq_add_of_le h'
    have : (2 + t) * (2 + t) = 4 + 4 * t + t * t := by
      rw [Nat.add_mul, Nat.mul_add, Nat.mul_add]; omega
    have := Nat.zero_le (t * t)
    omega

/-- The bisection finds the square root in the interval, within `d` steps if the interval is shorter than `2 ^ d`. -/
theorem sqrtHelper_spec (w x : Nat) (hx : x < 2 ^ w) (hw : 4 ≤ w) : ∀ (d lo hi : Nat), lo * lo ≤ x → x < (hi + 1) * (hi + 1) → lo ≤ hi →
    hi ≤ x / 2 + 1 → hi - lo < 2 ^ d →
    ∃ r, sqrtHelper w x (d + 1) lo hi = some (.ok r) ∧ r * r ≤ x ∧ x < (r + 1) * (r + 1) := by
  have h16 : 16 ≤ 2 ^ w := by
    have : 2 ^ 4 ≤ 2 ^ w := Nat.pow_le_pow_right (by decide) hw
    omega
  intro d
  induction d with
  | zero =>
    intro lo hi h1 h2 h3 h4 h5
    have : lo = hi := by simp at h5; omega
    subst this
    exact ⟨lo, by simp [sqrtHelper], h1, h2⟩
  | succ d ih =>
    intro lo hi h1 h2 h3 h4 h5
    by_cases hlh : lo = hi
    · subst hlh
      exact ⟨lo, by simp [sqrtHelper], h1, h2⟩
    · have hq := root_le_quarter h1
      have hadd : (addW w lo hi).bind (fun s => addW w s 1) = .ok (lo + hi + 1) := by
        rw [addW, if_pos (by omega), Out.bind, addW, if_pos (by omega)]
      rw [sqrtHelper, if_neg hlh, hadd]
      have hm0 : (lo + hi + 1) / 2 ≠ 0 := by omega
      simp only [if_neg hm0]
      have hpow : 2 ^ (d + 1) = 2 * 2 ^ d := by rw [Nat.pow_succ, Nat.mul_comm]
      split
      · rename_i hlt
        refine ih lo _ h1 ?_ (by omega) (by omega) (by omega)
        have := (Nat.div_lt_iff_lt_mul (by omega)).1 hlt
        rwa [Nat.sub_add_cancel (by omega)]
      · rename_i hge
        refine ih _ hi ?_ h2 (by omega) h4 (by omega)
        exact (Nat.le_div_iff_mul_le (by omega)).1 (Nat.le_of_not_lt hge)

theorem ctSqrt_spec (w x : Nat) (hx : x < 2 ^ w) (hw : 4 ≤ w) :
    ∃ r, ctSqrt w (w + 1) x = some (.ok r) ∧ r * r ≤ x ∧ x < (r + 1) * (r + 1) := by
  have h16 : 16 ≤ 2 ^ w := by
    have : 2 ^ 4 ≤ 2 ^ w := Nat.pow_le_pow_right (by decide) hw
    omega
  rw [ctSqrt, addW, if_pos (by omega)]
  refine sqrtHelper_spec w x hx hw w 0 (x / 2 + 1) (by omega) ?_ (by omega) (Nat.le_refl _) (by omega)
  have h1 : (x / 2 + 1 + 1) * (x / 2 + 1 + 1) ≥ 2 * (x / 2 + 1 + 1) := Nat.mul_le_mul_right _ (by omega)
  omega

/-- Fuel beyond what is needed does not change the result. -/
theorem sqrtHelper_mono (w x : Nat) : ∀ (fuel lo hi : Nat) (o : Out Nat) (k : Nat), sqrtHelper w x fuel lo hi = some o →
    sqrtHelper w x (fuel + k) lo hi = some o := by
  intro fuel
  induction fuel with
  | zero => intro lo hi o k h; simp [sqrtHelper] at h
  | succ fuel ih =>
    intro lo hi o k h
    rw [Nat.succ_add, sqrtHelper]
    rw [sqrtHelper] at h
    split at h
    · rename_i h1; rw [if_pos h1]; exact h
    · rename_i h1
      rw [if_neg h1]
      split at h
      · rename_i s hs
        simp only at h ⊢
        split at h
        · rename_i h2; rw [if_pos h2]; exact h
        · rename_i h2
          rw [if_neg h2]
          split at h
          · rename_i h3; rw [if_pos h3]; exact ih _ _ _ _ h
          · rename_i h3; rw [if_neg h3]; exact ih _ _ _ _ h
      · exact h
      · exact h

theorem sqrtUp_spec (w m x r : Nat) (hm : m * m < 2 ^ w) : ∃ r', sqrtUp w m x r = .ok r' ∧ r ≤ r' ∧ (m ≤ r' ∨ x ≤ r' * r') := by
  fun_induction sqrtUp w m x r with
  | case1 r h q hq hlt ih =>
    obtain ⟨r', h1, h2, h3⟩ := ih
    exact ⟨r', h1, by omega, h3⟩
  | case2 r h q hq hge =>
    refine ⟨r, rfl, Nat.le_refl _, Or.inr ?_⟩
    rw [mulW] at hq
    split at hq
    · cases hq; omega
    · cases hq
  | case3 r h e hq => rw [mulW] at hq; split at hq <;> cases hq
  | case4 r h hq =>
    rw [mulW, if_pos (by have := sq_lt_sq h; omega)] at hq
    cases hq
  | case5 r h => exact ⟨r, rfl, Nat.le_refl _, Or.inl (by omega)⟩

theorem sqrtDown_spec (w m x : Nat) (hm : m * m < 2 ^ w) (s : Nat) (hs : s * s ≤ x) (hs' : x < (s + 1) * (s + 1)) (hsm : s ≤ m) :
    ∀ r, s ≤ r → sqrtDown w m x r = .ok s := by
  intro r
  induction r with
  | zero =>
    intro h
    have h0 : s = 0 := by omega
    subst h0
    rw [sqrtDown]
    simp only [mulW]
    rw [if_neg (by omega), if_pos (by omega)]
    simp
  | succ r ih =>
    intro h
    rw [sqrtDown]
    by_cases hgt : r + 1 > m
    · rw [if_pos hgt]; exact ih (by omega)
    · rw [if_neg hgt]
      simp only [mulW, Nat.succ_eq_add_one]
      rw [if_pos (by have := sq_le_sq (Nat.le_of_not_lt hgt); omega)]
      simp only
      by_cases hx : (r + 1) * (r + 1) > x
      · rw [if_pos hx]
        refine ih ?_
        have : s < r + 1 := lt_of_sq_lt (Nat.lt_of_le_of_lt hs hx)
        omega
      · rw [if_neg hx]
        have : r + 1 ≤ s := le_of_sq_le (Nat.lt_of_le_of_lt (Nat.le_of_not_lt hx) hs')
        rw [show r + 1 = s by omega]

/-- Every natural has an integer square root. -/
theorem exists_sqrt (x : Nat) : ∃ s, s * s ≤ x ∧ x < (s + 1) * (s + 1) := by
  induction x with
  | zero => exact ⟨0, by decide, by decide⟩
  | succ x ih =>
    obtain ⟨s, h1, h2⟩ := ih
    by_cases h : x + 1 < (s + 1) * (s + 1)
    · exact ⟨s, by omega, h⟩
    · refine ⟨s + 1, by omega, ?_⟩
      have := sq_lt_sq (Nat.lt_succ_self (s + 1))
      simp only [Nat.succ_eq_add_one] at this
      omega

theorem integerSquareroot_spec (w fuel x r0 : Nat) (hw : 4 ≤ w) (hf : w + 1 ≤ fuel) (hx : x < 2 ^ w) :
    ∃ r, integerSquareroot w fuel x r0 = some (.ok r) ∧ r * r ≤ x ∧ x < (r + 1) * (r + 1) := by
  have hpos : 0 < 2 ^ w := Nat.two_pow_pos w
  obtain ⟨m, hm, hm1, hm2⟩ := ctSqrt_spec w (2 ^ w - 1) (by omega) hw
  have hm' : ctSqrt w fuel (2 ^ w - 1) = some (.ok m) := by
    rw [ctSqrt] at hm ⊢
    revert hm
    split
    · intro hm
      obtain ⟨k, rfl⟩ := Nat.exists_eq_add_of_le hf
      exact sqrtHelper_mono w _ _ _ _ _ k hm
    · exact id
    · exact id
  obtain ⟨s, hs1, hs2⟩ := exists_sqrt x
  have hsm : s ≤ m := le_of_sq_le (by omega)
  obtain ⟨r', h1, h2, h3⟩ := sqrtUp_spec w m x r0 (by omega)
  refine ⟨s, ?_, hs1, hs2⟩
  rw [integerSquareroot, hm', Option.map_some, Out.bind, h1, Out.bind, sqrtDown_spec w m x (by omega) s hs1 hs2 hsm r']
  rcases h3 with h3 | h3
  · omega
  · rcases Nat.lt_or_ge r' s with hlt | hge
    · have := sq_lt_sq hlt; omega
    · exact hge

theorem countlZeroFrom_spec (x i : Nat) (hx : x < 2 ^ i) : countlZeroFrom x i ≤ i ∧ x < 2 ^ (i - countlZeroFrom x i) ∧
    (∀ d, x < 2 ^ d → i - countlZeroFrom x i ≤ d) := by
  induction i with
  | zero => simp [countlZeroFrom] at *; exact hx
  | succ i ih =>
    rw [countlZeroFrom]
    have hp : 2 ^ (i + 1) = 2 * 2 ^ i := by rw [Nat.pow_succ, Nat.mul_comm]
    split
    · rename_i h
      refine ⟨Nat.zero_le _, hx, fun d hd => ?_⟩
      have hge := Nat.ge_two_pow_of_testBit h
      have : i < d := (Nat.pow_lt_pow_iff_right (by decide : 1 < 2)).1 (Nat.lt_of_le_of_lt hge hd)
      omega
    · rename_i h
      have hlt : x < 2 ^ i := by
        apply Classical.byContradiction
        intro hge
        apply h
        rw [Nat.testBit_eq_decide_div_mod_eq]
        have : x / 2 ^ i = 1 := by
          apply Nat.div_eq_of_lt_le <;> omega
        simp [this]
      obtain ⟨h1, h2, h3⟩ := ih hlt
      refine ⟨by omega, ?_, fun d hd => ?_⟩
      · rwa [show i + 1 - (countlZeroFrom x i + 1) = i - countlZeroFrom x i by omega]
      · have := h3 d hd; omega

theorem log2ceil_spec (w : Nat) (n : BitVec w) : n.toNat ≤ 2 ^ log2ceil w n ∧ ∀ d, n.toNat ≤ 2 ^ d → log2ceil w n ≤ d := by
  rw [log2ceil]
  split
  · rename_i h
    have hn : n.toNat ≠ 0 := fun h' => h (BitVec.eq_of_toNat_eq (by simpa using h'))
    have hsub : (n - 1).toNat = n.toNat - 1 := by
      have h2 := n.isLt
      rw [BitVec.toNat_sub]
      have hw : 0 < w := by
        rcases Nat.eq_zero_or_pos w with rfl | hw
        · simp at h2; omega
        · exact hw
      have h1w : 1 < 2 ^ w := Nat.one_lt_two_pow (by omega)
      have h1 : (1 : BitVec w).toNat = 1 := by
        show 1 % 2 ^ w = 1
        exact Nat.mod_eq_of_lt h1w
      rw [h1, show 2 ^ w - 1 + n.toNat = n.toNat - 1 + 2 ^ w by omega, Nat.add_mod_right, Nat.mod_eq_of_lt (by omega)]
    obtain ⟨h1, h2, h3⟩ := countlZeroFrom_spec (n - 1).toNat w (n - 1).isLt
    rw [hsub] at h1 h2 h3
    rw [countlZero, hsub]
    exact ⟨by omega, fun d hd => h3 d (by omega)⟩
  · rename_i h
    simp only [ne_eq, Classical.not_not] at h
    subst h
    exact ⟨by simp, fun d _ => Nat.zero_le _⟩

end Mammon
