import Verif.Proofs.Util
import Verif.Spec.SSZ
/-! # Lemmas on little-endian integers, outcomes and slices -/

namespace Mammon

/-! ## outcomes -/

namespace Out
variable {α β : Type}

@[simp] theorem ok_bind (a : α) (f : α → Out β) : (Out.ok a >>= f) = f a := rfl
@[simp] theorem throws_bind (e : Exc) (f : α → Out β) : ((Out.throws e : Out α) >>= f) = .throws e := rfl
@[simp] theorem ub_bind (f : α → Out β) : ((Out.ub : Out α) >>= f) = .ub := rfl

theorem bind_eq_ok {x : Out α} {f : α → Out β} {b : β} : (x >>= f) = .ok b ↔ ∃ a, x = .ok a ∧ f a = .ok b := by
  cases x <;> simp

end Out

/-! ## little-endian integers -/

theorem length_leBytes (k n : Nat) : (leBytes k n).length = k := by
  induction k generalizing n with
  | zero => rfl
  | succ k ih => simp [leBytes, ih]

theorem leBytes_eq_uintLE (k n : Nat) : leBytes k n = Spec.uintLE k n := by
  induction k generalizing n with
  | zero => rfl
  | succ k ih =>
    rw [leBytes, ih, Spec.uintLE, Spec.uintLE, List.range_succ_eq_map, List.map_cons, List.map_map, Nat.pow_zero, Nat.div_one]
    congr 1
    apply List.map_congr_left
    intro i _
    simp only [Function.comp, Nat.succ_eq_add_one]
    rw [Nat.div_div_eq_div_mul, Nat.pow_succ, Nat.mul_comm]

theorem fromLE_lt (bs : List Byte) : fromLE bs < 256 ^ bs.length := by
  induction bs with
  | nil => simp [fromLE]
  | cons b bs ih =>
    have := b.isLt
    simp only [fromLE, List.length_cons, Nat.pow_succ]
    omega

theorem fromLE_leBytes (k n : Nat) : fromLE (leBytes k n) = n % 256 ^ k := by
  induction k generalizing n with
  | zero => simp [leBytes, fromLE, Nat.mod_one]
  | succ k ih =>
    rw [leBytes, fromLE, ih, Nat.pow_succ, Nat.mul_comm (256 ^ k) 256, Nat.mod_mul]
    simp

theorem leBytes_fromLE (bs : List Byte) : leBytes bs.length (fromLE bs) = bs := by
  induction bs with
  | nil => rfl
  | cons b bs ih =>
    have := b.isLt
    rw [List.length_cons, leBytes, fromLE]
    have h2 : (b.toNat + 256 * fromLE bs) / 256 = fromLE bs := by omega
    rw [h2, ih]
    congr 1
    apply BitVec.eq_of_toNat_eq
    simp only [BitVec.toNat_ofNat]
    omega

theorem leBytes_mod (k n : Nat) : leBytes k (n % 256 ^ k) = leBytes k n := by
  have h := leBytes_fromLE (leBytes k n)
  rwa [length_leBytes, fromLE_leBytes] at h

theorem leBytes_inj {k m n : Nat} (hm : m < 256 ^ k) (hn : n < 256 ^ k) (h : leBytes k m = leBytes k n) : m = n := by
  have := congrArg fromLE h
  rwa [fromLE_leBytes, fromLE_leBytes, Nat.mod_eq_of_lt hm, Nat.mod_eq_of_lt hn] at this

theorem bytes4_ofNat (n : Nat) : bytes4 (BitVec.ofNat 32 n) = leBytes 4 n := by
  rw [bytes4, BitVec.toNat_ofNat]
  exact leBytes_mod 4 n

/-! ## slices and reads -/

theorem slice_append (a b c : List Byte) (i j : Nat) (hi : i = a.length) (hj : j = a.length + b.length) :
    slice (a ++ (b ++ c)) i j = .ok b := by
  subst hi hj
  rw [slice, if_pos (by simp), List.drop_left]
  congr 1
  rw [Nat.add_sub_cancel_left, List.take_left]

theorem slice_append_end (a b : List Byte) (i j : Nat) (hi : i = a.length) (hj : j = a.length + b.length) :
    slice (a ++ b) i j = .ok b := by
  have := slice_append a b [] i j hi hj
  rwa [List.append_nil] at this

theorem read32_append (a c : List Byte) (n i : Nat) (hi : i = a.length) :
    read32 (a ++ (leBytes 4 n ++ c)) i = .ok (BitVec.ofNat 32 n) := by
  subst hi
  rw [read32, if_pos (by simp [length_leBytes]), List.drop_left]
  have : (leBytes 4 n ++ c).take 4 = leBytes 4 n := by
    rw [List.take_append_of_le_length (by simp [length_leBytes]), List.take_of_length_le (by simp [length_leBytes])]
  rw [this, fromLE_leBytes]
  congr 1
  apply BitVec.eq_of_toNat_eq
  simp

theorem slice_ok_of_le {bs : List Byte} {a b : Nat} (h : a ≤ b ∧ b ≤ bs.length) :
    slice bs a b = .ok ((bs.drop a).take (b - a)) := by rw [slice, if_pos h]

theorem slice_eq_ok {bs s : List Byte} {a b : Nat} (h : slice bs a b = .ok s) :
    (a ≤ b ∧ b ≤ bs.length) ∧ s = (bs.drop a).take (b - a) ∧ s.length = b - a := by
  rw [slice] at h
  split at h
  · rename_i hab
    injection h with h
    refine ⟨hab, h.symm, ?_⟩
    rw [← h, List.length_take, List.length_drop]; omega
  · cases h

theorem read32_eq_ok {bs : List Byte} {i : Nat} {r : BitVec 32} (h : read32 bs i = .ok r) :
    i + 4 ≤ bs.length ∧ (bs.drop i).take 4 = leBytes 4 r.toNat := by
  rw [read32] at h
  split at h
  · rename_i hi
    injection h with h
    refine ⟨hi, ?_⟩
    have hl : ((bs.drop i).take 4).length = 4 := by rw [List.length_take, List.length_drop]; omega
    rw [← h, BitVec.toNat_ofNat]
    have h1 := leBytes_fromLE ((bs.drop i).take 4)
    have h2 := fromLE_lt ((bs.drop i).take 4)
    rw [hl] at h1 h2
    rw [Nat.mod_eq_of_lt (by simpa using h2)]
    exact h1.symm
  · cases h

theorem read32_isOk {bs : List Byte} {i : Nat} (h : i + 4 ≤ bs.length) : ∃ r, read32 bs i = .ok r := by
  rw [read32, if_pos h]; exact ⟨_, rfl⟩

end Mammon
