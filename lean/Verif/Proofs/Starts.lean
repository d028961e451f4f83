import Verif.Proofs.Offsets
/-!
# The offsets of encodings of any size
-/

namespace Mammon

theorem readOffset_append_mod (a c : List Byte) (n i : Nat) (hi : i = a.length) :
    Spec.readOffset (a ++ (leBytes 4 n ++ c)) i = n % 2 ^ 32 := by
  rw [readOffset_eq (read32_append a c n i hi), BitVec.toNat_ofNat]

/-- Byte strings laid out one behind the other are found where they start. -/
theorem starts_slices (A : List Byte) : (bs : List (List Byte)) → (B C : List Byte) → (i : Nat) → i = A.length + B.length →
    List.Forall₂ (fun o b => ((A ++ (B ++ (bs.flatten ++ C))).drop o).take b.length = b) (Spec.starts i bs) bs
  | [], _, _, _, _ => by simp [Spec.starts]
  | b :: bs, B, C, i, hi => by
    rw [Spec.starts]
    refine List.Forall₂.cons ?_ ?_
    · rw [← List.append_assoc A, List.flatten_cons, List.append_assoc b, List.drop_left' (by simp [hi]), List.take_left]
    · have ih := starts_slices A bs (B ++ b) C (i + b.length) (by simp only [List.length_append]; omega)
      simpa only [List.flatten_cons, List.append_assoc] using ih

theorem tailsL_filter : (l : List (Bool × List Byte)) → tailsL l = ((l.filter (·.1)).map (·.2)).flatten
  | [] => rfl
  | (true, b) :: l => by simp [tailsL, tailsL_filter l]
  | (false, b) :: l => by simp [tailsL, tailsL_filter l]

/-- The offsets in the fixed section of encoded parts are the positions of the parts modulo 2^32. -/
theorem offsets_mod : (ps : Parts) → Spec.wfParts ps = true → (v : ps.denote) → (A C : List Byte) → (off : Nat) →
    (Spec.offsetPositions ps A.length).map (Spec.readOffset (A ++ (headsL (partsL ps v) off ++ C))) =
      (Spec.starts off (((partsL ps v).filter (·.1)).map (·.2))).map (· % 2 ^ 32)
  | .nil, _, v, A, C, off => by simp [Spec.offsetPositions, partsL, Spec.starts]
  | .cons _ t ps, hw, v, A, C, off => by
    simp only [Spec.wfParts, Bool.and_eq_true] at hw
    simp only [partsL, headsL]
    by_cases ht : t.sszSize = 0
    · have hvar := (sszSize_eq_zero_iff hw.1).1 ht
      simp only [ht, decide_true, if_true, Spec.offsetPositions, hvar, List.map_cons]
      rw [List.filter_cons_of_pos (by simp), List.map_cons, Spec.starts, List.map_cons]
      simp only [List.append_assoc]
      have ih := offsets_mod ps hw.2 v.2 (A ++ leBytes 4 off) C (off + (serializeBytes t v.1).length)
      simp only [List.append_assoc, List.length_append, length_leBytes] at ih
      rw [readOffset_append_mod A _ off _ rfl, ih]
    · have hvar : Spec.isVariable t = false := by
        cases h : Spec.isVariable t
        · rfl
        · exact absurd ((sszSize_eq_zero_iff hw.1).2 h) ht
      have hlen := length_serializeBytes t hw.1 hvar v.1
      simp only [ht, decide_false, Bool.false_eq_true, if_false, Spec.offsetPositions, hvar]
      rw [List.filter_cons_of_neg (by simp)]
      have ih := offsets_mod ps hw.2 v.2 (A ++ serializeBytes t v.1) C off
      simp only [List.append_assoc, List.length_append, hlen] at ih ⊢
      exact ih

/-- The words at the start of an encoded list are the positions of the elements modulo 2^32. -/
theorem leading_mod {α : Type} (f : α → List Byte) : (l : List α) → (A C : List Byte) → (off : Nat) →
    (List.range l.length).map (fun k => Spec.readOffset (A ++ (headsL (l.map fun x => (true, f x)) off ++ C)) (A.length + 4 * k)) =
      (Spec.starts off (l.map f)).map (· % 2 ^ 32)
  | [], _, _, _ => rfl
  | x :: l, A, C, off => by
    simp only [List.map_cons, headsL, if_true, Spec.starts, List.length_cons, List.range_succ_eq_map, List.map_map, List.append_assoc]
    have ih := leading_mod f l (A ++ leBytes 4 off) C (off + (f x).length)
    simp only [List.append_assoc, List.length_append, length_leBytes] at ih
    rw [readOffset_append_mod A _ off (A.length + 4 * 0) rfl, ← ih]
    congr 1
    apply List.map_congr_left
    intro k _
    simp only [Function.comp]
    congr 1
    omega

theorem starts_le : (bs : List (List Byte)) → (i : Nat) → ∀ o ∈ Spec.starts i bs, i ≤ o ∧ o ≤ i + bs.flatten.length
  | [], _, o, h => by simp [Spec.starts] at h
  | b :: bs, i, o, h => by
    rw [Spec.starts, List.mem_cons] at h
    simp only [List.flatten_cons, List.length_append]
    rcases h with rfl | h
    · omega
    · have := starts_le bs _ o h
      omega

/-- A list of numbers is unchanged modulo 2^32 exactly when all of them are below 2^32. -/
theorem map_mod_eq_iff : (l : List Nat) → (l.map (· % 2 ^ 32) = l ↔ ∀ x ∈ l, x < 2 ^ 32)
  | [] => by simp
  | x :: l => by
    rw [List.map_cons, List.cons.injEq, map_mod_eq_iff l, List.forall_mem_cons]
    have : x % 2 ^ 32 = x ↔ x < 2 ^ 32 := by omega
    rw [this]

end Mammon
