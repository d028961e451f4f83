import Verif.Spec.Overflow
import Verif.Spec.Decode
/-!
# The lists of a decoded object are no longer than the input
-/

namespace Mammon.Spec

open Verdict

theorem inOrder_mem {α : Type} (n : Nat) (f : Nat → Verdict α) (v : Vec α n) (h : inOrder n f = accepted v) : ∀ x ∈ v.1, ∃ k, f k = accepted x := by
  induction n generalizing f with
  | zero =>
    intro x hx
    rw [List.eq_nil_of_length_eq_zero v.2] at hx
    cases hx
  | succ n ih =>
    rw [inOrder] at h
    cases h0 : f 0 with
    | accepted a =>
      rw [h0, andThen] at h
      cases h1 : inOrder n fun k => f (k + 1) with
      | accepted w =>
        rw [h1, andThen] at h
        cases h
        intro x hx
        rcases List.mem_cons.1 hx with rfl | hx
        · exact ⟨0, h0⟩
        · obtain ⟨k, hk⟩ := ih _ w h1 x hx
          exact ⟨k + 1, hk⟩
      | rejected => rw [h1] at h; cases h
      | undefined => rw [h1] at h; cases h
    | rejected => rw [h0] at h; cases h
    | undefined => rw [h0] at h; cases h

theorem andThen_accepted {α β : Type} {x : Verdict α} {f : α → Verdict β} {b : β} (h : x.andThen f = accepted b) : ∃ a, x = accepted a ∧ f a = accepted b := by
  cases x with
  | accepted a => exact ⟨a, rfl, h⟩
  | rejected => cases h
  | undefined => cases h

theorem length_range_le (bs : List Byte) (a b : Nat) : (range bs a b).length ≤ bs.length := by
  rw [range, List.length_take, List.length_drop]; omega

mutual
theorem listsSmall_dflt : (t : Ty) → listsSmall t t.dflt = true
  | .uint64 => rfl
  | .boolean => rfl
  | .bytes _ => rfl
  | .bitvector _ => rfl
  | .bitlist _ => rfl
  | .vector t n => by
    rw [listsSmall, Ty.dflt, List.all_eq_true]
    intro x hx
    rw [List.eq_of_mem_replicate hx]
    exact listsSmall_dflt t
  | .listF t _ => by simp [listsSmall, Ty.dflt]
  | .listV t _ => by simp [listsSmall, Ty.dflt]
  | .container _ _ ps => by rw [listsSmall, Ty.dflt]; exact listsSmallParts_dflt ps
theorem listsSmallParts_dflt : (ps : Parts) → listsSmallParts ps ps.dflt = true
  | .nil => rfl
  | .cons _ t ps => by rw [listsSmallParts, Parts.dflt, listsSmall_dflt t, listsSmallParts_dflt ps]; rfl
end

mutual
theorem listsSmall_decode : (t : Ty) → (bs : List Byte) → bs.length ≤ 2 ^ 42 → (v : t.denote) → decode t bs = accepted v → listsSmall t v = true
  | .uint64, _, _, _, _ => rfl
  | .boolean, _, _, _, _ => rfl
  | .bytes _, _, _, _, _ => rfl
  | .bitvector _, _, _, _, _ => rfl
  | .bitlist _, _, _, _, _ => rfl
  | .vector t n, bs, hb, v, h => by
    rw [decode] at h
    rw [listsSmall, List.all_eq_true]
    intro x hx
    split at h
    · obtain ⟨k, hk⟩ := inOrder_mem _ _ _ h x hx
      exact listsSmall_decode t _ (Nat.le_trans (length_range_le _ _ _) hb) x hk
    · cases h
  | .listF t _, bs, hb, v, h => by
    rw [decode] at h
    rw [listsSmall, Bool.and_eq_true, decide_eq_true_eq, List.all_eq_true]
    split at h
    · obtain ⟨w, hw, h⟩ := andThen_accepted h
      cases h
      refine ⟨?_, fun x hx => ?_⟩
      · rw [w.2]
        exact Nat.le_trans (Nat.div_le_self _ _) hb
      · obtain ⟨k, hk⟩ := inOrder_mem _ _ _ hw x hx
        exact listsSmall_decode t _ (Nat.le_trans (length_range_le _ _ _) hb) x hk
    · cases h
  | .listV t _, bs, hb, v, h => by
    rw [decode] at h
    rw [listsSmall, Bool.and_eq_true, decide_eq_true_eq, List.all_eq_true]
    simp only [] at h
    split at h
    · cases h
      exact ⟨Nat.zero_le _, fun x hx => nomatch hx⟩
    · split at h
      · cases h
      · obtain ⟨w, hw, h⟩ := andThen_accepted h
        cases h
        refine ⟨?_, fun x hx => ?_⟩
        · rw [w.2]; omega
        · obtain ⟨k, hk⟩ := inOrder_mem _ _ _ hw x hx
          split at hk
          · split at hk
            · exact listsSmall_decode t _ (Nat.le_trans (length_range_le _ _ _) hb) x hk
            · cases hk
          · split at hk
            · exact listsSmall_decode t _ (Nat.le_trans (length_range_le _ _ _) hb) x hk
            · cases hk
  | .container _ _ ps, bs, hb, v, h => by
    rw [decode] at h
    obtain ⟨w, -, h⟩ := andThen_accepted h
    cases h
    rw [listsSmall]
    exact listsSmall_contents ps bs hb 0

theorem listsSmall_contents : (ps : Parts) → (bs : List Byte) → bs.length ≤ 2 ^ 42 → (i : Nat) → listsSmallParts ps (contents ps bs i) = true
  | .nil, _, _, _ => rfl
  | .cons _ t ps, bs, hb, i => by
    have key : ∀ a b, listsSmall t ((decode t (range bs a b)).value t.dflt) = true := by
      intro a b
      cases h : decode t (range bs a b) with
      | accepted v => exact listsSmall_decode t _ (Nat.le_trans (length_range_le _ _ _) hb) v h
      | rejected => exact listsSmall_dflt t
      | undefined => exact listsSmall_dflt t
    rw [contents]
    split
    · rw [listsSmallParts, key, listsSmall_contents ps bs hb]; rfl
    · rw [listsSmallParts, key, listsSmall_contents ps bs hb]; rfl
end

end Mammon.Spec
