import Verif.Proofs.HashCalls
/-!
# The number of hashes is linear in the size of the encoding
-/

namespace Mammon

open Spec (depthFor)

theorem nodeCount_shift (n d : Nat) : nodeCount n (d + 1) = (n + 1) / 2 + nodeCount ((n + 1) / 2) d := by
  rw [← sum_callsFrom, callsFrom, List.sum_append, sum_callsFrom, sum_layerCalls]

theorem nodeCount_depth (n : Nat) (hn : 0 < n) : nodeCount n (depthFor n) + 2 ≤ 2 * n := by
  by_cases h : n = 1
  · subst h; rw [depthFor_one]; decide
  · have ih := nodeCount_depth ((n + 1) / 2) (by omega)
    rw [depthFor_step (n := n) (by omega), nodeCount_shift]
    by_cases h2 : n = 2
    · subst h2; rw [depthFor_one]; decide
    · omega
termination_by n

theorem treeHashes_le (n limit : Nat) (hn : 0 < n) (hl : limit ≤ 2 ^ 42) : Spec.treeHashes n limit + 2 ≤ 2 * n + 42 := by
  have h1 := nodeCount_depth n hn
  have h2 : depthFor n ≤ depthFor (max n limit) := depthFor_mono (by omega)
  rw [Spec.treeHashes, ← nodeCount_eq, nodeCount_extend hn _ h2]
  have h3 : depthFor (max n limit) ≤ max (depthFor n) 42 := by
    rcases Nat.le_total n limit with h | h
    · rw [Nat.max_eq_right h]; have := (depthFor_le_iff limit 42).2 hl; omega
    · rw [Nat.max_eq_left h]; omega
  omega

theorem treeHashes_zero (n : Nat) (hn : 0 < n) : Spec.treeHashes n 0 + 2 ≤ 2 * n := by
  rw [Spec.treeHashes, ← nodeCount_eq, Nat.max_zero]
  exact nodeCount_depth n hn

theorem length_assemble (ps : List (Bool × List Byte)) : (Spec.assemble ps).length = (ps.map fun p => (if p.1 then 4 else 0) + p.2.length).sum := by
  rw [assemble_eq, List.length_append, length_headsL]
  induction ps with
  | nil => rfl
  | cons p ps ih =>
    rw [fixedLenL, tailsL, List.map_cons, List.sum_cons, ← ih, List.length_append]
    by_cases h : p.1 = true
    · simp only [h, if_true]; omega
    · simp only [h, if_false, List.length_nil, Bool.false_eq_true]; omega

/-- Hashes of the elements, each at most 12 per byte less 3. -/
theorem sum_elems {α : Type} (l : List α) (g len : α → Nat) (h : ∀ x ∈ l, g x + 3 ≤ 12 * len x) :
    (l.map g).sum + 3 * l.length ≤ 12 * (l.map len).sum := by
  induction l with
  | nil => exact Nat.le_refl _
  | cons x l ih =>
    have h1 := h x List.mem_cons_self
    have h2 := ih fun y hy => h y (List.mem_cons_of_mem _ hy)
    simp only [List.map_cons, List.sum_cons, List.length_cons]
    omega

theorem length_elems {α : Type} (l : List α) (b : Bool) (e : α → List Byte) :
    (Spec.assemble (l.map fun x => (b, e x))).length = (l.map fun x => (if b then 4 else 0) + (e x).length).sum := by
  rw [length_assemble, List.map_map]; rfl

theorem length_bitlist (bits : List Bool) : (Spec.bitlist bits).length = bits.length / 8 + 1 := by rw [Spec.bitlist, length_packBits]

theorem length_uint64 (x : BitVec 64) : (Spec.encode .uint64 x).length = 8 := by rw [Spec.encode, ← leBytes_eq_uintLE, length_leBytes]

theorem sum_uint64s (l : List (BitVec 64)) : (l.map fun x => 0 + (Spec.encode .uint64 x).length).sum = 8 * l.length := by
  induction l with
  | nil => rfl
  | cons x l ih => rw [List.map_cons, List.sum_cons, ih, length_uint64, List.length_cons]; omega

mutual
/-- At most 12 hashes per byte, and 43 more for types of variable size. -/
theorem hashCount_le : (t : Ty) → Spec.hashable t = true → Spec.wf t = true → (v : t.denote) →
    if Spec.isVariable t then Spec.hashCount t v ≤ 12 * (Spec.encode t v).length + 43 else Spec.hashCount t v + 3 ≤ 12 * (Spec.encode t v).length
  | .uint64, _, _, v => by
    rw [if_neg (by decide), length_uint64, Spec.hashCount]; decide
  | .boolean, _, _, v => by
    rw [if_neg (by decide), Spec.hashCount, Spec.encode]; show 0 + 3 ≤ 12 * 1; decide
  | .bytes n, _, hw, v => by
    simp only [Spec.wf, decide_eq_true_eq] at hw
    rw [if_neg (by rw [Spec.isVariable]; exact Bool.false_ne_true), Spec.hashCount, Spec.encode, v.2, Spec.chunkCount]
    have := treeHashes_zero ((n + 31) / 32) (by omega)
    omega
  | .bitvector n, _, hw, v => by
    simp only [Spec.wf, decide_eq_true_eq] at hw
    rw [if_neg (by rw [Spec.isVariable]; exact Bool.false_ne_true), Spec.hashCount, Spec.encode, Spec.bitvector, length_packBits, Spec.chunkCount]
    have := treeHashes_zero ((n + 255) / 256) (by omega)
    omega
  | .bitlist n, hh, _, v => by
    simp only [Spec.hashable, decide_eq_true_eq] at hh
    rw [if_pos (by rw [Spec.isVariable]), Spec.hashCount, Spec.encode, length_bitlist]
    have := treeHashes_le (max 1 ((List.length v + 255) / 256)) (Spec.chunkCount (.bitlist n)) (by omega) hh
    omega
  | .vector t n, hh, hw, v => by
    simp only [Spec.hashable, Bool.and_eq_true, decide_eq_true_eq, Bool.not_eq_true'] at hh
    obtain ⟨⟨⟨h1, h2⟩, h3⟩, h4⟩ := hh
    simp only [Spec.wf, Bool.and_eq_true, Bool.not_eq_true', decide_eq_true_eq] at hw
    obtain ⟨⟨w1, w2⟩, w3⟩ := hw
    rw [if_neg (by rw [Spec.isVariable, w2]; exact Bool.false_ne_true), Spec.hashCount, Spec.encode, length_elems, w2]
    simp only [Bool.false_eq_true, if_false]
    by_cases hbas : Spec.isBasic t = true
    · rw [if_pos hbas]
      have := eq_uint64_of_basic h2 hbas
      subst this
      rw [sum_uint64s, v.2]
      simp only [Spec.chunkCount, Spec.isBasic, if_true, Spec.fixedSize]
      have := treeHashes_zero ((n * 8 + 31) / 32) (by omega)
      omega
    · rw [if_neg hbas]
      have := sum_elems v.1 (fun x => Spec.hashCount t x) (fun x => 0 + (Spec.encode t x).length) fun x _ => by
        have := hashCount_le t h1 w1 x
        rw [if_neg (by rw [w2]; exact Bool.false_ne_true)] at this
        omega
      have h5 := treeHashes_zero n h3
      rw [v.2] at this
      omega
  | .listF t n, hh, hw, v => by
    simp only [Spec.hashable, Bool.and_eq_true, decide_eq_true_eq, Bool.not_eq_true'] at hh
    obtain ⟨⟨h1, h2⟩, h4⟩ := hh
    simp only [Spec.wf, Bool.and_eq_true, Bool.not_eq_true'] at hw
    obtain ⟨w1, w2⟩ := hw
    rw [if_pos (by rw [Spec.isVariable]), Spec.hashCount, Spec.encode]
    erw [length_elems]
    rw [w2]
    simp only [Bool.false_eq_true, if_false]
    by_cases hbas : Spec.isBasic t = true
    · rw [if_pos hbas]
      have := eq_uint64_of_basic h2 hbas
      subst this
      have e := sum_uint64s v
      have := treeHashes_le (max 1 ((List.length v * 8 + 31) / 32)) _ (by omega) h4
      simp only [Spec.fixedSize]
      have e : (List.map (fun x => 0 + (Spec.encode .uint64 x).length) v).sum = 8 * List.length v := e
      rw [e]
      omega
    · rw [if_neg hbas]
      simp only [Spec.chunkCount, if_neg hbas] at h4
      have := sum_elems v (fun x => Spec.hashCount t x) (fun x => 0 + (Spec.encode t x).length) fun x _ => by
        have := hashCount_le t h1 w1 x
        rw [if_neg (by rw [w2]; exact Bool.false_ne_true)] at this
        omega
      have h5 := treeHashes_le (max 1 (List.length v)) n (by omega) h4
      omega
  | .listV t n, hh, hw, v => by
    simp only [Spec.hashable, Bool.and_eq_true, decide_eq_true_eq, Bool.not_eq_true'] at hh
    obtain ⟨⟨h1, h2⟩, h4⟩ := hh
    have hbas : ¬ Spec.isBasic t = true := by simp [h2]
    simp only [Spec.wf, Bool.and_eq_true] at hw
    obtain ⟨w1, w2⟩ := hw
    simp only [Spec.chunkCount, if_neg hbas] at h4
    rw [if_pos (by rw [Spec.isVariable]), Spec.hashCount, Spec.encode]
    erw [length_elems]
    rw [w2]
    simp only [if_true]
    have := sum_elems v (fun x => Spec.hashCount t x) (fun x => 4 + (Spec.encode t x).length) fun x _ => by
      have := hashCount_le t h1 w1 x
      rw [if_pos w2] at this
      omega
    have h5 := treeHashes_le (max 1 (List.length v)) n (by omega) h4
    omega
  | .container s e ps, hh, hw, v => by
    simp only [Spec.hashable, Bool.and_eq_true, decide_eq_true_eq] at hh
    obtain ⟨⟨h1, h2⟩, h3⟩ := hh
    simp only [Spec.wf, Bool.and_eq_true] at hw
    have hp := hashCountParts_le ps h1 hw.1.1.1 v
    rw [Spec.hashCount, Spec.encode, length_assemble]
    have := treeHashes_zero (Spec.partCount ps) h2
    split <;> omega

theorem hashCountParts_le : (ps : Parts) → Spec.hashableParts ps = true → Spec.wfParts ps = true → (v : ps.denote) →
    Spec.hashCountParts ps v + 3 * Spec.partCount ps ≤ 12 * ((Spec.encodeParts ps v).map fun p => (if p.1 then 4 else 0) + p.2.length).sum
  | .nil, _, _, _ => Nat.le_refl _
  | .cons _ t ps, hh, hw, v => by
    simp only [Spec.hashableParts, Bool.and_eq_true] at hh
    simp only [Spec.wfParts, Bool.and_eq_true] at hw
    have ih := hashCountParts_le ps hh.2 hw.2 v.2
    have hx := hashCount_le t hh.1 hw.1 v.1
    rw [Spec.hashCountParts, Spec.partCount, Spec.encodeParts, List.map_cons, List.sum_cons]
    simp only
    by_cases hv : Spec.isVariable t = true
    · rw [if_pos hv] at hx ⊢; omega
    · rw [if_neg hv] at hx ⊢; omega
end

end Mammon
