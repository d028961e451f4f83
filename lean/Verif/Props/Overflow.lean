import Verif.Proofs.Overflow
import Verif.Proofs.Small
import Verif.Props.Decode
/-!
# Hashing objects with lists of any length: C15, exactly
-/

namespace Mammon

open Spec (depthFor)

variable (H : Chunk → Chunk → Chunk)

/-- **C15** Exactly when hashing an object has undefined behaviour: when the nodes over one of its lists do not fit, or a bit list has 2^31 bits or more.
Otherwise the root is the one of the specification, except that a list longer than its limit has the depth it needs. -/
theorem C15_exact (t : Ty) (ht : Spec.hashable t = true) (v : t.denote) (hs : Spec.listsSmall t v = true) :
    hashTreeRoot H t v = if Spec.roomy t v then .ok (Spec.rootAny H t v) else .ub := by
  rw [hashTreeRoot]
  exact (hashTree_outcome H t ht v hs).eq

/-- **C15** For every object of every class that `deserialize` accepted, from up to 2^42 bytes. -/
theorem C15_accepted (t : Ty) (ht : InRepo t) (old : t.denote) (bs : List Byte) (hb : bs.length ≤ 2 ^ 42) (v : t.denote)
    (h : deserialize t old bs = .ok (true, v)) : hashTreeRoot H t v = if Spec.roomy t v then .ok (Spec.rootAny H t v) else .ub := by
  refine C15_exact H t ht.hashable v (Spec.listsSmall_decode t bs hb v ?_)
  have := C60_classes t ht old bs
  cases hd : Spec.decode t bs with
  | accepted w =>
    rw [hd] at this
    simp only [] at this
    rw [h] at this
    cases this
    rfl
  | rejected =>
    rw [hd] at this
    obtain ⟨w, hw⟩ := this
    rw [h] at hw
    cases hw
  | undefined =>
    rw [hd] at this
    simp only [] at this
    rw [h] at this
    cases this

/- A body with three attester slashings is not hashed; a list of 17 checkpoints with limit 16 is. -/
example : Spec.hashable (Objects.beaconBlockBody mainnet) = true ∧ Spec.listsSmall (Objects.beaconBlockBody mainnet) (Samples.body mainnet 3) = true ∧
    Spec.roomy (Objects.beaconBlockBody mainnet) (Samples.body mainnet 3) = false := by decide +kernel
example : Spec.hashable (.listF Objects.checkpoint 16) = true ∧
    Spec.listsSmall (.listF Objects.checkpoint 16) (List.replicate 17 (Samples.checkpoint 4)) = true ∧
    Spec.roomy (.listF Objects.checkpoint 16) (List.replicate 17 (Samples.checkpoint 4)) = true ∧
    Spec.withinLimits (.listF Objects.checkpoint 16) (List.replicate 17 (Samples.checkpoint 4)) = false := by decide +kernel

/-! ## within the limits -/

theorem fits_within {n limit : Nat} (h : n ≤ limit) : Spec.fits n limit = true := by simp [Spec.fits, h]

mutual
theorem roomy_within : (t : Ty) → (v : t.denote) → Spec.withinLimits t v = true → Spec.bitlistsShort t v = true → Spec.roomy t v = true
  | .uint64, _, _, _ => rfl
  | .boolean, _, _, _ => rfl
  | .bytes _, _, _, _ => rfl
  | .bitvector _, _, _, _ => rfl
  | .bitlist n, v, hw, hb => by
    simp only [Spec.withinLimits, decide_eq_true_eq] at hw
    simp only [Spec.bitlistsShort] at hb
    rw [Spec.roomy, hb, fits_within (by rw [Spec.chunkCount]; omega)]; rfl
  | .vector t _, v, hw, hb => by
    simp only [Spec.withinLimits, List.all_eq_true] at hw
    simp only [Spec.bitlistsShort, List.all_eq_true] at hb
    rw [Spec.roomy, List.all_eq_true]
    exact fun x hx => roomy_within t x (hw x hx) (hb x hx)
  | .listF t n, v, hw, hb => by
    simp only [Spec.withinLimits, Bool.and_eq_true, decide_eq_true_eq, List.all_eq_true] at hw
    simp only [Spec.bitlistsShort, List.all_eq_true] at hb
    rw [Spec.roomy, Bool.and_eq_true, List.all_eq_true]
    refine ⟨?_, fun x hx => roomy_within t x (hw.2 x hx) (hb x hx)⟩
    split
    · rename_i hbas
      refine fits_within ?_
      rw [Spec.chunkCount, if_pos hbas]
      have := Nat.mul_le_mul_right (Spec.fixedSize t) hw.1
      omega
    · exact fits_within hw.1
  | .listV t n, v, hw, hb => by
    simp only [Spec.withinLimits, Bool.and_eq_true, decide_eq_true_eq, List.all_eq_true] at hw
    simp only [Spec.bitlistsShort, List.all_eq_true] at hb
    rw [Spec.roomy, Bool.and_eq_true, List.all_eq_true]
    exact ⟨fits_within hw.1, fun x hx => roomy_within t x (hw.2 x hx) (hb x hx)⟩
  | .container _ _ ps, v, hw, hb => by
    rw [Spec.roomy]
    exact roomyParts_within ps v hw hb
theorem roomyParts_within : (ps : Parts) → (v : ps.denote) → Spec.withinLimitsParts ps v = true → Spec.bitlistsShortParts ps v = true →
    Spec.roomyParts ps v = true
  | .nil, _, _, _ => rfl
  | .cons _ t ps, v, hw, hb => by
    simp only [Spec.withinLimitsParts, Bool.and_eq_true] at hw
    simp only [Spec.bitlistsShortParts, Bool.and_eq_true] at hb
    rw [Spec.roomyParts, roomy_within t v.1 hw.1 hb.1, roomyParts_within ps v.2 hw.2 hb.2]; rfl
end

mutual
theorem rootAny_within : (t : Ty) → Spec.hashable t = true → (v : t.denote) → Spec.withinLimits t v = true → Spec.rootAny H t v = Spec.root H t v
  | .uint64, _, _, _ => rfl
  | .boolean, _, _, _ => rfl
  | .bytes _, _, _, _ => rfl
  | .bitvector _, _, _, _ => rfl
  | .bitlist n, _, v, hw => by
    simp only [Spec.withinLimits, decide_eq_true_eq] at hw
    rw [Spec.rootAny, Spec.root, Nat.max_eq_right (by rw [Spec.chunkCount]; omega)]
  | .vector t n, hh, v, hw => by
    simp only [Spec.hashable, Bool.and_eq_true] at hh
    simp only [Spec.withinLimits, List.all_eq_true] at hw
    rw [Spec.rootAny]
    split
    · rfl
    · rename_i hbas
      rw [Spec.root, if_neg hbas, Spec.chunkCount, if_neg hbas]
      rw [List.map_congr_left fun x hx => rootAny_within t hh.1.1.1 x (hw x hx)]
  | .listF t n, hh, v, hw => by
    simp only [Spec.hashable, Bool.and_eq_true] at hh
    simp only [Spec.withinLimits, Bool.and_eq_true, decide_eq_true_eq, List.all_eq_true] at hw
    rw [Spec.rootAny, Spec.root]
    split
    · rename_i hbas
      rw [Nat.max_eq_right]
      rw [Spec.chunkCount, if_pos hbas]
      have := Nat.mul_le_mul_right (Spec.fixedSize t) hw.1
      omega
    · rename_i hbas
      rw [Spec.chunkCount, if_neg hbas, Nat.max_eq_right hw.1]
      rw [List.map_congr_left fun x hx => rootAny_within t hh.1.1 x (hw.2 x hx)]
  | .listV t n, hh, v, hw => by
    simp only [Spec.hashable, Bool.and_eq_true, Bool.not_eq_true'] at hh
    simp only [Spec.withinLimits, Bool.and_eq_true, decide_eq_true_eq, List.all_eq_true] at hw
    have hbas : ¬ Spec.isBasic t = true := by simp [hh.1.2]
    rw [Spec.rootAny, Spec.root, if_neg hbas, Spec.chunkCount, if_neg hbas, Nat.max_eq_right hw.1]
    rw [List.map_congr_left fun x hx => rootAny_within t hh.1.1 x (hw.2 x hx)]
  | .container s e ps, hh, v, hw => by
    simp only [Spec.hashable, Bool.and_eq_true] at hh
    rw [Spec.rootAny, Spec.root, Spec.chunkCount, rootAnyParts_within ps hh.1.1 v hw]
theorem rootAnyParts_within : (ps : Parts) → Spec.hashableParts ps = true → (v : ps.denote) → Spec.withinLimitsParts ps v = true →
    Spec.rootAnyParts H ps v = Spec.rootParts H ps v
  | .nil, _, _, _ => rfl
  | .cons _ t ps, hh, v, hw => by
    simp only [Spec.hashableParts, Bool.and_eq_true] at hh
    simp only [Spec.withinLimitsParts, Bool.and_eq_true] at hw
    rw [Spec.rootAnyParts, Spec.rootParts, rootAny_within t hh.1 v.1 hw.1, rootAnyParts_within ps hh.2 v.2 hw.2]
end

/-- **C15** Within the limits the two descriptions are those of C16. -/
theorem C15_within (t : Ty) (ht : Spec.hashable t = true) (v : t.denote) (hw : Spec.withinLimits t v = true) (hb : Spec.bitlistsShort t v = true) :
    Spec.roomy t v = true ∧ Spec.rootAny H t v = Spec.root H t v := ⟨roomy_within t v hw hb, rootAny_within H t ht v hw⟩

/-! ## full lists -/

/-- **C15** A list whose length is a power of two (at least 4), of more levels than the limit, never fits. -/
theorem C15_full (d limit : Nat) (h0 : 0 < limit) (h2 : 2 ≤ d) (hd : depthFor limit < d) : Spec.fits (2 ^ d) limit = false := by
  have hsz : ∀ k, k ≤ d → Spec.treeSize (2 ^ d) k = 2 ^ d - 2 ^ (d - k) := by
    intro k
    induction k with
    | zero => intro _; simp [Spec.treeSize]
    | succ k ih =>
      intro hk
      have h1 : Spec.treeSize (2 ^ d) (k + 1) = Spec.treeSize (2 ^ d) k + Spec.layerSize (2 ^ d) (k + 1) := by
        rw [Spec.treeSize, Spec.treeSize, List.range_succ, List.map_append, List.sum_append]; simp
      have h2 : 2 ^ d = 2 ^ (d - (k + 1)) * 2 ^ (k + 1) := by rw [← Nat.pow_add]; congr 1; omega
      have hp : 0 < 2 ^ (k + 1) := Nat.pow_pos (by decide)
      have h3 : Spec.layerSize (2 ^ d) (k + 1) = 2 ^ (d - (k + 1)) := by
        rw [Spec.layerSize, h2, Nat.add_sub_assoc hp, Nat.mul_comm, Nat.mul_add_div hp, Nat.div_eq_of_lt (by omega), Nat.add_zero]
      have h4 : 2 ^ (d - k) = 2 * 2 ^ (d - (k + 1)) := by
        rw [show d - k = d - (k + 1) + 1 by omega, Nat.pow_succ]; omega
      have h5 : 2 ^ (d - k) ≤ 2 ^ d := Nat.pow_le_pow_right (by decide) (by omega)
      rw [h1, ih (by omega), h3]
      omega
  have h1 := hsz d (Nat.le_refl _)
  rw [Nat.sub_self, Nat.pow_zero] at h1
  have h4 : 4 ≤ 2 ^ d := Nat.pow_le_pow_right (show 0 < 2 by decide) h2
  have h3 : ¬ (2 ^ d ≤ limit) := fun h => by
    have := (depthFor_le_iff limit (depthFor limit)).1 (Nat.le_refl _)
    have := Nat.pow_lt_pow_right (show 1 < 2 by decide) hd
    omega
  rw [Spec.fits, depthFor_two_pow, h1, decide_eq_false h3, decide_eq_false (by omega), Bool.false_or, Bool.false_or, decide_eq_false]
  omega

example : depthFor 2 < 4 ∧ depthFor 16 < 5 := by decide +kernel

/- Seventeen deposits (limit 16) are hashed, to a root that is not defined in the specification; 32 are not. -/
example : Spec.fits 17 16 = true ∧ Spec.fits 32 16 = false ∧ Spec.fits 3 2 = false ∧ Spec.fits 2 1 = true := by decide +kernel

end Mammon
