import Verif.Proofs.Strict
import Verif.Props.Merkle
/-!
# Hashing with checked iterators: C65

`pack_and_pad` advances an iterator by 32 in every round, beyond the end of the vector when the number of bytes is not a multiple of 32. The C++ standard
leaves that undefined. `hashTreeStrict` is `hash_tree()` where it is undefined; all other theorems on hashing take the meaning compilers give it.
-/

namespace Mammon

variable (H : Chunk → Chunk → Chunk)

/-- `hash_tree_root()` with checked iterators. -/
def hashTreeRootStrict (t : Ty) (v : t.denote) : Out Chunk := (hashTreeStrict H t v).bind treeRoot

/-- **C65** The exact condition: with checked iterators hashing gives a tree exactly if everything that is packed fills whole chunks; then it is the tree
without the check. -/
theorem C65_exact (t : Ty) (v : t.denote) (tree : List Chunk) :
    hashTreeStrict H t v = .ok tree ↔ Spec.WholeChunks t v ∧ hashTree H t v = .ok tree := by
  constructor
  · intro h
    have hw := wholeChunks_of_strict H t v tree h
    exact ⟨hw, by rw [← hashTreeStrict_eq H t v hw]; exact h⟩
  · rintro ⟨hw, h⟩
    rw [hashTreeStrict_eq H t v hw]; exact h

/-- **C65** For valid objects: the root of the specification if everything that is packed fills whole chunks, and undefined behaviour otherwise.
What is missing: the root for the other objects. -/
theorem C65_root_partial (t : Ty) (ht : Spec.hashable t = true) (v : t.denote) (hl : Spec.withinLimits t v = true) (hb : Spec.bitlistsShort t v = true) :
    (Spec.WholeChunks t v → hashTreeRootStrict H t v = .ok (Spec.root H t v)) ∧ (¬ Spec.WholeChunks t v → hashTreeRootStrict H t v = .ub) := by
  constructor
  · intro hw
    rw [hashTreeRootStrict, hashTreeStrict_eq H t v hw]
    exact C16_hash_tree_root H t ht v hl hb
  · intro hw
    rcases hashTreeStrict_or H t v with h | h
    · rw [hashTreeRootStrict, h]; rfl
    · exfalso
      have hr := C16_hash_tree_root H t ht v hl hb
      rw [hashTreeRoot] at hr
      obtain ⟨u, hu, -⟩ := bind_ok' hr
      exact hw (wholeChunks_of_strict H t v u (h.trans hu))

/-! ## by class -/

mutual
/-- All values fill whole chunks. -/
def alwaysWhole : Ty → Bool
  | .uint64 => true
  | .boolean => false
  | .bytes n => 32 ∣ n
  | .bitvector n => 32 ∣ (n + 7) / 8
  | .bitlist _ => false
  | .vector t n => if Spec.isInteger t then 32 ∣ 8 * n else alwaysWhole t
  | .listF t _ => !Spec.isInteger t && alwaysWhole t
  | .listV t _ => alwaysWhole t
  | .container _ _ ps => alwaysWholeParts ps
/-- All parts. -/
def alwaysWholeParts : Parts → Bool
  | .nil => true
  | .cons _ t ps => alwaysWhole t && alwaysWholeParts ps
end

mutual
/-- No value fills whole chunks. -/
def neverWhole : Ty → Bool
  | .uint64 => false
  | .boolean => true
  | .bytes n => ¬ 32 ∣ n
  | .bitvector n => ¬ 32 ∣ (n + 7) / 8
  | .bitlist _ => false
  | .vector t n => if Spec.isInteger t then ¬ 32 ∣ 8 * n else 0 < n && neverWhole t
  | .listF _ _ => false
  | .listV _ _ => false
  | .container _ _ ps => neverWholeParts ps
/-- Some part. -/
def neverWholeParts : Parts → Bool
  | .nil => false
  | .cons _ t ps => neverWhole t || neverWholeParts ps
end

mutual
theorem alwaysWhole_sound : (t : Ty) → alwaysWhole t = true → ∀ v, Spec.WholeChunks t v
  | .uint64, _, v => by rw [Spec.WholeChunks]; trivial
  | .boolean, h, v => by simp [alwaysWhole] at h
  | .bytes n, h, v => by rw [Spec.WholeChunks]; simpa [alwaysWhole] using h
  | .bitvector n, h, v => by rw [Spec.WholeChunks]; simpa [alwaysWhole] using h
  | .bitlist _, h, v => by simp [alwaysWhole] at h
  | .vector t n, h, v => by
    rw [Spec.WholeChunks]
    rw [alwaysWhole] at h
    split
    · rename_i hi; rw [if_pos hi] at h; simpa using h
    · rename_i hi; rw [if_neg hi] at h; exact fun x _ => alwaysWhole_sound t h x
  | .listF t _, h, v => by
    rw [Spec.WholeChunks]
    simp only [alwaysWhole, Bool.and_eq_true, Bool.not_eq_true'] at h
    rw [if_neg (by rw [h.1]; exact Bool.false_ne_true)]
    exact fun x _ => alwaysWhole_sound t h.2 x
  | .listV t _, h, v => by
    rw [Spec.WholeChunks]
    rw [alwaysWhole] at h
    exact fun x _ => alwaysWhole_sound t h x
  | .container _ _ ps, h, v => by
    rw [Spec.WholeChunks]; rw [alwaysWhole] at h; exact alwaysWholeParts_sound ps h v
theorem alwaysWholeParts_sound : (ps : Parts) → alwaysWholeParts ps = true → ∀ v, Spec.WholeChunksParts ps v
  | .nil, _, v => by rw [Spec.WholeChunksParts]; trivial
  | .cons _ t ps, h, v => by
    rw [Spec.WholeChunksParts]
    rw [alwaysWholeParts, Bool.and_eq_true] at h
    exact ⟨alwaysWhole_sound t h.1 v.1, alwaysWholeParts_sound ps h.2 v.2⟩
end

mutual
theorem neverWhole_sound : (t : Ty) → neverWhole t = true → ∀ v, ¬ Spec.WholeChunks t v
  | .uint64, h, v => by simp [neverWhole] at h
  | .boolean, _, v => by rw [Spec.WholeChunks]; exact id
  | .bytes n, h, v => by rw [Spec.WholeChunks]; simpa [neverWhole] using h
  | .bitvector n, h, v => by rw [Spec.WholeChunks]; simpa [neverWhole] using h
  | .bitlist _, h, v => by simp [neverWhole] at h
  | .vector t n, h, v => by
    rw [Spec.WholeChunks]
    rw [neverWhole] at h
    split
    · rename_i hi; rw [if_pos hi] at h; simpa using h
    · rename_i hi
      rw [if_neg hi] at h
      simp only [Bool.and_eq_true, decide_eq_true_eq] at h
      intro hx
      obtain ⟨l, hl⟩ := v
      cases l with
      | nil => simp at hl; omega
      | cons x l => exact neverWhole_sound t h.2 x (hx x List.mem_cons_self)
  | .listF t _, h, v => by simp [neverWhole] at h
  | .listV t _, h, v => by simp [neverWhole] at h
  | .container _ _ ps, h, v => by
    rw [Spec.WholeChunks]; rw [neverWhole] at h; exact neverWholeParts_sound ps h v
theorem neverWholeParts_sound : (ps : Parts) → neverWholeParts ps = true → ∀ v, ¬ Spec.WholeChunksParts ps v
  | .nil, h, v => by simp [neverWholeParts] at h
  | .cons _ t ps, h, v => by
    rw [Spec.WholeChunksParts]
    rw [neverWholeParts, Bool.or_eq_true] at h
    rintro ⟨h1, h2⟩
    rcases h with h | h
    · exact neverWhole_sound t h v.1 h1
    · exact neverWholeParts_sound ps h v.2 h2
end

/-- The classes all of whose objects are hashed without a step beyond the end. -/
def wholeClasses : List String :=
  ["Checkpoint", "SigningData", "AttestationData", "Eth1Data", "BeaconBlockHeader", "VoluntaryExit", "SignedVoluntaryExit", "SignedBeaconBlockHeader",
   "ProposerSlashing"]

/-- The classes none of whose objects is. -/
def brokenClasses : List String := ["Fork", "ForkData", "DepositMessage", "DepositData", "Deposit", "Validator", "BeaconState"]

/-- The classes where it depends on the object. -/
def mixedClasses : List String :=
  ["IndexedAttestation", "PendingAttestation", "Attestation", "AttesterSlashing", "BeaconBlockBody", "BeaconBlock", "SignedBeaconBlock"]

theorem whole_table : ∀ p ∈ [mainnet, minimal], ∀ x ∈ Objects.all p, (x.1 ∈ wholeClasses → alwaysWhole x.2 = true) ∧
    (x.1 ∈ brokenClasses → neverWhole x.2 = true) ∧ (x.1 ∈ wholeClasses ∨ x.1 ∈ brokenClasses ∨ x.1 ∈ mixedClasses) := by decide +kernel

/-- **C65** Nine classes are hashed without undefined behaviour, even with checked iterators. -/
theorem C65_whole {p : Preset} (hp : p ∈ [mainnet, minimal]) {x : String × Ty} (hx : x ∈ Objects.all p) (hc : x.1 ∈ wholeClasses) (v : x.2.denote)
    (hl : Spec.withinLimits x.2 v = true) (hb : Spec.bitlistsShort x.2 v = true) : hashTreeRootStrict H x.2 v = .ok (Spec.root H x.2 v) :=
  (C65_root_partial H x.2 (C16_covered p hp x hx) v hl hb).1 (alwaysWhole_sound x.2 ((whole_table p hp x hx).1 hc) v)

/-- **C65** fails for seven classes: no object of them is hashed without the undefined step, whatever its value is. -/
theorem C65_broken {p : Preset} (hp : p ∈ [mainnet, minimal]) {x : String × Ty} (hx : x ∈ Objects.all p) (hc : x.1 ∈ brokenClasses) (v : x.2.denote)
    (hl : Spec.withinLimits x.2 v = true) (hb : Spec.bitlistsShort x.2 v = true) : hashTreeRootStrict H x.2 v = .ub :=
  (C65_root_partial H x.2 (C16_covered p hp x hx) v hl hb).2 (neverWhole_sound x.2 ((whole_table p hp x hx).2.1 hc) v)

/-! ## the classes where it depends on the object -/

mutual
/-- `WholeChunks`, to evaluate it. -/
def wholeB : (t : Ty) → t.denote → Bool
  | .uint64, _ => true
  | .boolean, _ => false
  | .bytes n, _ => 32 ∣ n
  | .bitvector n, _ => 32 ∣ (n + 7) / 8
  | .bitlist _, v => 32 ∣ ((v : List Bool).length + 7) / 8
  | .vector t n, v => if Spec.isInteger t then 32 ∣ 8 * n else v.1.all fun x => wholeB t x
  | .listF t _, v => if Spec.isInteger t then 32 ∣ 8 * (v : List t.denote).length else (v : List t.denote).all fun x => wholeB t x
  | .listV t _, v => (v : List t.denote).all fun x => wholeB t x
  | .container _ _ ps, v => wholePartsB ps v
/-- All parts. -/
def wholePartsB : (ps : Parts) → ps.denote → Bool
  | .nil, _ => true
  | .cons _ t ps, v => wholeB t v.1 && wholePartsB ps v.2
end

mutual
theorem wholeB_iff : (t : Ty) → (v : t.denote) → (wholeB t v = true ↔ Spec.WholeChunks t v)
  | .uint64, v => by simp [wholeB, Spec.WholeChunks]
  | .boolean, v => by simp [wholeB, Spec.WholeChunks]
  | .bytes n, v => by simp [wholeB, Spec.WholeChunks]
  | .bitvector n, v => by simp [wholeB, Spec.WholeChunks]
  | .bitlist _, v => by simp [wholeB, Spec.WholeChunks]
  | .vector t n, v => by
    rw [wholeB, Spec.WholeChunks]
    split
    · exact decide_eq_true_iff
    · rw [List.all_eq_true]
      exact ⟨fun h x hx => (wholeB_iff t x).1 (h x hx), fun h x hx => (wholeB_iff t x).2 (h x hx)⟩
  | .listF t _, v => by
    rw [wholeB, Spec.WholeChunks]
    split
    · exact decide_eq_true_iff
    · rw [List.all_eq_true]
      exact ⟨fun h x hx => (wholeB_iff t x).1 (h x hx), fun h x hx => (wholeB_iff t x).2 (h x hx)⟩
  | .listV t _, v => by
    rw [wholeB, Spec.WholeChunks, List.all_eq_true]
    exact ⟨fun h x hx => (wholeB_iff t x).1 (h x hx), fun h x hx => (wholeB_iff t x).2 (h x hx)⟩
  | .container _ _ ps, v => by rw [wholeB, Spec.WholeChunks]; exact wholePartsB_iff ps v
theorem wholePartsB_iff : (ps : Parts) → (v : ps.denote) → (wholePartsB ps v = true ↔ Spec.WholeChunksParts ps v)
  | .nil, v => by simp [wholePartsB, Spec.WholeChunksParts]
  | .cons _ t ps, v => by
    rw [wholePartsB, Spec.WholeChunksParts, Bool.and_eq_true, wholeB_iff t v.1, wholePartsB_iff ps v.2]
end

mutual
/-- A value with one element in each list. -/
def filled : (t : Ty) → t.denote
  | .uint64 => 7#64
  | .boolean => true
  | .bytes n => ⟨List.replicate n 9#8, List.length_replicate⟩
  | .bitvector n => ⟨List.replicate n true, List.length_replicate⟩
  | .bitlist _ => [true]
  | .vector t n => ⟨List.replicate n (filled t), List.length_replicate⟩
  | .listF t _ => [filled t]
  | .listV t _ => [filled t]
  | .container _ _ ps => filledParts ps
/-- All parts. -/
def filledParts : (ps : Parts) → ps.denote
  | .nil => ()
  | .cons _ t ps => (filled t, filledParts ps)
end

theorem mixed_table : ∀ p ∈ [mainnet, minimal], ∀ x ∈ Objects.all p, x.1 ∈ mixedClasses →
    (Spec.withinLimits x.2 x.2.dflt && Spec.bitlistsShort x.2 x.2.dflt && wholeB x.2 x.2.dflt) = true ∧
    (Spec.withinLimits x.2 (filled x.2) && Spec.bitlistsShort x.2 (filled x.2) && !wholeB x.2 (filled x.2)) = true := by decide +kernel

/-- **C65** For the other seven classes it depends on the object: the default object is hashed as specified, while there are valid objects whose hashing
is undefined. -/
theorem C65_mixed {p : Preset} (hp : p ∈ [mainnet, minimal]) {x : String × Ty} (hx : x ∈ Objects.all p) (hc : x.1 ∈ mixedClasses) :
    hashTreeRootStrict H x.2 x.2.dflt = .ok (Spec.root H x.2 x.2.dflt) ∧
    ∃ v, Spec.withinLimits x.2 v = true ∧ Spec.bitlistsShort x.2 v = true ∧ hashTreeRootStrict H x.2 v = .ub := by
  obtain ⟨h1, h2⟩ := mixed_table p hp x hx hc
  simp only [Bool.and_eq_true, Bool.not_eq_true'] at h1 h2
  refine ⟨(C65_root_partial H x.2 (C16_covered p hp x hx) _ h1.1.1 h1.1.2).1 ((wholeB_iff _ _).1 h1.2), filled x.2, h2.1.1, h2.1.2, ?_⟩
  refine (C65_root_partial H x.2 (C16_covered p hp x hx) _ h2.1.1 h2.1.2).2 fun hw => ?_
  rw [(wholeB_iff _ _).2 hw] at h2
  exact Bool.noConfusion h2.2

/-- The 23 classes: nine, seven and seven. -/
theorem C65_classes : ∀ p ∈ [mainnet, minimal], ∀ x ∈ Objects.all p, x.1 ∈ wholeClasses ∨ x.1 ∈ brokenClasses ∨ x.1 ∈ mixedClasses :=
  fun p hp x hx => (whole_table p hp x hx).2.2

/- A checkpoint; a fork; four indices and a full block of bits are fine, three indices are not. -/
example : Spec.hashable Objects.checkpoint = true ∧ Spec.withinLimits Objects.checkpoint (Samples.checkpoint 3) = true ∧
    Spec.withinLimits Objects.fork Samples.fork = true := by decide +kernel
example : Spec.WholeChunks (Objects.indexedAttestation mainnet) (Samples.indexedAttestation [1#64, 2#64, 3#64, 4#64]) :=
  (wholeB_iff _ _).1 (by decide +kernel)
example : Spec.WholeChunks (Objects.attestation mainnet) (Samples.attestation (List.replicate 256 true)) := (wholeB_iff _ _).1 (by decide +kernel)
example : ¬ Spec.WholeChunks (Objects.indexedAttestation mainnet) (Samples.indexedAttestation [1#64, 2#64, 3#64]) := fun h =>
  Bool.noConfusion (((wholeB_iff _ _).2 h).symm.trans (by decide +kernel : _ = false))

end Mammon
