import Verif.Proofs.HashCount
import Verif.Props.Overflow
import Verif.Props.Whole
/-!
# The calls of the hasher: C68

`hashTreeE` is `hashTree` with a record of the calls of `hash_64b_blocks` and of the sizes of the node buffers (`C68_same`).
-/

namespace Mammon

open Spec (depthFor)

variable (H : Chunk → Chunk → Chunk)

/-- **C68** The record changes nothing. -/
theorem C68_same (t : Ty) (v : t.denote) : (hashTreeE H t v).out = hashTree H t v := hashTreeE_out H t v

theorem two_pow_depth (n : Nat) (hn : 1 < n) : 2 ^ depthFor n + 2 ≤ 2 * n := by
  rw [depthFor_step hn, Nat.pow_succ]
  by_cases h : n = 2
  · subst h; rw [depthFor_one]
  · have ih := two_pow_depth ((n + 1) / 2) (by omega)
    omega
termination_by n

/-- **C68** A tree over chunks: nothing for a single chunk with limit at most 1; otherwise one buffer, no larger than twice the number of chunks and 41
more, into which the nodes fit; then at most two calls for each layer, all pairs of the layer together and the last node if it is left over. The layers go to the depth of the
limit. -/
theorem C68_tree (chunks : List Chunk) (limit : BitVec 64) (hn : chunks.length ≤ 2 ^ 42) (hl : limit.toNat ≤ 2 ^ 42) (tree : List Chunk)
    (h : hashTreeOfChunks H chunks limit = .ok tree) :
    chunks.length = 1 ∧ limit.toNat ≤ 1 ∧ (hashTreeOfChunksE H chunks limit).events = [] ∨
    ¬ (chunks.length = 1 ∧ limit.toNat ≤ 1) ∧
    ∃ nodes, tree.length ≤ nodes ∧ nodes ≤ 2 * chunks.length + 41 ∧ (hashTreeOfChunksE H chunks limit).events =
      .alloc nodes :: (Spec.calls chunks.length (depthFor (max chunks.length limit.toNat))).map .call := by
  have hev := hashTreeOfChunksE_events H chunks limit hn h
  by_cases h1 : limit.toNat ≤ 1 ∧ chunks.length = 1
  · rw [if_pos h1] at hev
    exact .inl ⟨h1.2, h1.1, hev⟩
  · rw [if_neg h1] at hev
    refine .inr ⟨fun h => h1 ⟨h.2, h.1⟩, _, ?_, ?_, hev⟩
    · rw [hashTreeOfChunks_spec H chunks limit hn, if_neg h1] at h
      split at h
      · cases h
      · split at h
        · rename_i h2
          cases h
          rw [length_levels]
          exact h2.1
        · cases h
    · have hpos : 0 < chunks.length := by
        apply Nat.pos_of_ne_zero
        intro h0
        rw [hashTreeOfChunks_spec H chunks limit hn, if_neg h1, if_pos (List.eq_nil_of_length_eq_zero h0)] at h
        cases h
      have h2 : 2 ^ depthFor chunks.length + 1 ≤ 2 * chunks.length := by
        by_cases h1 : chunks.length = 1
        · rw [h1, depthFor_one]; decide
        · have := two_pow_depth chunks.length (by omega); omega
      have h3 : depthFor limit.toNat ≤ 42 := (depthFor_le_iff _ _).2 hl
      rw [bufferSize]
      by_cases h0 : limit.toNat = 0
      · simp only [if_pos h0]; rw [if_neg (by omega)]; omega
      · simp only [if_neg h0]
        split <;> omega

-- three chunks with limit 9: a buffer of 6 nodes for 5; a pair and a single node, a pair, then a single node at the heights 2 and 3
example : (hashTreeOfChunksE H threeChunks 9#64).events = [.alloc 6, .call 1, .call 1, .call 1, .call 1, .call 1] := by
  rw [hashTreeOfChunksE_events H threeChunks 9#64 (by decide)
    (hashTreeOfChunks_ok H threeChunks 9#64 (by decide) (by decide) (by decide)), if_neg (by decide)]
  decide +kernel

-- eleven chunks without limit: 5 pairs and one, 3 pairs, a pair and one, a pair
example : Spec.calls 11 (depthFor 11) = [5, 1, 3, 1, 1, 1] := by decide +kernel

/-- **C68** Every call hashes at least one block, and there are at most two per layer. -/
theorem C68_calls (n d : Nat) : (Spec.calls n d).length ≤ 2 * d ∧ ∀ k ∈ Spec.calls n d, 0 < k := by
  rw [calls_eq]
  induction d generalizing n with
  | zero => exact ⟨Nat.le_refl _, fun k h => nomatch h⟩
  | succ d ih =>
    obtain ⟨h1, h2⟩ := ih ((n + 1) / 2)
    rw [callsFrom]
    constructor
    · rw [List.length_append, layerCalls, List.length_append]
      have : (if 2 ≤ n then [n / 2] else []).length ≤ 1 := by split <;> simp
      have : (if n % 2 = 1 then [1] else []).length ≤ 1 := by split <;> simp
      omega
    · intro k hk
      rcases List.mem_append.1 hk with hk | hk
      · rw [layerCalls] at hk
        rcases List.mem_append.1 hk with hk | hk
        · split at hk
          · rw [List.mem_singleton] at hk; omega
          · cases hk
        · split at hk
          · rw [List.mem_singleton] at hk; omega
          · cases hk
      · exact h2 k hk

/-- **C68** Every node is hashed exactly once: the blocks of the calls for a tree are as many as the nodes of its layers. -/
theorem C68_once (n d : Nat) : (Spec.calls n d).sum = Spec.treeSize n d := sum_calls n d

/-- **C68** The number of blocks that `hash_tree` of an object hashes. -/
theorem C68_hashes (t : Ty) (ht : Spec.hashable t = true) (v : t.denote) (hs : Spec.listsSmall t v = true) (tree : List Chunk)
    (h : hashTree H t v = .ok tree) : Spec.blocks (hashTreeE H t v).events = Spec.hashCount t v :=
  hashTreeE_blocks H t ht v hs ((C68_same H t v).trans h)

/-- **C68** It is linear in the size of the object, and does not grow with the limits of the lists: at most 12 per byte of the encoding, and 43. -/
theorem C68_linear (t : Ty) (ht : Spec.hashable t = true) (hw : Spec.wf t = true) (v : t.denote) (hs : Spec.listsSmall t v = true) (tree : List Chunk)
    (h : hashTree H t v = .ok tree) : Spec.blocks (hashTreeE H t v).events ≤ 12 * (Spec.encode t v).length + 43 := by
  rw [C68_hashes H t ht v hs tree h]
  have := hashCount_le t ht hw v
  split at this <;> omega

/- A block body with two attester slashings. -/
example : Spec.hashable (Objects.beaconBlockBody mainnet) = true ∧ Spec.wf (Objects.beaconBlockBody mainnet) = true ∧
    Spec.listsSmall (Objects.beaconBlockBody mainnet) (Samples.body mainnet 2) = true ∧
    Spec.roomy (Objects.beaconBlockBody mainnet) (Samples.body mainnet 2) = true ∧
    Spec.hashCount (Objects.beaconBlockBody mainnet) (Samples.body mainnet 2) = 136 ∧
    (Spec.encode (Objects.beaconBlockBody mainnet) (Samples.body mainnet 2)).length = 1156 := by decide +kernel

/-- **C68** Hashing what was received takes a number of hashes linear in the number of bytes received, for every class. -/
theorem C68_received (t : Ty) (ht : InRepo t)
    (old v : t.denote) (bs : List Byte) (hb : bs.length ≤ 2 ^ 42) (hl : t.sszSize ≠ 0 → bs.length = t.sszSize)
    (h : deserialize t old bs = .ok (true, v)) (tree : List Chunk) (hok : hashTree H t v = .ok tree) :
    Spec.blocks (hashTreeE H t v).events ≤ 12 * bs.length + 43 := by
  have he := C06_length t ht.wf old v bs hl h
  have hs : Spec.listsSmall t v = true := Spec.listsSmall_decode t bs hb v (decode_of_accepted ht.wf h)
  have := C68_linear H t ht.hashable ht.wf v hs tree hok
  rwa [he] at this

example : InRepo (Objects.beaconState mainnet) ∧ (Objects.beaconState mainnet).sszSize = 0 := by
  exact ⟨⟨mainnet, by simp, ("BeaconState", Objects.beaconState mainnet), by simp [Objects.all], rfl⟩, rfl⟩

example : ("Attestation", Objects.attestation mainnet) ∈ Objects.all mainnet ∧ (Objects.attestation mainnet).sszSize = 0 := by
  exact ⟨by simp [Objects.all], rfl⟩

end Mammon
