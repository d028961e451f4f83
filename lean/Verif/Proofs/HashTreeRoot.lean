import Verif.Model.HashTreeRoot
import Verif.Spec.HashTreeRoot
import Verif.Spec.Classes
import Verif.Proofs.HashTree
import Verif.Proofs.Encode
import Verif.Proofs.RoundTrip
import Verif.Proofs.Offsets
/-!
# `hash_tree_root` of every class agrees with the specification
-/

namespace Mammon

open Spec (perfect padded depthFor)

variable (H : Chunk → Chunk → Chunk)

/-! ## Packing -/

theorem packChunk_eq (bs : List Byte) : (packChunk bs).1 = (List.range 32).map fun j => bs.getD j 0#8 := by
  rw [packChunk]
  apply List.ext_getElem
  · simp only [List.length_append, List.length_replicate, List.length_take, BYTES_PER_CHUNK, List.length_map, List.length_range]; omega
  · intro i h1 h2
    simp only [List.length_map, List.length_range] at h2
    rw [List.getElem_map, List.getElem_range, List.getD_eq_getElem?_getD]
    rcases Nat.lt_or_ge i bs.length with h | h
    · rw [List.getElem_append_left (by rw [List.length_take]; simp only [BYTES_PER_CHUNK]; omega), List.getElem_take, List.getElem?_eq_getElem h]
      rfl
    · rw [List.getElem_append_right (by rw [List.length_take]; simp only [BYTES_PER_CHUNK]; omega), List.getElem_replicate, List.getElem?_eq_none h]
      rfl

theorem packLoop_eq (bs : List Byte) : packLoop bs = Spec.pack bs := by
  fun_induction packLoop bs with
  | case1 => rfl
  | case2 bs h ih =>
    have hpos := List.length_pos_iff.2 h
    rw [ih, Spec.pack, Spec.pack, List.length_drop, BYTES_PER_CHUNK]
    have hc : (bs.length + 31) / 32 = (bs.length - 32 + 31) / 32 + 1 := by
      rcases Nat.lt_or_ge bs.length 32 with h' | h' <;> omega
    rw [hc]
    generalize hm : (bs.length - 32 + 31) / 32 = m
    refine Eq.symm ((congrArg (List.map _) (List.range_succ_eq_map (n := m))).trans ?_)
    rw [List.map_cons, List.map_map]
    refine Eq.symm ?_
    congr 1
    · apply Subtype.ext
      rw [packChunk_eq]
      simp only [Nat.mul_zero, Nat.zero_add]
    · apply List.map_congr_left
      intro i _
      apply Subtype.ext
      show List.map (fun j => (List.drop 32 bs).getD (32 * i + j) 0#8) (List.range 32) = List.map (fun j => bs.getD (32 * (i + 1) + j) 0#8) (List.range 32)
      apply List.map_congr_left
      intro j _
      simp only [List.getD_eq_getElem?_getD, List.getElem?_drop]
      congr 2
      omega

theorem length_pack (bs : List Byte) : (Spec.pack bs).length = (bs.length + 31) / 32 := by simp [Spec.pack]

theorem packAndPad_eq (bs : List Byte) : packAndPad bs = orZeroChunk (Spec.pack bs) := by
  rw [packAndPad, orZeroChunk, packLoop_eq]
  by_cases h : bs = []
  · subst h; rfl
  · rw [if_neg h, if_neg]
    intro h'
    have := congrArg List.length h'
    rw [length_pack] at this
    have := List.length_pos_iff.2 h
    simp at *
    omega

theorem padded_orZero (chunks : List Chunk) : padded (orZeroChunk chunks) = padded chunks := by
  rw [orZeroChunk]
  split
  · rename_i h
    subst h
    funext i
    rcases i with _ | i
    · rfl
    · rfl
  · rfl

theorem length_orZero (chunks : List Chunk) : (orZeroChunk chunks).length = max chunks.length 1 := by
  rw [orZeroChunk]
  split
  · rename_i h; subst h; rfl
  · rename_i h
    have := List.length_pos_iff.2 h
    omega

theorem depthFor_max_one (n : Nat) : depthFor (max n 1) = depthFor n := by
  rcases Nat.eq_zero_or_pos n with rfl | h
  · rw [depthFor_zero]; exact depthFor_one
  · rw [Nat.max_eq_left h]

/-! ## Roots of chunk sequences -/

/-- The outcome is a tree with the given root. -/
def HasRoot (o : Out (List Chunk)) (r : Chunk) : Prop := ∃ tree, o = .ok tree ∧ tree.getLast? = some r

/-- A possibly empty sequence of chunks with a limit (0: none); the specified root for `limit` chunks. -/
theorem orZero_root (chunks : List Chunk) (limit : BitVec 64) (k : Nat) (hn : chunks.length ≤ k) (hk : k ≤ 2 ^ 42)
    (hl : limit.toNat = 0 ∧ k = chunks.length ∨ limit.toNat = k) :
    HasRoot (hashTreeOfChunks H (orZeroChunk chunks) limit) (Spec.merkleize H chunks k) := by
  have hlen := length_orZero chunks
  have hlim : limit.toNat = 0 ∨ (orZeroChunk chunks).length ≤ limit.toNat ∧ limit.toNat ≤ 2 ^ 42 := by omega
  obtain ⟨tree, h1, h2⟩ := hashTreeOfChunks_root H (orZeroChunk chunks) limit (by omega) (by omega) hlim
  refine ⟨tree, h1, ?_⟩
  rw [h2, Spec.merkleize, Spec.merkleize, padded_orZero, hlen]
  congr 2
  rcases hl with ⟨hl, rfl⟩ | hl
  · rw [hl, Nat.max_zero, depthFor_max_one]
  · rw [hl]
    rw [show max (max chunks.length 1) k = max k 1 by omega, depthFor_max_one]

theorem bytes_root (bs : List Byte) (limit : BitVec 64) (k : Nat) (hn : (bs.length + 31) / 32 ≤ k) (hk : k ≤ 2 ^ 42)
    (hl : limit.toNat = 0 ∧ k = (bs.length + 31) / 32 ∨ limit.toNat = k) :
    HasRoot (hashTreeOfBytes H bs limit) (Spec.merkleize H (Spec.pack bs) k) := by
  rw [hashTreeOfBytes, packAndPad_eq]
  exact orZero_root H _ limit k (by rw [length_pack]; exact hn) hk (by rw [length_pack]; exact hl)

theorem chunks_root (chunks : List Chunk) (hpos : 0 < chunks.length) (hn : chunks.length ≤ 2 ^ 42) :
    HasRoot (hashTreeOfChunks H chunks 0#64) (Spec.merkleize H chunks chunks.length) := by
  have := orZero_root H chunks 0#64 chunks.length (Nat.le_refl _) hn (Or.inl ⟨rfl, rfl⟩)
  rwa [orZeroChunk, if_neg (List.length_pos_iff.1 hpos)] at this

theorem HasRoot.root {o : Out (List Chunk)} {r : Chunk} (h : HasRoot o r) : o.bind treeRoot = .ok r := by
  obtain ⟨tree, h1, h2⟩ := h
  rw [h1, Out.bind, treeRoot, h2]

theorem lengthChunk_eq (n : Nat) (hn : n < 2 ^ 64) :
    lengthChunk n = ⟨(List.range 32).map fun i => BitVec.ofNat 8 (n / 256 ^ i), by simp⟩ := by
  apply Subtype.ext
  rw [lengthChunk]
  simp only
  rw [leBytes_eq_uintLE, Spec.uintLE, show (32 : Nat) = 8 + 24 from rfl, List.range_add, List.map_append, List.map_map]
  congr 1
  apply List.ext_getElem (by simp)
  intro i h1 h2
  simp only [List.getElem_replicate, List.getElem_map, List.getElem_range, Function.comp]
  rw [Nat.div_eq_of_lt]
  exact Nat.lt_of_lt_of_le hn (by
    have : 256 ^ 8 ≤ 256 ^ (8 + i) := Nat.pow_le_pow_right (by decide) (by omega)
    exact this)

theorem HasRoot.mixIn {o : Out (List Chunk)} {r : Chunk} (h : HasRoot o r) {n : Nat} (hn : n < 2 ^ 64) :
    HasRoot (o.bind fun ht => mixIn H ht n) (Spec.mixInLength H r n) := by
  obtain ⟨tree, h1, h2⟩ := h
  refine ⟨tree ++ [H r (lengthChunk n)], ?_, ?_⟩
  · rw [h1, Out.bind, Mammon.mixIn, treeRoot, h2]; rfl
  · rw [List.getLast?_concat, lengthChunk_eq n hn]; rfl

theorem rootsLoop_eq {α : Type} (f : α → Out (List Chunk)) (g : α → Chunk) (l : List α) (h : ∀ x ∈ l, HasRoot (f x) (g x)) :
    rootsLoop f l = .ok (l.map g) := by
  induction l with
  | nil => rfl
  | cons x l ih =>
    obtain ⟨tree, h1, h2⟩ := h x (by simp)
    rw [rootsLoop, h1, Out.bind, treeRoot, h2, ih fun y hy => h y (List.mem_cons_of_mem _ hy)]
    rfl

/-! ## All types -/

theorem isBasicObject_eq {t : Ty} (h : Spec.isBoolean t = false) : isBasicObject t = Spec.isBasic t := by
  cases t <;> first | rfl | cases h

theorem eq_uint64_of_basic {t : Ty} (h : Spec.isBoolean t = false) (hb : Spec.isBasic t = true) : t = .uint64 := by
  cases t <;> first | rfl | exact absurd h (by decide) | exact absurd hb Bool.false_ne_true

theorem serialize_uint64s (l : List (BitVec 64)) : l.flatMap (serializeBytes .uint64) = (l.map fun x => Spec.encode .uint64 x).flatten := by
  rw [List.flatMap_def]
  congr 1
  apply List.map_congr_left
  intro x _
  rw [serializeBytes, Spec.encode, leBytes_eq_uintLE]

theorem length_encode_uint64s (l : List (BitVec 64)) : ((l.map fun x => Spec.encode .uint64 x).flatten).length = l.length * 8 := by
  induction l with
  | nil => rfl
  | cons x l ih =>
    rw [List.map_cons, List.flatten_cons, List.length_append, ih, Spec.encode, ← leBytes_eq_uintLE, length_leBytes, List.length_cons]
    omega

theorem bitlistBytes_eq (bits : List Bool) :
    orBitsFrom (List.replicate ((bits.length + BITS_PER_BYTE - 1) / BITS_PER_BYTE) 0#8) 0 bits = Spec.bitlistBytes bits :=
  bitvectorSerialize_eq_spec bits.length bits rfl

theorem chunk_limit (n : Nat) (hn : n ≤ 2 ^ 50) : ((BitVec.ofNat 64 n + 256#64 - 1#64) / 256#64).toNat = (n + 255) / 256 := by
  rw [BitVec.toNat_udiv, BitVec.toNat_sub, BitVec.toNat_add, BitVec.toNat_ofNat]
  simp only [BitVec.toNat_ofNat]
  rw [show 256 % 2 ^ 64 = 256 from rfl, show 1 % 2 ^ 64 = 1 from rfl]
  omega

theorem chunk_limit_basic (n : Nat) (hn : n ≤ 2 ^ 44) :
    ((BitVec.ofNat 64 n * BitVec.ofNat 64 (Ty.sszSize .uint64) + 32#64 - 1#64) / 32#64).toNat = (n * 8 + 31) / 32 := by
  rw [BitVec.toNat_udiv, BitVec.toNat_sub, BitVec.toNat_add, BitVec.toNat_mul, BitVec.toNat_ofNat]
  simp only [BitVec.toNat_ofNat, Ty.sszSize]
  rw [show 8 % 2 ^ 64 = 8 from rfl, show 32 % 2 ^ 64 = 32 from rfl, show 1 % 2 ^ 64 = 1 from rfl]
  omega

theorem length_rootParts : (ps : Parts) → (v : ps.denote) → (Spec.rootParts H ps v).length = Spec.partCount ps
  | .nil, _ => rfl
  | .cons _ t ps, v => by rw [Spec.rootParts, List.length_cons, length_rootParts ps, Spec.partCount]

mutual
theorem hashTree_root : (t : Ty) → Spec.hashable t = true → (v : t.denote) → Spec.withinLimits t v = true → Spec.bitlistsShort t v = true →
    HasRoot (hashTree H t v) (Spec.root H t v)
  | .uint64, _, v, _, _ => by
    refine ⟨[slotChunk v], rfl, ?_⟩
    rw [List.getLast?_singleton, Spec.root, Spec.encode, ← leBytes_eq_uintLE, Spec.merkleize, depthFor_one]
    congr 1
    have h1 : Spec.pack (leBytes 8 v.toNat) = packAndPad (leBytes 8 v.toNat) := by
      rw [packAndPad_eq, orZeroChunk, if_neg]
      intro h
      have := congrArg List.length h
      rw [length_pack, length_leBytes] at this
      simp at this
    rw [h1, packAndPad, if_neg (by simp [leBytes]), packLoop, if_neg (by simp [leBytes])]
    show slotChunk v = packChunk (leBytes 8 v.toNat)
    apply Subtype.ext
    have hl := length_leBytes 8 v.toNat
    rw [slotChunk, lengthChunk, packChunk]
    simp only [BYTES_PER_CHUNK]
    rw [List.take_of_length_le (by omega), hl]
  | .boolean, _, v, _, _ => by
    rw [hashTree, serialize_of_short rfl, serializeBytes_eq_encode _ rfl]
    exact bytes_root H _ _ 1 (by cases v <;> decide) (by decide) (Or.inl ⟨rfl, by cases v <;> decide⟩)
  | .bytes n, hh, v, _, _ => by
    rw [hashTree, serialize_of_short rfl]
    simp only [Spec.hashable, decide_eq_true_eq] at hh
    refine bytes_root H v.1 _ _ ?_ hh (Or.inl ⟨rfl, ?_⟩)
    · rw [v.2, Spec.chunkCount]
    · rw [v.2, Spec.chunkCount]
  | .bitvector n, hh, v, _, _ => by
    rw [hashTree, serialize_of_short rfl, serializeBytes, bitvectorSerialize_eq_spec n v.1 v.2]
    simp only [Spec.hashable, decide_eq_true_eq] at hh
    have hl : ((Spec.bitvector n v.1).length + 31) / 32 = Spec.chunkCount (.bitvector n) := by
      rw [Spec.bitvector, length_packBits, Spec.chunkCount]; omega
    exact bytes_root H _ _ _ (by rw [hl]) hh (Or.inl ⟨rfl, hl.symm⟩)
  | .bitlist n, hh, v, hw, hb => by
    simp only [Spec.hashable, decide_eq_true_eq] at hh
    simp only [Spec.withinLimits, decide_eq_true_eq] at hw
    simp only [Spec.bitlistsShort, decide_eq_true_eq] at hb
    rw [hashTree, bitlistHashTree, if_neg (by omega)]
    simp only [bitlistBytes_eq]
    rw [Spec.chunkCount] at hh
    refine HasRoot.mixIn H (bytes_root H _ _ _ ?_ hh (Or.inr (chunk_limit n (by omega)))) (by omega)
    rw [Spec.bitlistBytes, length_packBits]
    omega
  | .vector t n, hh, v, hw, hb => by
    simp only [Spec.hashable, Bool.and_eq_true, decide_eq_true_eq, Bool.not_eq_true'] at hh
    obtain ⟨⟨⟨h1, h2⟩, h3⟩, h4⟩ := hh
    rw [hashTree, isBasicObject_eq h2, Spec.root]
    by_cases hbas : Spec.isBasic t = true
    · rw [if_pos hbas, if_pos hbas]
      have := eq_uint64_of_basic h2 hbas
      subst this
      rw [serialize_of_short hb, serializeBytes_vector, serialize_uint64s]
      simp only [Spec.chunkCount, Spec.isBasic, if_true, Spec.fixedSize] at h4 ⊢
      exact bytes_root H _ _ _ (by rw [length_encode_uint64s, v.2]) h4 (Or.inl ⟨rfl, by rw [length_encode_uint64s, v.2]⟩)
    · rw [if_neg hbas, if_neg hbas]
      simp only [Spec.withinLimits, List.all_eq_true] at hw
      simp only [Spec.bitlistsShort, List.all_eq_true] at hb
      rw [rootsLoop_eq _ (fun x => Spec.root H t x) v.1 (fun x hx => hashTree_root t h1 x (hw x hx) (hb x hx)), Out.bind]
      simp only [Spec.chunkCount, if_neg hbas] at h4 ⊢
      have hlen : (v.1.map fun x => Spec.root H t x).length = n := by rw [List.length_map, v.2]
      have := chunks_root H (v.1.map fun x => Spec.root H t x) (by omega) (by omega)
      rw [hlen] at this
      split
      · rename_i hn
        subst hn
        obtain ⟨c, hc⟩ := List.length_eq_one_iff.1 hlen
        refine ⟨_, rfl, ?_⟩
        rw [hc, List.getLast?_singleton, Spec.merkleize, depthFor_one]
        rfl
      · exact this
  | .listF t n, hh, v, hw, hb => by
    simp only [Spec.hashable, Bool.and_eq_true, decide_eq_true_eq, Bool.not_eq_true'] at hh
    obtain ⟨⟨h1, h2⟩, h4⟩ := hh
    rw [hashTree, isBasicObject_eq h2, Spec.root]
    by_cases hbas : Spec.isBasic t = true
    · rw [if_pos hbas, if_pos hbas]
      have := eq_uint64_of_basic h2 hbas
      subst this
      simp only [Spec.withinLimits, Bool.and_eq_true, decide_eq_true_eq] at hw
      rw [serialize_of_short hb, serializeBytes_listF, serialize_uint64s, Out.bind]
      simp only [Spec.chunkCount, Spec.isBasic, if_true, Spec.fixedSize] at h4 ⊢
      refine HasRoot.mixIn H (bytes_root H _ _ _ ?_ h4 (Or.inr (chunk_limit_basic n (by omega)))) (by omega)
      rw [length_encode_uint64s]
      omega
    · rw [if_neg hbas, if_neg hbas]
      simp only [Spec.withinLimits, Bool.and_eq_true, decide_eq_true_eq, List.all_eq_true] at hw
      simp only [Spec.bitlistsShort, List.all_eq_true] at hb
      rw [rootsLoop_eq _ (fun x => Spec.root H t x) v (fun x hx => hashTree_root t h1 x (hw.2 x hx) (hb x hx)), Out.bind, listTree]
      simp only [Spec.chunkCount, if_neg hbas] at h4 ⊢
      refine HasRoot.mixIn H (orZero_root H _ _ _ ?_ h4 (Or.inr ?_)) (by omega)
      · rw [List.length_map]; exact hw.1
      · rw [BitVec.toNat_ofNat, Nat.mod_eq_of_lt (by omega)]
  | .listV t n, hh, v, hw, hb => by
    simp only [Spec.hashable, Bool.and_eq_true, decide_eq_true_eq, Bool.not_eq_true'] at hh
    obtain ⟨⟨h1, h2⟩, h4⟩ := hh
    have hbas : ¬ Spec.isBasic t = true := by simp [h2]
    rw [hashTree, Spec.root, if_neg hbas]
    simp only [Spec.withinLimits, Bool.and_eq_true, decide_eq_true_eq, List.all_eq_true] at hw
    simp only [Spec.bitlistsShort, List.all_eq_true] at hb
    rw [rootsLoop_eq _ (fun x => Spec.root H t x) v (fun x hx => hashTree_root t h1 x (hw.2 x hx) (hb x hx)), Out.bind, listTree]
    simp only [Spec.chunkCount, if_neg hbas] at h4 ⊢
    refine HasRoot.mixIn H (orZero_root H _ _ _ ?_ h4 (Or.inr ?_)) (by omega)
    · rw [List.length_map]; exact hw.1
    · rw [BitVec.toNat_ofNat, Nat.mod_eq_of_lt (by omega)]
  | .container s e ps, hh, v, hw, hb => by
    simp only [Spec.hashable, Bool.and_eq_true, decide_eq_true_eq, Spec.chunkCount] at hh
    obtain ⟨⟨h1, h2⟩, h3⟩ := hh
    have hp := hashTreeParts_root ps h1 v hw hb
    have hlen := length_rootParts H ps v
    rw [Spec.root, Spec.chunkCount]
    have := chunks_root H (Spec.rootParts H ps v) (by omega) (by rw [hlen]; exact of_decide_eq_true h3)
    rw [hlen] at this
    match ps, v, hp, h2, this with
    | .nil, _, _, h2, _ => simp [Spec.partCount] at h2
    | .cons name t ps, v, hp, h2, this => rw [hashTree, hp, Out.bind]; exact this

theorem hashTreeParts_root : (ps : Parts) → Spec.hashableParts ps = true → (v : ps.denote) → Spec.withinLimitsParts ps v = true →
    Spec.bitlistsShortParts ps v = true → hashTreeParts H ps v = .ok (Spec.rootParts H ps v)
  | .nil, _, _, _, _ => rfl
  | .cons _ t ps, hh, v, hw, hb => by
    simp only [Spec.hashableParts, Bool.and_eq_true] at hh
    simp only [Spec.withinLimitsParts, Bool.and_eq_true] at hw
    simp only [Spec.bitlistsShortParts, Bool.and_eq_true] at hb
    obtain ⟨tree, h1, h2⟩ := hashTree_root t hh.1 v.1 hw.1 hb.1
    rw [hashTreeParts, h1, Out.bind, treeRoot, h2, hashTreeParts_root ps hh.2 v.2 hw.2 hb.2, Spec.rootParts]
    rfl
end

end Mammon
