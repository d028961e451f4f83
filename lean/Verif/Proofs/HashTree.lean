import Verif.Proofs.Merkle
/-!
# The `HashTree` constructors
-/

namespace Mammon

open Spec (perfect padded depthFor)

variable (H : Chunk → Chunk → Chunk)

theorem out_ok_bind {α β : Type} (a : α) (f : α → Out β) : (Out.ok a).bind f = f a := rfl

theorem padded_zero (chunks : List Chunk) (j : Nat) (h : chunks.length ≤ j) : padded chunks j = Spec.zeroChunk := by
  rw [padded, List.getD_eq_getElem?_getD, List.getElem?_eq_none h]; rfl

/-- The number of levels above the chunks that `merkleize` builds. -/
def heights (n limit : Nat) : Nat := max (max 1 (depthFor n)) (depthFor limit)

theorem merkleize_spec (vec buf : List Chunk) (limit : BitVec 64) (hn : 0 < vec.length) (hd : depthFor vec.length ≤ 42) :
    merkleize H vec buf limit =
      if nodeCount vec.length (heights vec.length limit.toNat) ≤ buf.length ∧
        (max 1 (depthFor vec.length) < depthFor limit.toNat → depthFor limit.toNat ≤ 42) then
        .ok (levels H (padded vec) vec.length (heights vec.length limit.toNat))
      else .ub := by
  have hz := padded_zero vec
  have h0 : Holds H (padded vec) buf vec.length 0 := ⟨Nat.zero_le _, by simp [nodeCount, levels]⟩
  have hw := levelUp H (padded vec) vec.length 0 0 0 hz (by omega) vec buf (fun _ => getAt vec (vec.length - 1))
    (fun j hj => by
      rw [node_zero, padded, List.getD_eq_getElem?_getD, Nat.zero_add]
      rw [cnt] at hj
      rw [List.getElem?_eq_getElem hj]; rfl) (Nat.zero_le _)
    (fun buf' _ _ => by
      rw [node_zero, padded, List.getD_eq_getElem?_getD, getAt, cnt, List.getElem?_eq_getElem (by omega)]; rfl)
  have hs := h0.step H (padded vec) hw
  have hhb : (if 1 < vec.length then hashBlocks H vec (vec.length / 2) 0 0 buf else .ok buf) = hashBlocks H vec (vec.length / 2) 0 0 buf := by
    split
    · rfl
    · rw [show vec.length / 2 = 0 by omega, hashBlocks]
  simp only [cnt, zeroHashAt_lt H (show 0 < 42 by decide), out_ok_bind, Nat.zero_add] at hs
  rw [merkleize, hhb, log2ceil_eq]
  simp only
  rw [← out_bind_assoc, show zeroHash = zeroRoot H 0 from rfl]
  rw [show nodeCount vec.length (0 + 1) = (vec.length + 1) / 2 by simp [nodeCount, cnt]] at hs
  by_cases hfit : (vec.length + 1) / 2 ≤ buf.length
  · rw [if_pos hfit] at hs
    obtain ⟨buf1, h1, h2, h3⟩ := hs
    rw [h1, Out.bind]
    have hm := merkleLoop_spec H (padded vec) vec.length hn hd hz _ 0 buf1 rfl h3
    rw [show nodeCount vec.length (0 + 1) = (vec.length + 1) / 2 by simp [nodeCount, cnt], show nodeCount vec.length 0 = 0 from rfl, h2, Nat.zero_add] at hm
    by_cases hfit2 : nodeCount vec.length (max 1 (depthFor vec.length)) ≤ buf.length
    · rw [if_pos hfit2] at hm
      obtain ⟨buf2, h4, h5, h6⟩ := hm
      rw [h4, Out.bind]
      simp only
      have he := extendLoop_spec H (padded vec) vec.length (depthFor limit.toNat) hn hz _ (max 1 (depthFor vec.length) - 1) buf2 rfl
      rw [show max 1 (depthFor vec.length) - 1 + 1 = max 1 (depthFor vec.length) by omega, h5] at he
      have he := he (by omega) h6
      rw [← heights] at he
      split
      · rename_i hc
        rw [if_pos hc] at he
        obtain ⟨buf3, h7, h8, h9⟩ := he
        rw [h7, Out.bind]
        simp only
        have := h9.1
        rw [h9.2, show nodeCount vec.length (heights vec.length limit.toNat) - buf3.length = 0 by omega, List.replicate_zero, List.append_nil]
      · rename_i hc
        rw [if_neg hc] at he
        rw [he, Out.bind]
    · rw [if_neg hfit2] at hm
      rw [hm, Out.bind, if_neg]
      have := nodeCount_mono vec.length (show max 1 (depthFor vec.length) ≤ heights vec.length limit.toNat by rw [heights]; omega)
      omega
  · rw [if_neg hfit] at hs
    rw [hs, Out.bind, if_neg]
    have := nodeCount_mono vec.length (show 1 ≤ heights vec.length limit.toNat by rw [heights]; omega)
    have h1 : nodeCount vec.length 1 = (vec.length + 1) / 2 := by simp [nodeCount, cnt]
    omega

theorem bitCeilFrom_spec (n : Nat) : ∀ (fuel j : Nat), j ≤ depthFor n → depthFor n < j + fuel → bitCeilFrom n fuel (2 ^ j) = .ok (2 ^ depthFor n) := by
  intro fuel
  induction fuel with
  | zero => intro j h1 h2; omega
  | succ fuel ih =>
    intro j h1 h2
    rw [bitCeilFrom]
    by_cases h : n ≤ 2 ^ j
    · rw [if_pos h]
      have := (depthFor_le_iff n j).2 h
      rw [show j = depthFor n by omega]
    · rw [if_neg h]
      have : ¬ depthFor n ≤ j := fun h' => h ((depthFor_le_iff n j).1 h')
      have := ih (j + 1) (by omega) (by omega)
      rwa [Nat.pow_succ, Nat.mul_comm] at this

theorem bitCeil_spec {n : Nat} (h : n ≤ 2 ^ 63) : bitCeil n = .ok (2 ^ depthFor n) := by
  have := (depthFor_le_iff n 63).2 h
  exact bitCeilFrom_spec n 64 0 (Nat.zero_le _) (by omega)

theorem lt_two_pow_self (d : Nat) : d < 2 ^ d := by
  induction d with
  | zero => decide
  | succ d ih => rw [Nat.pow_succ]; omega

/-- The size of the buffer allocated for `n` chunks. -/
def bufferSize (n limit : Nat) : Nat :=
  let depth := if limit = 0 then depthFor n else depthFor limit
  max (if depth > depthFor n then depth - depthFor n + 2 ^ depthFor n else 2 ^ depthFor n - 1 - (depthFor n - depth)) 1

theorem cacheSize_eq {d e : Nat} (hd : d ≤ 64) (he : e ≤ 42) :
    cacheSize d e (2 ^ e) = if d > e then d - e + 2 ^ e else 2 ^ e - 1 - (e - d) := by
  have h1 := lt_two_pow_self e
  have h2 : 2 ^ e ≤ 2 ^ 42 := Nat.pow_le_pow_right (by decide) he
  generalize 2 ^ e = p at *
  have h3 : (((d : Int) - e + p - 1) % 2 ^ 64).toNat = d + p - 1 - e := by omega
  rw [cacheSize, h3]
  split <;> omega

theorem depthFor_two_pow (d : Nat) : depthFor (2 ^ d) = d := by
  refine Nat.le_antisymm ((depthFor_spec _).2 d (Nat.le_refl _)) ?_
  exact (Nat.pow_le_pow_iff_right (by decide : 1 < 2)).1 (depthFor_spec (2 ^ d)).1

theorem depthFor_le_64 (b : BitVec 64) : depthFor b.toNat ≤ 64 := (depthFor_le_iff _ _).2 (Nat.le_of_lt b.isLt)

/-- The outcome of building a tree over at most `2 ^ 42` chunks, for any limit. -/
theorem hashTreeOfChunks_spec (chunks : List Chunk) (limit : BitVec 64) (hn : chunks.length ≤ 2 ^ 42) :
    hashTreeOfChunks H chunks limit =
      if limit.toNat ≤ 1 ∧ chunks.length = 1 then .ok chunks
      else if chunks = [] then .throws .outOfRange
      else if nodeCount chunks.length (heights chunks.length limit.toNat) ≤ bufferSize chunks.length limit.toNat ∧
        (max 1 (depthFor chunks.length) < depthFor limit.toNat → depthFor limit.toNat ≤ 42) then
        .ok (levels H (padded chunks) chunks.length (heights chunks.length limit.toNat))
      else .ub := by
  rw [hashTreeOfChunks]
  have hl : limit ≤ 1#64 ↔ limit.toNat ≤ 1 := by rw [BitVec.le_def]; rfl
  simp only [hl]
  split
  · rfl
  · split
    · rfl
    · rename_i h1 h2
      have hpos : 0 < chunks.length := List.length_pos_iff.2 h2
      have hd : depthFor chunks.length ≤ 42 := (depthFor_le_iff _ _).2 hn
      have hnat : (BitVec.ofNat 64 chunks.length).toNat = chunks.length := by rw [BitVec.toNat_ofNat, Nat.mod_eq_of_lt]; omega
      rw [bitCeil_spec (by omega), Out.bind, log2ceil_eq, log2ceil_eq, hnat]
      have h0 : limit = 0#64 ↔ limit.toNat = 0 := by rw [← BitVec.toNat_inj]; rfl
      simp only [h0]
      by_cases hz : limit.toNat = 0
      · simp only [hz, if_true]
        have hpow : 2 ^ depthFor chunks.length ≤ 2 ^ 42 := Nat.pow_le_pow_right (by decide) hd
        have hlim : (BitVec.ofNat 64 (2 ^ depthFor chunks.length)).toNat = 2 ^ depthFor chunks.length := by
          rw [BitVec.toNat_ofNat, Nat.mod_eq_of_lt]; omega
        rw [merkleize_spec H _ _ _ hpos hd, hlim, depthFor_two_pow, List.length_replicate, cacheSize_eq (by omega) hd]
        have hh : heights chunks.length (2 ^ depthFor chunks.length) = heights chunks.length 0 := by
          have : depthFor 0 = 0 := by rw [depthFor]; rfl
          rw [heights, heights, depthFor_two_pow, this]; omega
        have h00 : depthFor 0 = 0 := by rw [depthFor]; rfl
        simp only [hh, bufferSize, if_true, h00, Nat.lt_irrefl, if_false, gt_iff_lt, Nat.sub_self, Nat.sub_zero]
        have e1 : ¬ (max 1 (depthFor chunks.length) < depthFor chunks.length) := by omega
        have e2 : ¬ (max 1 (depthFor chunks.length) < 0) := by omega
        simp only [e1, e2, false_implies, and_true]
      · simp only [hz, if_false]
        rw [merkleize_spec H _ _ _ hpos hd, List.length_replicate, cacheSize_eq (depthFor_le_64 _) hd]
        simp only [bufferSize, hz, if_false]

/-- The levels of a perfect tree of `2 ^ d` leaves have `2 ^ d - 1` nodes; fewer leaves, fewer nodes. -/
theorem nodeCount_le {n d : Nat} (hn : n ≤ 2 ^ d) : ∀ h, h ≤ d → nodeCount n h + 2 ^ (d - h) ≤ 2 ^ d := by
  intro h
  induction h with
  | zero => intro _; simp [nodeCount]
  | succ h ih =>
    intro hd
    have h1 := ih (by omega)
    have h2 := cnt_le_pow hn (h + 1) hd
    rw [show d - h = (d - (h + 1)) + 1 by omega, Nat.pow_succ] at h1
    rw [nodeCount]
    omega

theorem nodeCount_extend {n : Nat} (hn : 0 < n) (d : Nat) (hd : depthFor n ≤ d) : nodeCount n d = nodeCount n (depthFor n) + (d - depthFor n) := by
  induction d with
  | zero => rw [show depthFor n = 0 by omega]; rfl
  | succ d ih =>
    rcases Nat.eq_or_lt_of_le hd with h | h
    · rw [← h]; omega
    · rw [nodeCount, ih (by omega), cnt_one hn (depthFor_spec n).1 (by omega)]
      omega

theorem depthFor_mono {a b : Nat} (h : a ≤ b) : depthFor a ≤ depthFor b :=
  (depthFor_le_iff _ _).2 (Nat.le_trans h (depthFor_spec b).1)

theorem depthFor_one : depthFor 1 = 0 := by rw [depthFor]; rfl

theorem depthFor_zero : depthFor 0 = 0 := by rw [depthFor]; rfl

theorem one_lt_of_depth {n : Nat} (h : depthFor n = 0) : n ≤ 1 := by
  have := (depthFor_le_iff n 0).1 (by omega)
  simpa using this

theorem fits (n limit : Nat) (hn : 0 < n) (hl : limit = 0 ∨ n ≤ limit) (hne : ¬ (limit ≤ 1 ∧ n = 1)) :
    nodeCount n (heights n limit) ≤ bufferSize n limit := by
  have h1 := nodeCount_le (depthFor_spec n).1 (depthFor n) (Nat.le_refl _)
  rw [Nat.sub_self, Nat.pow_zero] at h1
  have h2 := nodeCount_extend hn (heights n limit) (by rw [heights]; omega)
  rw [h2, bufferSize]
  by_cases hz : limit = 0
  · subst hz
    have hd0 : depthFor n ≠ 0 := fun h => hne ⟨by omega, by have := one_lt_of_depth h; omega⟩
    rw [heights, depthFor_zero]
    simp only [if_true, Nat.lt_irrefl, if_false, gt_iff_lt, Nat.sub_self, Nat.sub_zero]
    omega
  · have hm := depthFor_mono (hl.resolve_left hz)
    rw [if_neg hz, heights]
    by_cases hd0 : depthFor n = 0
    · have : n = 1 := by have := one_lt_of_depth hd0; omega
      have hl1 : ¬ limit ≤ 1 := fun h => hne ⟨h, this⟩
      have : depthFor limit ≠ 0 := fun h => hl1 (one_lt_of_depth h)
      rw [hd0] at *
      rw [if_pos (by omega)]
      simp only [Nat.pow_zero, nodeCount] at *
      omega
    · split <;> omega

/-- The tree of at least one and at most `2 ^ 42` chunks with a limit that is 0 or in between. -/
theorem hashTreeOfChunks_ok (chunks : List Chunk) (limit : BitVec 64) (hpos : 0 < chunks.length) (hn : chunks.length ≤ 2 ^ 42)
    (hl : limit.toNat = 0 ∨ chunks.length ≤ limit.toNat ∧ limit.toNat ≤ 2 ^ 42) :
    hashTreeOfChunks H chunks limit =
      .ok (if limit.toNat ≤ 1 ∧ chunks.length = 1 then chunks
        else levels H (padded chunks) chunks.length (depthFor (max chunks.length limit.toNat))) := by
  rw [hashTreeOfChunks_spec H chunks limit hn]
  split
  · rfl
  · rename_i hne
    rw [if_neg (List.length_pos_iff.1 hpos), if_pos]
    · congr 2
      rw [heights]
      have hd0 : depthFor (max chunks.length limit.toNat) ≠ 0 := by
        intro h
        have := one_lt_of_depth h
        exact hne (by omega)
      rcases hl with hl | hl
      · rw [hl, Nat.max_zero] at hd0 ⊢
        rw [depthFor_zero]; omega
      · have := depthFor_mono hl.1
        rw [Nat.max_eq_right hl.1] at hd0 ⊢
        omega
    · refine ⟨fits _ _ hpos (by rcases hl with h | h; exact Or.inl h; exact Or.inr h.1) hne, fun _ => ?_⟩
      rcases hl with hl | hl
      · rw [hl, depthFor_zero]; omega
      · exact (depthFor_le_iff _ _).2 hl.2

theorem getLast_levels (leaf : Nat → Chunk) (n d : Nat) (hn : 0 < n) (hd : depthFor n ≤ d) (hd0 : 0 < d) :
    (levels H leaf n d).getLast? = some (perfect H d leaf) := by
  obtain ⟨d, rfl⟩ : ∃ e, d = e + 1 := ⟨d - 1, by omega⟩
  have h1 : cnt n (d + 1) = 1 := cnt_one hn (depthFor_spec n).1 hd
  rw [levels, level, h1, show List.range 1 = [0] from rfl, List.map_singleton, List.getLast?_concat, node_top]

/-- The root of that tree. -/
theorem hashTreeOfChunks_root (chunks : List Chunk) (limit : BitVec 64) (hpos : 0 < chunks.length) (hn : chunks.length ≤ 2 ^ 42)
    (hl : limit.toNat = 0 ∨ chunks.length ≤ limit.toNat ∧ limit.toNat ≤ 2 ^ 42) :
    ∃ tree, hashTreeOfChunks H chunks limit = .ok tree ∧
      tree.getLast? = some (Spec.merkleize H chunks (max chunks.length limit.toNat)) := by
  refine ⟨_, hashTreeOfChunks_ok H chunks limit hpos hn hl, ?_⟩
  split
  · rename_i h
    obtain ⟨c, hc⟩ := List.length_eq_one_iff.1 h.2
    have h1 : depthFor (max [c].length limit.toNat) = 0 := by
      rw [List.length_singleton]
      rcases Nat.lt_or_ge limit.toNat 1 with h' | h'
      · rw [Nat.max_eq_left (by omega), depthFor_one]
      · rw [show limit.toNat = 1 by omega, Nat.max_self, depthFor_one]
    rw [hc, Spec.merkleize, h1]
    rfl
  · rename_i hne
    rw [Spec.merkleize, getLast_levels H _ _ _ hpos (depthFor_mono (by omega))]
    apply Nat.pos_of_ne_zero
    intro h
    have := one_lt_of_depth h
    exact hne (by omega)

theorem cnt_eq (n h : Nat) : cnt n h = Spec.layerSize n h := by
  rw [Spec.layerSize]
  have hp : ∀ k, 0 < 2 ^ k := fun k => Nat.pow_pos (by decide)
  induction h with
  | zero => simp [cnt]
  | succ h ih =>
    rw [cnt, ih, Nat.pow_succ, ← Nat.div_div_eq_div_mul]
    congr 1
    have := hp h
    rw [← Nat.add_div_right _ this]
    congr 1
    omega

theorem nodeCount_eq (n d : Nat) : nodeCount n d = Spec.treeSize n d := by
  rw [Spec.treeSize]
  induction d with
  | zero => rfl
  | succ d ih => rw [nodeCount, ih, cnt_eq, List.range_succ, List.map_append, List.sum_append]; simp

theorem levels_eq (chunks : List Chunk) (d : Nat) : levels H (padded chunks) chunks.length d = Spec.layers H chunks d := by
  rw [Spec.layers]
  induction d with
  | zero => rfl
  | succ d ih =>
    rw [levels, ih, List.range_succ, List.flatMap_append, level, cnt_eq]
    simp only [List.flatMap_cons, List.flatMap_nil, List.append_nil]
    rfl

theorem length_layers (chunks : List Chunk) (d : Nat) : (Spec.layers H chunks d).length = Spec.treeSize chunks.length d := by
  rw [← levels_eq, length_levels, nodeCount_eq]

end Mammon
