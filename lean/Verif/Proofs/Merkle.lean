import Verif.Model.HashTree
import Verif.Spec.Merkle
import Verif.Proofs.Math
import Verif.Proofs.LE
/-!
# The tree built by `merkleize`: levels of a perfect tree
-/

namespace Mammon

open Spec (perfect padded depthFor)

variable (H : Chunk → Chunk → Chunk)

theorem zeroHash_eq : zeroHash = Spec.zeroChunk := rfl

/-! ## Zero subtrees -/

/-- The root of a perfect tree of zero chunks. -/
def zeroRoot (h : Nat) : Chunk := perfect H h fun _ => Spec.zeroChunk

theorem zeroRoot_succ (h : Nat) : zeroRoot H (h + 1) = H (zeroRoot H h) (zeroRoot H h) := rfl

theorem length_zeroHashesFrom (c : Chunk) (k : Nat) : (zeroHashesFrom H c k).length = k := by
  induction k generalizing c with
  | zero => rfl
  | succ k ih => simp [zeroHashesFrom, ih]

theorem zeroHashesFrom_get (k i j : Nat) (h : i < k) : (zeroHashesFrom H (zeroRoot H j) k)[i]? = some (zeroRoot H (j + i)) := by
  induction k generalizing i j with
  | zero => omega
  | succ k ih =>
    rcases i with _ | i
    · simp [zeroHashesFrom]
    · rw [zeroHashesFrom, List.getElem?_cons_succ, ← zeroRoot_succ H, ih _ _ (by omega)]
      congr 2
      omega

theorem zeroHashAt_lt {h : Nat} (hh : h < 42) : zeroHashAt H h = .ok (zeroRoot H h) := by
  have := zeroHashesFrom_get H 42 h 0 hh
  rw [Nat.zero_add] at this
  rw [zeroHashAt, zeroHashArray, show zeroHash = zeroRoot H 0 from rfl, this]

theorem zeroHashAt_ge {h : Nat} (hh : 42 ≤ h) : zeroHashAt H h = .ub := by
  rw [zeroHashAt, zeroHashArray, List.getElem?_eq_none (by rw [length_zeroHashesFrom]; exact hh)]

/-! ## Nodes and levels -/

variable (leaf : Nat → Chunk)

/-- Node number `i` at height `h` of the tree over the leaves. -/
def node (h i : Nat) : Chunk := perfect H h fun j => leaf (i * 2 ^ h + j)

theorem node_zero (i : Nat) : node H leaf 0 i = leaf i := by simp [node, perfect]

theorem node_succ (h i : Nat) : node H leaf (h + 1) i = H (node H leaf h (2 * i)) (node H leaf h (2 * i + 1)) := by
  rw [node, perfect, node, node]
  have h1 : i * 2 ^ (h + 1) = 2 * i * 2 ^ h := by rw [Nat.pow_succ]; ac_rfl
  congr 3
  · rw [h1]
  · funext j
    congr 1
    rw [h1, Nat.add_mul, Nat.one_mul]
    omega

theorem node_top (h : Nat) : node H leaf h 0 = perfect H h leaf := by simp [node]

theorem node_of_zero {n h i : Nat} (hz : ∀ j, n ≤ j → leaf j = Spec.zeroChunk) (hi : n ≤ i * 2 ^ h) : node H leaf h i = zeroRoot H h := by
  rw [node, zeroRoot]
  congr 1
  funext j
  exact hz _ (by omega)

/-- Number of nodes at height `h` over `n` leaves: `n / 2 ^ h` rounded up. -/
def cnt (n : Nat) : Nat → Nat
  | 0 => n
  | h + 1 => (cnt n h + 1) / 2

theorem le_cnt (n h : Nat) : n ≤ cnt n h * 2 ^ h := by
  induction h with
  | zero => simp [cnt]
  | succ h ih =>
    rw [cnt, Nat.pow_succ, ← Nat.mul_assoc, Nat.mul_right_comm]
    refine Nat.le_trans ih (Nat.mul_le_mul_right _ ?_)
    omega

theorem cnt_pos {n : Nat} (hn : 0 < n) (h : Nat) : 0 < cnt n h := by
  induction h with
  | zero => exact hn
  | succ h ih => rw [cnt]; omega

theorem cnt_le_pow {n d : Nat} (hn : n ≤ 2 ^ d) : ∀ h, h ≤ d → cnt n h ≤ 2 ^ (d - h) := by
  intro h
  induction h with
  | zero => intro _; exact hn
  | succ h ih =>
    intro hd
    have := ih (by omega)
    rw [show d - h = (d - (h + 1)) + 1 by omega, Nat.pow_succ] at this
    rw [cnt]
    omega

theorem cnt_one {n d h : Nat} (hn0 : 0 < n) (hn : n ≤ 2 ^ d) (hd : d ≤ h) : cnt n h = 1 := by
  induction h with
  | zero =>
    have : d = 0 := by omega
    subst this
    simp at hn
    show n = 1
    omega
  | succ h ih =>
    rcases Nat.lt_or_ge h d with h1 | h1
    · have := cnt_le_pow hn (h + 1) (by omega)
      rw [show d - (h + 1) = 0 by omega] at this
      have := cnt_pos hn0 (h + 1)
      simp at *
      omega
    · rw [cnt, ih h1]

theorem depthFor_spec (n : Nat) : n ≤ 2 ^ depthFor n ∧ ∀ d, n ≤ 2 ^ d → depthFor n ≤ d := by
  induction n using Nat.strongRecOn with
  | ind n ih =>
    rw [depthFor]
    split
    · rename_i h; exact ⟨by simpa using h, fun d _ => Nat.zero_le _⟩
    · rename_i h
      obtain ⟨h1, h2⟩ := ih ((n + 1) / 2) (by omega)
      rw [Nat.pow_succ]
      refine ⟨by omega, fun d hd => ?_⟩
      rcases d with _ | d
      · simp at hd; omega
      · rw [Nat.pow_succ] at hd
        have := h2 d (by omega)
        omega

theorem depthFor_le_iff (n d : Nat) : depthFor n ≤ d ↔ n ≤ 2 ^ d :=
  ⟨fun h => Nat.le_trans (depthFor_spec n).1 (Nat.pow_le_pow_right (by decide) h), (depthFor_spec n).2 d⟩

theorem log2ceil_eq (n : BitVec 64) : log2ceil 64 n = depthFor n.toNat :=
  Nat.le_antisymm ((log2ceil_spec 64 n).2 _ (depthFor_spec _).1) ((depthFor_spec _).2 _ (log2ceil_spec 64 n).1)

theorem cnt_gt_one {n h : Nat} (h' : 1 < cnt n h) : h < depthFor n := by
  apply Classical.byContradiction
  intro hge
  rcases Nat.eq_zero_or_pos n with rfl | hn
  · have : ∀ h, cnt 0 h = 0 := by
      intro h
      induction h with
      | zero => rfl
      | succ h ih => rw [cnt, ih]
    rw [this] at h'
    omega
  · have := cnt_one hn (depthFor_spec n).1 (Nat.le_of_not_lt hge)
    omega

theorem cnt_of_lt_depth {n h : Nat} (h' : h < depthFor n) : 1 < cnt n h := by
  apply Classical.byContradiction
  intro hle
  have h1 := le_cnt n h
  have : cnt n h * 2 ^ h ≤ 1 * 2 ^ h := Nat.mul_le_mul_right _ (by omega)
  have := (depthFor_le_iff n h).2 (by omega)
  omega

/-- The nodes at height `h`, left to right, up to the last one over some of the first `n` leaves. -/
def level (n h : Nat) : List Chunk := (List.range (cnt n h)).map (node H leaf h)

theorem length_level (n h : Nat) : (level H leaf n h).length = cnt n h := by simp [level]

/-- The levels from height 1 to `h`. -/
def levels (n : Nat) : Nat → List Chunk
  | 0 => []
  | h + 1 => levels n h ++ level H leaf n (h + 1)

/-- The number of nodes in `levels`. -/
def nodeCount (n : Nat) : Nat → Nat
  | 0 => 0
  | h + 1 => nodeCount n h + cnt n (h + 1)

theorem length_levels (n h : Nat) : (levels H leaf n h).length = nodeCount n h := by
  induction h with
  | zero => rfl
  | succ h ih => rw [levels, List.length_append, ih, length_level, nodeCount]

theorem nodeCount_mono (n : Nat) {a b : Nat} (h : a ≤ b) : nodeCount n a ≤ nodeCount n b := by
  induction b with
  | zero => rw [Nat.le_zero.1 h]
  | succ b ih =>
    rcases Nat.eq_or_lt_of_le h with rfl | h
    · exact Nat.le_refl _
    · have := ih (by omega)
      rw [nodeCount]; omega

/-! ## The block hasher -/

theorem hashBlocks_spec (src : List Chunk) : ∀ (k di si : Nat) (dst : List Chunk) (f : Nat → Chunk),
    (∀ j, j < 2 * k → src[si + j]? = some (f j)) → di ≤ dst.length →
    hashBlocks H src k di si dst = if di + k ≤ dst.length then
      .ok (dst.take di ++ ((List.range k).map (fun j => H (f (2 * j)) (f (2 * j + 1))) ++ dst.drop (di + k))) else .ub := by
  intro k
  induction k with
  | zero =>
    intro di si dst f _ hd
    rw [hashBlocks, if_pos (by omega)]
    simp
  | succ k ih =>
    intro di si dst f hf hd
    have h0 := hf 0 (by omega)
    have h1 := hf 1 (by omega)
    rw [Nat.add_zero] at h0
    rw [hashBlocks, h0, h1]
    simp only
    split
    · rename_i hlt
      rw [ih (di + 1) (si + 2) _ (fun j => f (j + 2)) (fun j hj => by rw [Nat.add_assoc, Nat.add_comm 2]; exact hf (j + 2) (by omega))
        (by rw [List.length_set]; omega), List.length_set]
      by_cases hfit : di + 1 + k ≤ dst.length
      · rw [if_pos hfit, if_pos (by omega)]
        congr 1
        rw [List.range_succ_eq_map, List.map_cons, List.map_map, List.take_set, List.drop_set_of_lt (by omega),
          List.take_add_one, List.getElem?_eq_getElem hlt, Option.toList_some,
          List.set_append_right _ _ (by rw [List.length_take]; omega), List.length_take, Nat.min_eq_left (by omega), Nat.sub_self, List.set_cons_zero]
        rw [show di + 1 + k = di + (k + 1) by omega, List.append_assoc]
        congr 1
      · rw [if_neg hfit, if_neg (by omega)]
    · rename_i hge
      rw [if_neg (by omega)]

/-! ## Going up one level -/

theorem level_even {n h : Nat} (he : cnt n h % 2 = 0) :
    level H leaf n (h + 1) = (List.range (cnt n h / 2)).map fun j => H (node H leaf h (2 * j)) (node H leaf h (2 * j + 1)) := by
  rw [level, cnt, show (cnt n h + 1) / 2 = cnt n h / 2 by omega]
  exact List.map_congr_left fun j _ => node_succ H leaf h j

theorem level_odd {n h : Nat} (hz : ∀ j, n ≤ j → leaf j = Spec.zeroChunk) (ho : cnt n h % 2 = 1) :
    level H leaf n (h + 1) = ((List.range (cnt n h / 2)).map fun j => H (node H leaf h (2 * j)) (node H leaf h (2 * j + 1))) ++
      [H (node H leaf h (cnt n h - 1)) (zeroRoot H h)] := by
  rw [level, cnt, show (cnt n h + 1) / 2 = cnt n h / 2 + 1 by omega, List.range_succ, List.map_append]
  congr 1
  · exact List.map_congr_left fun j _ => node_succ H leaf h j
  · rw [List.map_singleton, node_succ, show 2 * (cnt n h / 2) = cnt n h - 1 by omega, show cnt n h - 1 + 1 = cnt n h by omega,
      node_of_zero H leaf hz (le_cnt n h)]

/-- The outcome of writing the list `new` at index `i` of a buffer that ends up with the old contents before it. -/
def Writes (o : Out (List Chunk)) (buf : List Chunk) (i : Nat) (new : List Chunk) : Prop :=
  if i + new.length ≤ buf.length then ∃ buf', o = .ok buf' ∧ buf'.length = buf.length ∧ buf'.take (i + new.length) = buf.take i ++ new
  else o = .ub

/-- One level: `k` blocks are hashed and, for an odd number of nodes, the last node is combined with a zero subtree. -/
theorem levelUp (n h si di : Nat) (hz : ∀ j, n ≤ j → leaf j = Spec.zeroChunk) (hh : h < 42) (src buf : List Chunk)
    (get : List Chunk → Out Chunk)
    (hsrc : ∀ j, j < cnt n h → src[si + j]? = some (node H leaf h j)) (hdi : di ≤ buf.length)
    (hget : ∀ buf' : List Chunk, buf'.take di = buf.take di → cnt n h % 2 = 1 → get buf' = .ok (node H leaf h (cnt n h - 1))) :
    Writes ((hashBlocks H src (cnt n h / 2) di si buf).bind fun buf =>
      if cnt n h % 2 = 1 then
        (zeroHashAt H h).bind fun z => (get buf).bind fun c => setAt buf (di + (cnt n h + 1) / 2 - 1) (H c z)
      else .ok buf) buf di (level H leaf n (h + 1)) := by
  rw [hashBlocks_spec H src (cnt n h / 2) di si buf (node H leaf h) (fun j hj => hsrc j (by omega)) hdi]
  by_cases ho : cnt n h % 2 = 1
  · have hlen : (level H leaf n (h + 1)).length = cnt n h / 2 + 1 := by rw [length_level, cnt]; omega
    by_cases hfit : di + cnt n h / 2 ≤ buf.length
    · rw [if_pos hfit, Out.bind, if_pos ho, zeroHashAt_lt H hh, Out.bind, hget _ (by
        rw [List.take_append_of_le_length (by rw [List.length_take]; omega), List.take_take, Nat.min_self]) ho, Out.bind, setAt]
      generalize hb : List.take di buf ++ _ = buf1
      have hl1 : buf1.length = buf.length := by rw [← hb]; simp; omega
      rw [Writes, hlen]
      by_cases hfit' : di + (cnt n h / 2 + 1) ≤ buf.length
      · rw [if_pos (by omega), if_pos (by omega)]
        refine ⟨_, rfl, by simp [hl1], ?_⟩
        rw [level_odd H leaf hz ho, show di + (cnt n h + 1) / 2 - 1 = di + cnt n h / 2 by omega]
        have hlt : di + cnt n h / 2 < buf1.length := by omega
        rw [List.take_set, show di + (cnt n h / 2 + 1) = di + cnt n h / 2 + 1 by omega, List.take_add_one, List.getElem?_eq_getElem hlt,
          Option.toList_some, List.set_append_right _ _ (by rw [List.length_take]; omega), List.length_take, Nat.min_eq_left (by omega),
          Nat.sub_self, List.set_cons_zero, ← List.append_assoc]
        congr 1
        rw [← hb, ← List.append_assoc, List.take_left' (by simp; omega)]
      · rw [if_neg (by omega), if_neg (by omega)]
    · rw [if_neg hfit, Out.bind, Writes, hlen, if_neg (by omega)]
  · have hlen : (level H leaf n (h + 1)).length = cnt n h / 2 := by rw [length_level, cnt]; omega
    rw [Writes, hlen]
    by_cases hfit : di + cnt n h / 2 ≤ buf.length
    · rw [if_pos hfit, if_pos hfit, Out.bind, if_neg ho]
      refine ⟨_, rfl, by simp; omega, ?_⟩
      rw [level_even H leaf (by omega), ← List.append_assoc, List.take_left' (by simp; omega)]
    · rw [if_neg hfit, if_neg hfit, Out.bind]

/-- The state of the buffer when the levels up to height `h` are complete. -/
def Holds (buf : List Chunk) (n h : Nat) : Prop := nodeCount n h ≤ buf.length ∧ buf.take (nodeCount n h) = levels H leaf n h

theorem Holds.get {buf : List Chunk} {n h j : Nat} (hb : Holds H leaf buf n (h + 1)) (hj : j < cnt n (h + 1)) :
    buf[nodeCount n h + j]? = some (node H leaf (h + 1) j) := by
  have h1 : buf[nodeCount n h + j]? = (buf.take (nodeCount n (h + 1)))[nodeCount n h + j]? := by
    rw [List.getElem?_take_of_lt]; rw [nodeCount]; omega
  rw [h1, hb.2, levels, List.getElem?_append_right (by rw [length_levels]; omega), length_levels, Nat.add_sub_cancel_left, level,
    List.getElem?_map, List.getElem?_range hj]
  rfl

/-- A level written behind complete levels. -/
theorem Holds.step {buf : List Chunk} {o : Out (List Chunk)} {n h : Nat} (hb : Holds H leaf buf n h)
    (hw : Writes o buf (nodeCount n h) (level H leaf n (h + 1))) :
    if nodeCount n (h + 1) ≤ buf.length then ∃ buf', o = .ok buf' ∧ buf'.length = buf.length ∧ Holds H leaf buf' n (h + 1) else o = .ub := by
  rw [Writes, length_level] at hw
  rw [nodeCount]
  split
  · rename_i hle
    rw [if_pos hle] at hw
    obtain ⟨buf', h1, h2, h3⟩ := hw
    refine ⟨buf', h1, h2, by rw [nodeCount, h2]; exact hle, ?_⟩
    rw [nodeCount, h3, hb.2, levels]
  · rename_i hle
    rwa [if_neg hle] at hw

theorem out_bind_assoc {α β γ : Type} (o : Out α) (f : α → Out β) (g : β → Out γ) : (o.bind f).bind g = o.bind fun a => (f a).bind g := by
  cases o <;> rfl

theorem merkleLoop_spec (n : Nat) (hn : 0 < n) (hd : depthFor n ≤ 42) (hz : ∀ j, n ≤ j → leaf j = Spec.zeroChunk) :
    ∀ (k h : Nat) (buf : List Chunk), depthFor n - (h + 1) = k → Holds H leaf buf n (h + 1) →
    if nodeCount n (max (h + 1) (depthFor n)) ≤ buf.length then
      ∃ buf', merkleLoop H buf (nodeCount n h) (nodeCount n (h + 1)) (h + 1) =
          .ok (buf', nodeCount n (max (h + 1) (depthFor n)), max (h + 1) (depthFor n)) ∧
        buf'.length = buf.length ∧ Holds H leaf buf' n (max (h + 1) (depthFor n))
    else merkleLoop H buf (nodeCount n h) (nodeCount n (h + 1)) (h + 1) = .ub := by
  intro k
  induction k with
  | zero =>
    intro h buf hk hb
    rw [Nat.max_eq_left (by omega)]
    have hc : cnt n (h + 1) = 1 := cnt_one hn (depthFor_spec n).1 (by omega)
    rw [if_pos hb.1]
    refine ⟨buf, ?_, rfl, hb⟩
    rw [merkleLoop, if_neg (by rw [nodeCount]; omega)]
  | succ k ih =>
    intro h buf hk hb
    have hc : 1 < cnt n (h + 1) := cnt_of_lt_depth (by omega)
    have hlen := hb.1
    have hdist : nodeCount n (h + 1) - nodeCount n h = cnt n (h + 1) := by rw [nodeCount]; omega
    have hw := levelUp H leaf n (h + 1) (nodeCount n h) (nodeCount n (h + 1)) hz (by omega) buf buf
      (fun buf' => getAt buf' (nodeCount n (h + 1) - 1)) (fun j hj => hb.get H leaf hj) hb.1 (fun buf' ht _ => by
        have hb' : Holds H leaf buf' n (h + 1) := by
          refine ⟨?_, ht.trans hb.2⟩
          have := congrArg List.length ht
          rw [List.length_take, List.length_take] at this
          omega
        rw [getAt, show nodeCount n (h + 1) - 1 = nodeCount n h + (cnt n (h + 1) - 1) by rw [nodeCount]; omega, hb'.get H leaf (by omega)])
    have hs := hb.step H leaf hw
    rw [merkleLoop]
    simp only [hdist]
    rw [if_pos hc, hashBlocksInPlace, if_pos (Or.inl (by rw [nodeCount]; omega)), ← out_bind_assoc]
    have hlast : nodeCount n (h + 1) + (cnt n (h + 1) + 1) / 2 = nodeCount n (h + 2) := rfl
    rw [show max (h + 1) (depthFor n) = max (h + 1 + 1) (depthFor n) by omega]
    by_cases hfit : nodeCount n (h + 1 + 1) ≤ buf.length
    · rw [if_pos hfit] at hs
      obtain ⟨buf1, h1, h2, h3⟩ := hs
      rw [h1, Out.bind, hlast]
      have := ih (h + 1) buf1 (by omega) h3
      rw [h2] at this
      exact this
    · rw [if_neg hfit] at hs
      have := nodeCount_mono n (show h + 1 + 1 ≤ max (h + 1 + 1) (depthFor n) by omega)
      rw [if_neg (by omega), hs]
      rfl

theorem extendLoop_spec (n depth : Nat) (hn : 0 < n) (hz : ∀ j, n ≤ j → leaf j = Spec.zeroChunk) :
    ∀ (k h : Nat) (buf : List Chunk), depth - (h + 1) = k → depthFor n ≤ h + 1 → Holds H leaf buf n (h + 1) →
    if nodeCount n (max (h + 1) depth) ≤ buf.length ∧ (h + 1 < depth → depth ≤ 42) then
      ∃ buf', extendLoop H depth buf (nodeCount n (h + 1)) (h + 1) = .ok (buf', nodeCount n (max (h + 1) depth)) ∧
        buf'.length = buf.length ∧ Holds H leaf buf' n (max (h + 1) depth)
    else extendLoop H depth buf (nodeCount n (h + 1)) (h + 1) = .ub := by
  intro k
  induction k with
  | zero =>
    intro h buf hk hd hb
    rw [Nat.max_eq_left (by omega), if_pos ⟨hb.1, by omega⟩, extendLoop, if_neg (by omega)]
    exact ⟨buf, rfl, rfl, hb⟩
  | succ k ih =>
    intro h buf hk hd hb
    have hc : cnt n (h + 1) = 1 := cnt_one hn (depthFor_spec n).1 (by omega)
    have hc2 : cnt n (h + 1 + 1) = 1 := by rw [cnt, hc]
    by_cases h42 : h + 1 < 42
    · have hunf : extendLoop H depth buf (nodeCount n (h + 1)) (h + 1) =
          (setAt buf (nodeCount n (h + 1)) (H (node H leaf (h + 1) 0) (zeroRoot H (h + 1)))).bind fun buf =>
            extendLoop H depth buf (nodeCount n (h + 1) + 1) (h + 1 + 1) := by
        rw [extendLoop, if_pos (by omega), zeroHashAt_lt H h42, Out.bind, getAt,
          show nodeCount n (h + 1) - 1 = nodeCount n h + 0 by rw [nodeCount, hc]; omega, hb.get H leaf (by omega)]
        rfl
      rw [hunf, setAt, show max (h + 1) depth = max (h + 1 + 1) depth by omega]
      by_cases hfit : nodeCount n (h + 1) < buf.length
      · rw [if_pos hfit, Out.bind]
        have hb' : Holds H leaf (buf.set (nodeCount n (h + 1)) (H (node H leaf (h + 1) 0) (zeroRoot H (h + 1)))) n (h + 1 + 1) := by
          refine ⟨by rw [nodeCount, hc2, List.length_set]; omega, ?_⟩
          rw [nodeCount, hc2, List.take_set, List.take_add_one, List.getElem?_eq_getElem hfit, Option.toList_some,
            List.set_append_right _ _ (by rw [List.length_take]; omega), List.length_take, Nat.min_eq_left (by omega), Nat.sub_self,
            List.set_cons_zero, hb.2, levels.eq_2 H leaf n (h + 1), level_odd H leaf hz (by omega), hc]
          rfl
        have hlast : nodeCount n (h + 1) + 1 = nodeCount n (h + 1 + 1) := by rw [nodeCount.eq_def n (h + 1 + 1)]; simp only [hc2]
        rw [hlast]
        have := ih (h + 1) _ (by omega) (by omega) hb'
        rw [List.length_set] at this
        by_cases hcond : nodeCount n (max (h + 1 + 1) depth) ≤ buf.length ∧ (h + 1 < depth → depth ≤ 42)
        · rw [if_pos ⟨hcond.1, fun _ => hcond.2 (by omega)⟩] at this
          rw [if_pos hcond]
          exact this
        · rw [if_neg hcond]
          rw [if_neg (by
            intro hx
            refine hcond ⟨hx.1, fun _ => ?_⟩
            rcases Nat.lt_or_ge (h + 1 + 1) depth with h1 | h1
            · exact hx.2 h1
            · omega)] at this
          exact this
      · rw [if_neg hfit, Out.bind]
        have := nodeCount_mono n (show h + 1 + 1 ≤ max (h + 1 + 1) depth by omega)
        have h4 : nodeCount n (h + 1 + 1) = nodeCount n (h + 1) + 1 := by rw [nodeCount.eq_def n (h + 1 + 1)]; simp only [hc2]
        rw [if_neg (by omega)]
    · have hunf : extendLoop H depth buf (nodeCount n (h + 1)) (h + 1) = .ub := by
        rw [extendLoop, if_pos (by omega), zeroHashAt_ge H (by omega), Out.bind]
      rw [hunf, if_neg (by omega)]

end Mammon
