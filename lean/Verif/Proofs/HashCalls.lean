import Verif.Spec.HashCount
import Verif.Proofs.Overflow
/-!
# The calls of the hasher
-/

namespace Mammon

open Spec (depthFor)

variable (H : Chunk → Chunk → Chunk)

namespace Hashing

theorem bind_out {α β : Type} (x : Hashing α) (f : α → Hashing β) : (x.bind f).out = x.out.bind fun a => (f a).out := by
  rw [bind]
  cases x.out <;> rfl

theorem bind_ok {α β : Type} {x : Hashing α} {f : α → Hashing β} {b : β} (h : (x.bind f).out = .ok b) :
    ∃ a, x.out = .ok a ∧ (f a).out = .ok b ∧ (x.bind f).events = x.events ++ (f a).events := by
  rw [bind] at h ⊢
  cases hx : x.out with
  | ok a => rw [hx] at h; exact ⟨a, rfl, h, rfl⟩
  | throws e => rw [hx] at h; cases h
  | ub => rw [hx] at h; cases h

end Hashing

open Hashing

/-! ## Without the record -/

theorem merkleLoopE_out (buf : List Chunk) (first last height : Nat) : (merkleLoopE H buf first last height).out = merkleLoop H buf first last height := by
  rw [merkleLoopE, merkleLoop]
  by_cases h : 1 < last - first
  · rw [if_pos h, if_pos h, bind_out]
    refine congrArg _ (funext fun buf => ?_)
    rw [bind_out]
    have hl : ∀ b : List Chunk, (merkleLoopE H b last (last + (last - first + 1) / 2) (height + 1)).out =
        merkleLoop H b last (last + (last - first + 1) / 2) (height + 1) := fun b => merkleLoopE_out b _ _ _
    simp only [hl]
    congr 1
    by_cases ho : (last - first) % 2 = 1
    · rw [if_pos ho, if_pos ho, bind_out]
      refine congrArg _ (funext fun z => ?_)
      rw [bind_out]
      rfl
    · rw [if_neg ho, if_neg ho]; rfl
  · rw [if_neg h, if_neg h]; rfl
termination_by last - first
decreasing_by omega

theorem extendLoopE_out (depth : Nat) (buf : List Chunk) (last height : Nat) : (extendLoopE H depth buf last height).out = extendLoop H depth buf last height := by
  rw [extendLoopE, extendLoop]
  by_cases h : height < depth
  · rw [if_pos h, if_pos h, bind_out]
    refine congrArg _ (funext fun z => ?_)
    rw [bind_out]
    refine congrArg _ (funext fun c => ?_)
    rw [bind_out]
    exact congrArg _ (funext fun buf => extendLoopE_out depth buf _ _)
  · rw [if_neg h, if_neg h]; rfl
termination_by depth - height

theorem merkleizeE_out (vec buf : List Chunk) (limit : BitVec 64) : (merkleizeE H vec buf limit).out = merkleize H vec buf limit := by
  simp only [merkleizeE, merkleize, bind_out, merkleLoopE_out, extendLoopE_out]
  congr 1
  · split <;> rfl
  · funext buf
    congr 1
    split
    · rw [bind_out]; rfl
    · rfl

theorem hashTreeOfChunksE_out (chunks : List Chunk) (limit : BitVec 64) : (hashTreeOfChunksE H chunks limit).out = hashTreeOfChunks H chunks limit := by
  rw [hashTreeOfChunksE, hashTreeOfChunks]
  split
  · rfl
  · split
    · rfl
    · simp only [bind_out, merkleizeE_out]; rfl

theorem mixInE_out (tree : List Chunk) (n : Nat) : (mixInE H tree n).out = mixIn H tree n := by
  rw [mixInE, bind_out, mixIn]
  show (treeRoot tree).bind _ = _
  cases treeRoot tree <;> rfl

theorem rootsLoopE_out {α : Type} {f : α → Hashing (List Chunk)} {g : α → Out (List Chunk)} : ∀ l : List α, (∀ x ∈ l, (f x).out = g x) →
    (rootsLoopE f l).out = rootsLoop g l
  | [], _ => rfl
  | x :: l, h => by
    rw [rootsLoopE, rootsLoop, bind_out, h x List.mem_cons_self]
    refine congrArg _ (funext fun tree => ?_)
    rw [bind_out]
    refine congrArg _ (funext fun r => ?_)
    rw [bind_out, rootsLoopE_out l fun y hy => h y (List.mem_cons_of_mem _ hy)]
    cases rootsLoop g l <;> rfl

theorem listTreeE_out (limit : Nat) (chunks : List Chunk) (size : Nat) : (listTreeE H limit chunks size).out = listTree H limit chunks size := by
  rw [listTreeE, listTree, bind_out, hashTreeOfChunksE_out]
  exact congrArg _ (funext fun t => mixInE_out H t _)

mutual
theorem hashTreeE_out : (t : Ty) → (v : t.denote) → (hashTreeE H t v).out = hashTree H t v
  | .uint64, v => by rw [hashTreeE, hashTree]; rfl
  | .boolean, v => by
    rw [hashTreeE, hashTree, bind_out]; exact congrArg _ (funext fun bs => hashTreeOfChunksE_out H _ _)
  | .bytes n, v => by
    rw [hashTreeE, hashTree, bind_out]; exact congrArg _ (funext fun bs => hashTreeOfChunksE_out H _ _)
  | .bitvector n, v => by
    rw [hashTreeE, hashTree, bind_out]; exact congrArg _ (funext fun bs => hashTreeOfChunksE_out H _ _)
  | .bitlist limit, v => by
    rw [hashTreeE, hashTree, bitlistHashTreeE, bitlistHashTree]
    split
    · rfl
    · rw [bind_out, hashTreeOfBytesE, hashTreeOfChunksE_out]
      exact congrArg _ (funext fun t => mixInE_out H t _)
  | .vector t n, v => by
    rw [hashTreeE, hashTree]
    split
    · rw [bind_out]; exact congrArg _ (funext fun bs => hashTreeOfChunksE_out H _ _)
    · rw [bind_out, rootsLoopE_out v.1 fun x _ => hashTreeE_out t x]
      refine congrArg _ (funext fun chunks => ?_)
      split
      · rfl
      · exact hashTreeOfChunksE_out H _ _
  | .listF t limit, v => by
    rw [hashTreeE, hashTree]
    split
    · rw [bind_out]
      refine congrArg _ (funext fun bs => ?_)
      rw [bind_out, hashTreeOfBytesE, hashTreeOfChunksE_out]
      exact congrArg _ (funext fun t => mixInE_out H t _)
    · rw [bind_out, rootsLoopE_out v fun x _ => hashTreeE_out t x]
      exact congrArg _ (funext fun chunks => listTreeE_out H _ _ _)
  | .listV t limit, v => by
    rw [hashTreeE, hashTree, bind_out, rootsLoopE_out v fun x _ => hashTreeE_out t x]
    exact congrArg _ (funext fun chunks => listTreeE_out H _ _ _)
  | .container _ _ .nil, v => by rw [hashTreeE, hashTree]; rfl
  | .container _ _ (.cons name t ps), v => by
    rw [hashTreeE, hashTree, bind_out, hashTreePartsE_out (.cons name t ps) v]
    exact congrArg _ (funext fun chunks => hashTreeOfChunksE_out H _ _)

theorem hashTreePartsE_out : (ps : Parts) → (v : ps.denote) → (hashTreePartsE H ps v).out = hashTreeParts H ps v
  | .nil, _ => by rw [hashTreePartsE, hashTreeParts]; rfl
  | .cons _ t ps, v => by
    rw [hashTreePartsE, hashTreeParts, bind_out, hashTreeE_out t v.1]
    refine congrArg _ (funext fun tree => ?_)
    rw [bind_out]
    refine congrArg _ (funext fun r => ?_)
    rw [bind_out, hashTreePartsE_out ps v.2]
    cases hashTreeParts H ps v.2 <;> rfl
end

/-! ## The calls for one tree -/

/-- The calls for a layer of `m` nodes. -/
def layerCalls (m : Nat) : List Nat := (if 2 ≤ m then [m / 2] else []) ++ (if m % 2 = 1 then [1] else [])

/-- The calls for `d` layers, the lowest of which has `m` nodes. -/
def callsFrom (m : Nat) : Nat → List Nat
  | 0 => []
  | d + 1 => layerCalls m ++ callsFrom ((m + 1) / 2) d

theorem cnt_shift (n h : Nat) : cnt n (h + 1) = cnt ((n + 1) / 2) h := by
  induction h with
  | zero => rfl
  | succ h ih => rw [cnt, ih, cnt]

theorem calls_eq (n d : Nat) : Spec.calls n d = callsFrom n d := by
  have h1 : ∀ d n, Spec.calls n d = (List.range d).flatMap fun h => layerCalls (cnt n h) := by
    intro d n
    rw [Spec.calls]
    refine congrArg (List.flatMap · _) (funext fun h => ?_)
    rw [cnt_eq, layerCalls]
  rw [h1]
  induction d generalizing n with
  | zero => rfl
  | succ d ih =>
    rw [callsFrom, ← ih, List.range_succ_eq_map, List.flatMap_cons, List.flatMap_map]
    rw [show cnt n 0 = n from rfl]
    refine congrArg _ (congrArg (List.flatMap · _) (funext fun h => ?_))
    rw [← cnt_shift]

theorem callsFrom_one (k : Nat) : callsFrom 1 k = List.replicate k 1 := by
  induction k with
  | zero => rfl
  | succ k ih => rw [callsFrom, ih]; rfl

theorem depthFor_step {n : Nat} (h : 1 < n) : depthFor n = depthFor ((n + 1) / 2) + 1 := by rw [depthFor, if_neg (by omega)]

theorem callsFrom_extend (m : Nat) (hm : 0 < m) (k : Nat) : callsFrom m (depthFor m + k) = callsFrom m (depthFor m) ++ callsFrom 1 k := by
  by_cases h : m = 1
  · subst h; rw [depthFor_one, Nat.zero_add]; rfl
  · have hd := depthFor_step (n := m) (by omega)
    rw [hd, Nat.add_right_comm, callsFrom, callsFrom, callsFrom_extend ((m + 1) / 2) (by omega) k, List.append_assoc]
termination_by m

theorem merkleLoopE_events (buf : List Chunk) (first last height : Nat) {r : List Chunk × Nat × Nat} (h : (merkleLoopE H buf first last height).out = .ok r) :
    (merkleLoopE H buf first last height).events = (callsFrom (last - first) (depthFor (last - first))).map .call ∧
      r.2.2 = height + depthFor (last - first) := by
  rw [merkleLoopE] at h ⊢
  by_cases hd : 1 < last - first
  · rw [if_pos hd] at h ⊢
    obtain ⟨b1, e1, h, hev⟩ := bind_ok h
    simp only [hev]
    obtain ⟨b2, e2, h, hev⟩ := bind_ok h
    simp only [hev]
    have ih := merkleLoopE_events b2 last (last + (last - first + 1) / 2) (height + 1) h
    rw [show last + (last - first + 1) / 2 - last = (last - first + 1) / 2 by omega] at ih
    have hl : layerCalls (last - first) = (last - first) / 2 :: (if (last - first) % 2 = 1 then [1] else []) := by
      rw [layerCalls, if_pos (show 2 ≤ last - first by omega)]; rfl
    rw [ih.1, ih.2, depthFor_step hd, callsFrom, hl]
    refine ⟨?_, by omega⟩
    by_cases ho : (last - first) % 2 = 1
    · rw [if_pos ho] at e2 ⊢
      obtain ⟨z, -, e3, hev⟩ := bind_ok e2
      obtain ⟨c, -, e4, hev'⟩ := bind_ok e3
      rw [if_pos ho, hev, hev']
      rfl
    · rw [if_neg ho, if_neg ho]; rfl
  · rw [if_neg hd] at h ⊢
    cases h
    have : depthFor (last - first) = 0 := by rw [depthFor, if_pos (by omega)]
    rw [this]
    exact ⟨rfl, rfl⟩
termination_by last - first
decreasing_by omega

theorem extendLoopE_events (depth : Nat) (buf : List Chunk) (last height : Nat) {r : List Chunk × Nat} (h : (extendLoopE H depth buf last height).out = .ok r) :
    (extendLoopE H depth buf last height).events = (callsFrom 1 (depth - height)).map .call := by
  rw [callsFrom_one]
  rw [extendLoopE] at h ⊢
  by_cases hd : height < depth
  · rw [if_pos hd] at h ⊢
    obtain ⟨z, -, h, hev⟩ := bind_ok h
    simp only [hev]
    obtain ⟨c, -, h, hev⟩ := bind_ok h
    simp only [hev]
    obtain ⟨b, -, h, hev⟩ := bind_ok h
    simp only [hev]
    rw [extendLoopE_events depth b _ _ h, callsFrom_one, show depth - height = (depth - (height + 1)) + 1 by omega, List.replicate_succ]
    rfl
  · rw [if_neg hd, show depth - height = 0 by omega]; rfl
termination_by depth - height

theorem merkleizeE_events (vec buf : List Chunk) (limit : BitVec 64) (hn : 0 < vec.length) {r : List Chunk} (h : (merkleizeE H vec buf limit).out = .ok r) :
    (merkleizeE H vec buf limit).events = (callsFrom vec.length (heights vec.length limit.toNat)).map .call := by
  rw [merkleizeE] at h ⊢
  obtain ⟨b1, e1, h, hev⟩ := bind_ok h
  simp only [hev]
  obtain ⟨b2, e2, h, hev⟩ := bind_ok h
  simp only [hev]
  obtain ⟨r3, e3, h, hev⟩ := bind_ok h
  simp only [hev]
  obtain ⟨r4, e4, h, hev⟩ := bind_ok h
  simp only [hev]
  obtain ⟨l1, l2⟩ := merkleLoopE_events H _ _ _ _ e3
  rw [Nat.sub_zero] at l1 l2
  rw [l1, extendLoopE_events H _ _ _ _ e4, l2]
  have hh : heights vec.length limit.toNat =
      (depthFor ((vec.length + 1) / 2) + (log2ceil 64 limit - (1 + depthFor ((vec.length + 1) / 2)))) + 1 := by
    rw [heights, log2ceil_eq]
    by_cases h1 : vec.length = 1
    · rw [h1, depthFor_one]; omega
    · rw [depthFor_step (n := vec.length) (by omega)]; omega
  rw [hh, callsFrom, callsFrom_extend _ (by omega), List.map_append, List.map_append, ← List.append_assoc]
  have h1 : (if 1 < vec.length then event (.call (vec.length / 2)) (hashBlocks H vec (vec.length / 2) 0 0 buf) else of (.ok buf)).events ++
      (if vec.length % 2 = 1 then (of (getAt vec (vec.length - 1))).bind fun c => event (.call 1) (setAt b1 ((vec.length + 1) / 2 - 1) (H c zeroHash))
        else of (.ok b1)).events = (layerCalls vec.length).map .call := by
    rw [layerCalls, List.map_append]
    congr 1
    · by_cases h1 : 1 < vec.length
      · rw [if_pos h1, if_pos (by omega)]; rfl
      · rw [if_neg h1, if_neg (by omega)]; rfl
    · by_cases h1 : vec.length % 2 = 1
      · rw [if_pos h1] at e2 ⊢
        rw [if_pos h1]
        obtain ⟨c, -, -, hev⟩ := bind_ok e2
        rw [hev]; rfl
      · rw [if_neg h1, if_neg h1]; rfl
  rw [h1]
  simp [of]

theorem heights_eq {n limit : Nat} (hn : 0 < n) (h : ¬ (limit ≤ 1 ∧ n = 1)) : heights n limit = depthFor (max n limit) := by
  rw [heights]
  have h1 : depthFor (max n limit) = max (depthFor n) (depthFor limit) := by
    rcases Nat.le_total n limit with h | h
    · rw [Nat.max_eq_right h, Nat.max_eq_right (depthFor_mono h)]
    · rw [Nat.max_eq_left h, Nat.max_eq_left (depthFor_mono h)]
  have h2 : depthFor (max n limit) ≠ 0 := fun h' => by have := one_lt_of_depth h'; omega
  omega

/-- The events while building a tree. -/
theorem hashTreeOfChunksE_events (chunks : List Chunk) (limit : BitVec 64) (hn : chunks.length ≤ 2 ^ 42) {r : List Chunk}
    (h : hashTreeOfChunks H chunks limit = .ok r) :
    (hashTreeOfChunksE H chunks limit).events =
      if limit.toNat ≤ 1 ∧ chunks.length = 1 then []
      else .alloc (bufferSize chunks.length limit.toNat) :: (Spec.calls chunks.length (depthFor (max chunks.length limit.toNat))).map .call := by
  rw [← hashTreeOfChunksE_out, hashTreeOfChunksE] at h
  rw [hashTreeOfChunksE]
  have hc : (limit ≤ 1#64 ∧ chunks.length = 1) ↔ (limit.toNat ≤ 1 ∧ chunks.length = 1) := by
    rw [BitVec.le_def]; rfl
  by_cases h1 : limit ≤ 1#64 ∧ chunks.length = 1
  · rw [if_pos h1, if_pos (hc.1 h1)]; rfl
  · rw [if_neg h1] at h ⊢
    rw [if_neg (fun h => h1 (hc.2 h))]
    by_cases h2 : chunks = []
    · rw [if_pos h2] at h; cases h
    · rw [if_neg h2] at h ⊢
      have hpos := List.length_pos_iff.2 h2
      obtain ⟨bc, e1, h, hev⟩ := bind_ok h
      simp only [hev]
      obtain ⟨buf, e2, h, hev⟩ := bind_ok h
      simp only [hev]
      have hbc : bc = 2 ^ depthFor chunks.length := by
        have h3 : (of (bitCeil chunks.length)).out = bitCeil chunks.length := rfl
        rw [h3, bitCeil_spec (by omega)] at e1
        cases e1; rfl
      have hd : depthFor chunks.length ≤ 42 := (depthFor_le_iff _ _).2 hn
      rw [merkleizeE_events H _ _ _ hpos h]
      have hto : (BitVec.ofNat 64 chunks.length).toNat = chunks.length := by rw [BitVec.toNat_ofNat, Nat.mod_eq_of_lt (by omega)]
      have hz : limit = 0#64 ↔ limit.toNat = 0 := by
        rw [← BitVec.toNat_inj]; rfl
      have hlim : heights chunks.length ((if limit = 0#64 then BitVec.ofNat 64 bc else limit).toNat) = depthFor (max chunks.length limit.toNat) := by
        rw [← heights_eq hpos (fun h => h1 (hc.2 h))]
        by_cases h0 : limit = 0#64
        · rw [if_pos h0, hbc, BitVec.toNat_ofNat, Nat.mod_eq_of_lt (Nat.pow_lt_pow_right (by decide) (by omega)), heights, heights, depthFor_two_pow,
            hz.1 h0, depthFor_zero]
          omega
        · rw [if_neg h0]
      rw [hlim, ← calls_eq]
      have hbs : max (cacheSize (if limit = 0#64 then log2ceil 64 (BitVec.ofNat 64 chunks.length) else log2ceil 64 limit)
          (log2ceil 64 (BitVec.ofNat 64 chunks.length)) bc) 1 = bufferSize chunks.length limit.toNat := by
        rw [log2ceil_eq, log2ceil_eq, hto, hbc]
        have hl64 := depthFor_le_64 limit
        rw [cacheSize_eq (by split <;> omega) hd, bufferSize]
        simp only [hz]
      rw [hbs]
      rfl

theorem blocks_append (a b : List HashEvent) : Spec.blocks (a ++ b) = Spec.blocks a + Spec.blocks b := by
  simp [Spec.blocks]

theorem blocks_calls (l : List Nat) : Spec.blocks (l.map .call) = l.sum := by
  rw [Spec.blocks, List.map_map]
  exact congrArg List.sum (List.map_id l)

theorem sum_layerCalls (m : Nat) : (layerCalls m).sum = (m + 1) / 2 := by
  rw [layerCalls]
  split <;> split <;> simp <;> omega

theorem sum_callsFrom (n d : Nat) : (callsFrom n d).sum = nodeCount n d := by
  have h1 : ∀ d n, nodeCount n (d + 1) = (n + 1) / 2 + nodeCount ((n + 1) / 2) d := by
    intro d
    induction d with
    | zero => intro n; simp [nodeCount, cnt]
    | succ d ih =>
      intro n
      rw [nodeCount, ih, nodeCount, cnt_shift]; omega
  induction d generalizing n with
  | zero => rfl
  | succ d ih => rw [callsFrom, List.sum_append, ih, sum_layerCalls, h1]

theorem sum_calls (n d : Nat) : (Spec.calls n d).sum = Spec.treeSize n d := by rw [calls_eq, sum_callsFrom, nodeCount_eq]

theorem chunks_blocks (chunks : List Chunk) (limit : BitVec 64) (hn : chunks.length ≤ 2 ^ 42) {r : List Chunk}
    (h : hashTreeOfChunks H chunks limit = .ok r) :
    Spec.blocks (hashTreeOfChunksE H chunks limit).events = Spec.treeHashes chunks.length limit.toNat := by
  rw [hashTreeOfChunksE_events H chunks limit hn h, Spec.treeHashes]
  split
  · rename_i h1
    rw [h1.2, Nat.max_eq_left h1.1, depthFor_one]; rfl
  · rw [← sum_calls, ← blocks_calls, Spec.blocks, Spec.blocks, List.map_cons, List.sum_cons, Nat.zero_add]

/-! ## The calls for an object -/

theorem orZero_blocks (chunks : List Chunk) (limit : BitVec 64) (hn : chunks.length ≤ 2 ^ 42) {r : List Chunk}
    (h : hashTreeOfChunks H (orZeroChunk chunks) limit = .ok r) :
    Spec.blocks (hashTreeOfChunksE H (orZeroChunk chunks) limit).events = Spec.treeHashes (max 1 chunks.length) limit.toNat := by
  rw [chunks_blocks H _ _ (by rw [length_orZero]; omega) h, length_orZero, Nat.max_comm]

theorem treeHashes_zero_le : ∀ n, n ≤ 1 → Spec.treeHashes n 0 = 0 := by
  intro n hn
  rw [Spec.treeHashes, Nat.max_zero, depthFor, if_pos hn]
  rfl

theorem bytes_blocks (bs : List Byte) (limit : BitVec 64) (n : Nat) (hb : (bs.length + 31) / 32 = n) (hn : n ≤ 2 ^ 42) {r : List Chunk}
    (h : hashTreeOfBytes H bs limit = .ok r) :
    Spec.blocks (hashTreeOfBytesE H bs limit).events = Spec.treeHashes (max 1 n) limit.toNat := by
  rw [hashTreeOfBytes, packAndPad_eq] at h
  rw [hashTreeOfBytesE, packAndPad_eq, orZero_blocks H _ _ (by rw [length_pack, hb]; exact hn) h, length_pack, hb]

theorem bytes_blocks_zero (bs : List Byte) (n : Nat) (hb : (bs.length + 31) / 32 = n) (hn : n ≤ 2 ^ 42) {r : List Chunk}
    (h : hashTreeOfBytes H bs 0#64 = .ok r) : Spec.blocks (hashTreeOfBytesE H bs 0#64).events = Spec.treeHashes n 0 := by
  rw [bytes_blocks H bs 0#64 n hb hn h]
  rcases Nat.eq_zero_or_pos n with rfl | hp
  · rw [show max 1 0 = 1 from rfl, show (0#64).toNat = 0 from rfl, treeHashes_zero_le 1 (Nat.le_refl _), treeHashes_zero_le 0 (by omega)]
  · rw [Nat.max_eq_right hp]; rfl

theorem mixIn_blocks (x : Hashing (List Chunk)) (n : Nat) {r : List Chunk} (h : (x.bind fun ht => mixInE H ht n).out = .ok r) :
    Spec.blocks (x.bind fun ht => mixInE H ht n).events = Spec.blocks x.events + 1 ∧ ∃ u, x.out = .ok u := by
  obtain ⟨u, h1, h2, hev⟩ := bind_ok h
  refine ⟨?_, u, h1⟩
  rw [hev, blocks_append]
  rw [mixInE] at h2 ⊢
  obtain ⟨c, -, -, hev⟩ := bind_ok h2
  rw [hev]
  rfl

theorem rootsLoop_blocks {α : Type} (f : α → Hashing (List Chunk)) (g : α → Nat) : ∀ (l : List α) {r : List Chunk},
    (∀ x ∈ l, ∀ u, (f x).out = .ok u → Spec.blocks (f x).events = g x) → (rootsLoopE f l).out = .ok r →
    Spec.blocks (rootsLoopE f l).events = (l.map g).sum ∧ r.length = l.length
  | [], r, _, h => by cases h; exact ⟨rfl, rfl⟩
  | x :: l, r, hf, h => by
    rw [rootsLoopE] at h ⊢
    obtain ⟨u, h1, h, hev⟩ := bind_ok h
    rw [hev]
    obtain ⟨c, -, h, hev⟩ := bind_ok h
    rw [hev]
    obtain ⟨rs, h2, h, hev⟩ := bind_ok h
    rw [hev]
    have ih := rootsLoop_blocks f g l (fun y hy => hf y (List.mem_cons_of_mem _ hy)) h2
    cases h
    rw [blocks_append, blocks_append, blocks_append, hf x List.mem_cons_self u h1, ih.1, List.map_cons, List.sum_cons, List.length_cons, ih.2,
      List.length_cons]
    exact ⟨by simp [of, Spec.blocks], rfl⟩

theorem listTree_blocks (limit : Nat) (hl : limit ≤ 2 ^ 42) (chunks : List Chunk) (hn : chunks.length ≤ 2 ^ 42) (size : Nat) {r : List Chunk}
    (h : (listTreeE H limit chunks size).out = .ok r) :
    Spec.blocks (listTreeE H limit chunks size).events = Spec.treeHashes (max 1 chunks.length) limit + 1 := by
  rw [listTreeE] at h ⊢
  obtain ⟨h1, u, h2⟩ := mixIn_blocks H _ _ h
  rw [h1]
  rw [hashTreeOfChunksE_out] at h2
  rw [orZero_blocks H _ _ hn h2, BitVec.toNat_ofNat, Nat.mod_eq_of_lt (by omega)]

mutual
theorem hashTreeE_blocks : (t : Ty) → Spec.hashable t = true → (v : t.denote) → Spec.listsSmall t v = true → {r : List Chunk} →
    (hashTreeE H t v).out = .ok r → Spec.blocks (hashTreeE H t v).events = Spec.hashCount t v
  | .uint64, _, v, _, r, _ => by rw [hashTreeE]; rfl
  | .boolean, _, v, _, r, h => by
    rw [hashTreeE] at h ⊢
    obtain ⟨bs, h1, h, hev⟩ := bind_ok h
    rw [hev, blocks_append]
    have h1 : serialize .boolean v = .ok bs := h1
    rw [serialize_of_short rfl, serializeBytes_eq_encode _ rfl] at h1
    cases h1
    rw [hashTreeOfBytesE, hashTreeOfChunksE_out] at h
    rw [bytes_blocks_zero H _ 1 (by cases v <;> decide) (by decide) h, treeHashes_zero_le 1 (Nat.le_refl _)]
    rfl
  | .bytes n, hh, v, _, r, h => by
    simp only [Spec.hashable, decide_eq_true_eq] at hh
    rw [hashTreeE] at h ⊢
    obtain ⟨bs, h1, h, hev⟩ := bind_ok h
    rw [hev, blocks_append]
    have h1 : serialize (.bytes n) v = .ok bs := h1
    rw [serialize_of_short rfl, serializeBytes] at h1
    cases h1
    rw [hashTreeOfBytesE, hashTreeOfChunksE_out] at h
    rw [bytes_blocks_zero H v.1 _ rfl (by rw [v.2]; exact hh) h, v.2, Spec.hashCount, Spec.chunkCount]
    exact Nat.zero_add _
  | .bitvector n, hh, v, _, r, h => by
    simp only [Spec.hashable, decide_eq_true_eq] at hh
    rw [hashTreeE] at h ⊢
    obtain ⟨bs, h1, h, hev⟩ := bind_ok h
    rw [hev, blocks_append]
    have h1 : serialize (.bitvector n) v = .ok bs := h1
    rw [serialize_of_short rfl, serializeBytes, bitvectorSerialize_eq_spec n v.1 v.2] at h1
    cases h1
    have hl : ((Spec.bitvector n v.1).length + 31) / 32 = Spec.chunkCount (.bitvector n) := by
      rw [Spec.bitvector, length_packBits, Spec.chunkCount]; omega
    rw [hashTreeOfBytesE, hashTreeOfChunksE_out] at h
    rw [bytes_blocks_zero H _ _ hl hh h, Spec.hashCount]
    exact Nat.zero_add _
  | .bitlist n, hh, v, _, r, h => by
    simp only [Spec.hashable, decide_eq_true_eq] at hh
    rw [hashTreeE, bitlistHashTreeE] at h ⊢
    split at h
    · cases h
    · rename_i hb
      rw [if_neg hb]
      simp only [bitlistBytes_eq] at h ⊢
      obtain ⟨h1, u, h2⟩ := mixIn_blocks H _ _ h
      rw [h1]
      rw [hashTreeOfBytesE, hashTreeOfChunksE_out] at h2
      have hh' := hh
      rw [Spec.chunkCount] at hh'
      have hlen : ((Spec.bitlistBytes v).length + 31) / 32 = (List.length v + 255) / 256 := by rw [Spec.bitlistBytes, length_packBits]; omega
      rw [bytes_blocks H _ _ _ hlen (by omega) h2, chunk_limit n (by omega), Spec.hashCount, Spec.chunkCount]
  | .vector t n, hh, v, hs, r, h => by
    simp only [Spec.hashable, Bool.and_eq_true, decide_eq_true_eq, Bool.not_eq_true'] at hh
    obtain ⟨⟨⟨h1, h2⟩, h3⟩, h4⟩ := hh
    rw [hashTreeE, isBasicObject_eq h2] at h ⊢
    rw [Spec.hashCount]
    by_cases hbas : Spec.isBasic t = true
    · rw [if_pos hbas] at h ⊢
      rw [if_pos hbas]
      have := eq_uint64_of_basic h2 hbas
      subst this
      obtain ⟨bs, e1, h, hev⟩ := bind_ok h
      rw [hev, blocks_append]
      have e1 : serialize (.vector .uint64 n) v = .ok bs := e1
      rw [serialize_of_short (by rw [Spec.bitlistsShort, List.all_eq_true]; exact fun _ _ => rfl), serializeBytes_vector, serialize_uint64s] at e1
      cases e1
      rw [hashTreeOfBytesE, hashTreeOfChunksE_out] at h
      have hl : ((List.map (fun x => Spec.encode .uint64 x) v.1).flatten.length + 31) / 32 = Spec.chunkCount (.vector .uint64 n) := by
        rw [length_encode_uint64s, v.2]; rfl
      rw [bytes_blocks_zero H _ _ hl h4 h]
      exact Nat.zero_add _
    · rw [if_neg hbas] at h ⊢
      rw [if_neg hbas]
      simp only [Spec.listsSmall, List.all_eq_true] at hs
      obtain ⟨rs, e1, h, hev⟩ := bind_ok h
      rw [hev, blocks_append]
      obtain ⟨e2, e3⟩ := rootsLoop_blocks (fun x => hashTreeE H t x) (fun x => Spec.hashCount t x) v.1
        (fun x hx u hu => hashTreeE_blocks t h1 x (hs x hx) hu) e1
      rw [e2]
      simp only [Spec.chunkCount, if_neg hbas] at h4
      split
      · rename_i hn
        rw [treeHashes_zero_le n (by omega)]
        rfl
      · rename_i hn
        rw [if_neg hn, hashTreeOfChunksE_out] at h
        rw [chunks_blocks H _ _ (by rw [e3, v.2]; exact h4) h, e3, v.2]
        rfl
  | .listF t n, hh, v, hs, r, h => by
    simp only [Spec.hashable, Bool.and_eq_true, decide_eq_true_eq, Bool.not_eq_true'] at hh
    obtain ⟨⟨h1, h2⟩, h4⟩ := hh
    simp only [Spec.listsSmall, Bool.and_eq_true, decide_eq_true_eq, List.all_eq_true] at hs
    rw [hashTreeE, isBasicObject_eq h2] at h ⊢
    rw [Spec.hashCount]
    by_cases hbas : Spec.isBasic t = true
    · rw [if_pos hbas] at h ⊢
      rw [if_pos hbas]
      have := eq_uint64_of_basic h2 hbas
      subst this
      obtain ⟨bs, e1, h, hev⟩ := bind_ok h
      rw [hev, blocks_append]
      have e1 : serialize (.listF .uint64 n) v = .ok bs := e1
      rw [serialize_of_short (by rw [Spec.bitlistsShort, List.all_eq_true]; exact fun _ _ => rfl), serializeBytes_listF, serialize_uint64s] at e1
      cases e1
      obtain ⟨e2, u, e3⟩ := mixIn_blocks H _ _ h
      simp only [e2]
      rw [hashTreeOfBytesE, hashTreeOfChunksE_out] at e3
      simp only [Spec.chunkCount, Spec.isBasic, if_true, Spec.fixedSize] at h4 ⊢
      rw [bytes_blocks H _ _ _ (by rw [length_encode_uint64s]) (by omega) e3, chunk_limit_basic n (by omega)]
      exact Nat.zero_add _
    · rw [if_neg hbas] at h ⊢
      rw [if_neg hbas]
      simp only [Spec.chunkCount, if_neg hbas] at h4
      obtain ⟨rs, e1, h, hev⟩ := bind_ok h
      rw [hev, blocks_append]
      obtain ⟨e2, e3⟩ := rootsLoop_blocks (fun x => hashTreeE H t x) (fun x => Spec.hashCount t x) v
        (fun x hx u hu => hashTreeE_blocks t h1 x (hs.2 x hx) hu) e1
      rw [e2, listTree_blocks H n h4 rs (by rw [e3]; exact hs.1) _ h, e3, Nat.add_assoc]
  | .listV t n, hh, v, hs, r, h => by
    simp only [Spec.hashable, Bool.and_eq_true, decide_eq_true_eq, Bool.not_eq_true'] at hh
    obtain ⟨⟨h1, h2⟩, h4⟩ := hh
    have hbas : ¬ Spec.isBasic t = true := by simp [h2]
    simp only [Spec.listsSmall, Bool.and_eq_true, decide_eq_true_eq, List.all_eq_true] at hs
    rw [hashTreeE] at h ⊢
    rw [Spec.hashCount]
    simp only [Spec.chunkCount, if_neg hbas] at h4
    obtain ⟨rs, e1, h, hev⟩ := bind_ok h
    rw [hev, blocks_append]
    obtain ⟨e2, e3⟩ := rootsLoop_blocks (fun x => hashTreeE H t x) (fun x => Spec.hashCount t x) v
      (fun x hx u hu => hashTreeE_blocks t h1 x (hs.2 x hx) hu) e1
    rw [e2, listTree_blocks H n h4 rs (by rw [e3]; exact hs.1) _ h, e3, Nat.add_assoc]
  | .container s e .nil, hh, v, hs, r, _ => by simp [Spec.hashable, Spec.partCount] at hh
  | .container s e (.cons name t ps), hh, v, hs, r, h => by
    simp only [Spec.hashable, Bool.and_eq_true, decide_eq_true_eq] at hh
    obtain ⟨⟨h1, h2⟩, h3⟩ := hh
    rw [hashTreeE] at h ⊢
    obtain ⟨rs, e1, h, hev⟩ := bind_ok h
    rw [hev, blocks_append]
    obtain ⟨e2, e3⟩ := hashTreePartsE_blocks (.cons name t ps) h1 v hs e1
    rw [hashTreeOfChunksE_out] at h
    rw [e2, chunks_blocks H _ _ (by rw [e3]; exact h3) h, e3]
    rfl

theorem hashTreePartsE_blocks : (ps : Parts) → Spec.hashableParts ps = true → (v : ps.denote) → Spec.listsSmallParts ps v = true → {r : List Chunk} →
    (hashTreePartsE H ps v).out = .ok r → Spec.blocks (hashTreePartsE H ps v).events = Spec.hashCountParts ps v ∧ r.length = Spec.partCount ps
  | .nil, _, _, _, r, h => by rw [hashTreePartsE] at h ⊢; cases h; exact ⟨rfl, rfl⟩
  | .cons _ t ps, hh, v, hs, r, h => by
    simp only [Spec.hashableParts, Bool.and_eq_true] at hh
    simp only [Spec.listsSmallParts, Bool.and_eq_true] at hs
    rw [hashTreePartsE] at h ⊢
    obtain ⟨u, h1, h, hev⟩ := bind_ok h
    rw [hev]
    obtain ⟨c, -, h, hev⟩ := bind_ok h
    rw [hev]
    obtain ⟨rs, h2, h, hev⟩ := bind_ok h
    rw [hev]
    have ih := hashTreePartsE_blocks ps hh.2 v.2 hs.2 h2
    cases h
    rw [blocks_append, blocks_append, blocks_append, hashTreeE_blocks t hh.1 v.1 hs.1 h1, ih.1, Spec.hashCountParts, List.length_cons, ih.2, Spec.partCount]
    exact ⟨by simp [of, Spec.blocks], rfl⟩
end

end Mammon
