import Verif.Spec.Overflow
import Verif.Props.Merkle
/-!
# The outcome of hashing for objects with lists of any length
-/

namespace Mammon

open Spec (depthFor)

variable (H : Chunk → Chunk → Chunk)

/-- A tree with the given root, or undefined behaviour. -/
def Outcome (o : Out (List Chunk)) (ok : Bool) (r : Chunk) : Prop := if ok then HasRoot o r else o = .ub

theorem HasRoot.outcome {o : Out (List Chunk)} {r : Chunk} (h : HasRoot o r) : Outcome o true r := by rw [Outcome, if_pos rfl]; exact h

theorem Outcome.eq {o : Out (List Chunk)} {ok : Bool} {r : Chunk} (h : Outcome o ok r) : o.bind treeRoot = if ok then .ok r else .ub := by
  rw [Outcome] at h
  split at h
  · rename_i hk; rw [if_pos hk]; exact h.root
  · rename_i hk; rw [if_neg hk, h]; rfl

theorem Outcome.mixIn {o : Out (List Chunk)} {ok : Bool} {r : Chunk} (h : Outcome o ok r) {n : Nat} (hn : n < 2 ^ 64) :
    Outcome (o.bind fun ht => mixIn H ht n) ok (Spec.mixInLength H r n) := by
  rw [Outcome] at h ⊢
  split at h
  · rename_i hk; rw [if_pos hk]; exact h.mixIn H hn
  · rename_i hk; rw [if_neg hk, h]; rfl

theorem orZero_outcome (chunks : List Chunk) (limit : BitVec 64) (k : Nat) (hn : chunks.length ≤ 2 ^ 42) (hk : k ≤ 2 ^ 42) (hl : limit.toNat = k) :
    Outcome (hashTreeOfChunks H (orZeroChunk chunks) limit) (Spec.fits chunks.length k) (Spec.merkleize H chunks (max chunks.length k)) := by
  by_cases h1 : chunks.length ≤ k
  · have : Spec.fits chunks.length k = true := by simp [Spec.fits, h1]
    rw [this, Nat.max_eq_right h1]
    exact (orZero_root H chunks limit k h1 hk (.inr hl)).outcome
  · by_cases h0 : k = 0
    · have : Spec.fits chunks.length k = true := by simp [Spec.fits, h0]
      rw [this, Nat.max_eq_left (by omega)]
      exact (orZero_root H chunks limit chunks.length (Nat.le_refl _) hn (.inl ⟨by omega, rfl⟩)).outcome
    · have hne : chunks ≠ [] := fun h => by subst h; simp at h1
      rw [orZeroChunk, if_neg hne, C15_over_limit H chunks limit (by omega) (by omega) hn, Nat.max_eq_left (a := chunks.length) (b := k) (by omega), hl]
      have hf : Spec.fits chunks.length k = decide (Spec.treeSize chunks.length (depthFor chunks.length) ≤
          max (2 ^ depthFor chunks.length - 1 - (depthFor chunks.length - depthFor k)) 1) := by
        simp [Spec.fits, h1, h0]
      rw [Outcome, hf]
      split
      · rename_i hd
        rw [if_pos (of_decide_eq_true hd)]
        refine ⟨_, rfl, ?_⟩
        rw [← levels_eq, Spec.merkleize, getLast_levels H _ _ _ (by omega) (Nat.le_refl _)]
        apply Nat.pos_of_ne_zero
        intro h
        have := one_lt_of_depth h
        omega
      · rename_i hd
        rw [if_neg (fun h => hd (decide_eq_true h))]

theorem bytes_outcome (bs : List Byte) (limit : BitVec 64) (k n : Nat) (hb : (bs.length + 31) / 32 = n) (hn : n ≤ 2 ^ 42) (hk : k ≤ 2 ^ 42)
    (hl : limit.toNat = k) :
    Outcome (hashTreeOfBytes H bs limit) (Spec.fits n k) (Spec.merkleize H (Spec.pack bs) (max n k)) := by
  have := orZero_outcome H (Spec.pack bs) limit k (by rw [length_pack, hb]; exact hn) hk hl
  rw [length_pack, hb] at this
  rw [hashTreeOfBytes, packAndPad_eq]
  exact this

theorem rootsLoop_outcome {α : Type} (f : α → Out (List Chunk)) (ok : α → Bool) (g : α → Chunk) : ∀ l : List α, (∀ x ∈ l, Outcome (f x) (ok x) (g x)) →
    rootsLoop f l = if l.all ok then .ok (l.map g) else .ub
  | [], _ => rfl
  | x :: l, h => by
    have hx := h x List.mem_cons_self
    have ih := rootsLoop_outcome f ok g l fun y hy => h y (List.mem_cons_of_mem _ hy)
    rw [rootsLoop, List.all_cons]
    cases hk : ok x with
    | false =>
      rw [Outcome, hk, if_neg Bool.false_ne_true] at hx
      rw [hx]; rfl
    | true =>
      rw [Outcome, hk, if_pos rfl] at hx
      obtain ⟨tree, h1, h2⟩ := hx
      rw [h1, Out.bind, treeRoot, h2, ih]
      simp only [Out.bind, Bool.true_and]
      split <;> rfl

theorem length_rootAnyParts : (ps : Parts) → (v : ps.denote) → (Spec.rootAnyParts H ps v).length = Spec.partCount ps
  | .nil, _ => rfl
  | .cons _ t ps, v => by rw [Spec.rootAnyParts, List.length_cons, length_rootAnyParts ps, Spec.partCount]

mutual
theorem hashTree_outcome : (t : Ty) → Spec.hashable t = true → (v : t.denote) → Spec.listsSmall t v = true →
    Outcome (hashTree H t v) (Spec.roomy t v) (Spec.rootAny H t v)
  | .uint64, hh, v, _ => by
    rw [Spec.roomy, Spec.rootAny]; exact (hashTree_root H .uint64 hh v rfl rfl).outcome
  | .boolean, hh, v, _ => by
    rw [Spec.roomy, Spec.rootAny]; exact (hashTree_root H .boolean hh v rfl rfl).outcome
  | .bytes n, hh, v, _ => by
    rw [Spec.roomy, Spec.rootAny]; exact (hashTree_root H (.bytes n) hh v rfl rfl).outcome
  | .bitvector n, hh, v, _ => by
    rw [Spec.roomy, Spec.rootAny]; exact (hashTree_root H (.bitvector n) hh v rfl rfl).outcome
  | .bitlist n, hh, v, _ => by
    simp only [Spec.hashable, decide_eq_true_eq] at hh
    rw [hashTree, bitlistHashTree, Spec.roomy, Spec.rootAny]
    by_cases hb : List.length v < 2 ^ 31
    · rw [if_neg (by omega), decide_eq_true hb, Bool.true_and]
      simp only [bitlistBytes_eq]
      have hh' := hh
      rw [Spec.chunkCount] at hh'
      refine Outcome.mixIn H (bytes_outcome H _ _ _ _ ?_ (by omega) hh (by rw [Spec.chunkCount]; exact chunk_limit n (by omega))) (by omega)
      rw [Spec.bitlistBytes, length_packBits]
      omega
    · rw [if_pos (by omega), decide_eq_false hb, Bool.false_and]; rfl
  | .vector t n, hh, v, hs => by
    have hh0 := hh
    simp only [Spec.hashable, Bool.and_eq_true, decide_eq_true_eq, Bool.not_eq_true'] at hh
    obtain ⟨⟨⟨h1, h2⟩, h3⟩, h4⟩ := hh
    rw [Spec.rootAny, Spec.roomy]
    by_cases hbas : Spec.isBasic t = true
    · rw [if_pos hbas]
      have := eq_uint64_of_basic h2 hbas
      subst this
      have hr : (v.1.all fun x => Spec.roomy .uint64 x) = true := List.all_eq_true.2 fun x _ => rfl
      rw [hr]
      exact (hashTree_root H (.vector .uint64 n) hh0 v (by rw [Spec.withinLimits, List.all_eq_true]; exact fun _ _ => rfl)
        (by rw [Spec.bitlistsShort, List.all_eq_true]; exact fun _ _ => rfl)).outcome
    · rw [if_neg hbas, hashTree, isBasicObject_eq h2, if_neg hbas]
      simp only [Spec.listsSmall, List.all_eq_true] at hs
      rw [rootsLoop_outcome _ (fun x => Spec.roomy t x) (fun x => Spec.rootAny H t x) v.1 (fun x hx => hashTree_outcome t h1 x (hs x hx))]
      simp only [Spec.chunkCount, if_neg hbas] at h4
      have hlen : (v.1.map fun x => Spec.rootAny H t x).length = n := by rw [List.length_map, v.2]
      have := chunks_root H (v.1.map fun x => Spec.rootAny H t x) (by omega) (by omega)
      rw [hlen] at this
      rw [Outcome]
      split
      · simp only [Out.bind]
        split
        · rename_i hn
          subst hn
          obtain ⟨c, hc⟩ := List.length_eq_one_iff.1 hlen
          refine ⟨_, rfl, ?_⟩
          rw [hc, List.getLast?_singleton, Spec.merkleize, depthFor_one]
          rfl
        · exact this
      · rfl
  | .listF t n, hh, v, hs => by
    simp only [Spec.hashable, Bool.and_eq_true, decide_eq_true_eq, Bool.not_eq_true'] at hh
    obtain ⟨⟨h1, h2⟩, h4⟩ := hh
    simp only [Spec.listsSmall, Bool.and_eq_true, decide_eq_true_eq, List.all_eq_true] at hs
    rw [hashTree, isBasicObject_eq h2, Spec.rootAny, Spec.roomy]
    by_cases hbas : Spec.isBasic t = true
    · rw [if_pos hbas, if_pos hbas, if_pos hbas]
      have := eq_uint64_of_basic h2 hbas
      subst this
      have hr : (List.all v fun x => Spec.roomy .uint64 x) = true := List.all_eq_true.2 fun x _ => rfl
      rw [hr, Bool.and_true, serialize_of_short (by rw [Spec.bitlistsShort, List.all_eq_true]; exact fun _ _ => rfl), serializeBytes_listF,
        serialize_uint64s, Out.bind]
      simp only [Spec.chunkCount, Spec.isBasic, if_true, Spec.fixedSize] at h4 ⊢
      refine Outcome.mixIn H (bytes_outcome H _ _ _ _ (by rw [length_encode_uint64s]) (by omega) h4 (chunk_limit_basic n (by omega))) (by omega)
    · rw [if_neg hbas, if_neg hbas, if_neg hbas]
      simp only [Spec.chunkCount, if_neg hbas] at h4
      rw [rootsLoop_outcome _ (fun x => Spec.roomy t x) (fun x => Spec.rootAny H t x) v (fun x hx => hashTree_outcome t h1 x (hs.2 x hx))]
      have key := Outcome.mixIn H (orZero_outcome H (List.map (fun x => Spec.rootAny H t x) v) (BitVec.ofNat 64 n) n (by rw [List.length_map]; exact hs.1) h4
        (by rw [BitVec.toNat_ofNat, Nat.mod_eq_of_lt (by omega)])) (n := List.length v) (by omega)
      rw [List.length_map] at key
      cases hall : (List.all v fun x => Spec.roomy t x) with
      | true => rw [if_pos rfl, Bool.and_true]; exact key
      | false => rw [Bool.and_false]; rfl
  | .listV t n, hh, v, hs => by
    simp only [Spec.hashable, Bool.and_eq_true, decide_eq_true_eq, Bool.not_eq_true'] at hh
    obtain ⟨⟨h1, h2⟩, h4⟩ := hh
    have hbas : ¬ Spec.isBasic t = true := by simp [h2]
    simp only [Spec.listsSmall, Bool.and_eq_true, decide_eq_true_eq, List.all_eq_true] at hs
    rw [hashTree, Spec.rootAny, Spec.roomy]
    simp only [Spec.chunkCount, if_neg hbas] at h4
    rw [rootsLoop_outcome _ (fun x => Spec.roomy t x) (fun x => Spec.rootAny H t x) v (fun x hx => hashTree_outcome t h1 x (hs.2 x hx))]
    have key := Outcome.mixIn H (orZero_outcome H (List.map (fun x => Spec.rootAny H t x) v) (BitVec.ofNat 64 n) n (by rw [List.length_map]; exact hs.1) h4
      (by rw [BitVec.toNat_ofNat, Nat.mod_eq_of_lt (by omega)])) (n := List.length v) (by omega)
    rw [List.length_map] at key
    cases hall : (List.all v fun x => Spec.roomy t x) with
    | true => rw [if_pos rfl, Bool.and_true]; exact key
    | false => rw [Bool.and_false]; rfl
  | .container s e .nil, hh, v, hs => by
    simp [Spec.hashable, Spec.partCount] at hh
  | .container s e (.cons name t ps), hh, v, hs => by
    simp only [Spec.hashable, Bool.and_eq_true, decide_eq_true_eq] at hh
    obtain ⟨⟨h1, h2⟩, h3⟩ := hh
    have hp := hashTreeParts_outcome (.cons name t ps) h1 v hs
    have hlen := length_rootAnyParts H (.cons name t ps) v
    have := chunks_root H (Spec.rootAnyParts H (.cons name t ps) v) (by omega) (by rw [hlen]; exact h3)
    rw [hlen] at this
    rw [hashTree, hp, Spec.roomy, Spec.rootAny, Outcome]
    split
    · exact this
    · rfl

theorem hashTreeParts_outcome : (ps : Parts) → Spec.hashableParts ps = true → (v : ps.denote) → Spec.listsSmallParts ps v = true →
    hashTreeParts H ps v = if Spec.roomyParts ps v then .ok (Spec.rootAnyParts H ps v) else .ub
  | .nil, _, _, _ => rfl
  | .cons _ t ps, hh, v, hs => by
    simp only [Spec.hashableParts, Bool.and_eq_true] at hh
    simp only [Spec.listsSmallParts, Bool.and_eq_true] at hs
    have hx := hashTree_outcome t hh.1 v.1 hs.1
    rw [hashTreeParts, hashTreeParts_outcome ps hh.2 v.2 hs.2, Spec.roomyParts, Spec.rootAnyParts]
    cases hk : Spec.roomy t v.1 with
    | false =>
      rw [Outcome, hk, if_neg Bool.false_ne_true] at hx
      rw [hx]; rfl
    | true =>
      rw [Outcome, hk, if_pos rfl] at hx
      obtain ⟨tree, h1, h2⟩ := hx
      rw [h1, Out.bind, treeRoot, h2]
      simp only [Out.bind, Bool.true_and]
      split <;> rfl
end

end Mammon
