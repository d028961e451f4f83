import Verif.Spec.Binding
import Verif.Spec.Classes
import Verif.Proofs.HashTreeRoot
/-!
# Equal roots: equal values or a collision
-/

namespace Mammon

open Spec (perfect padded depthFor Collision)

variable (H : Chunk → Chunk → Chunk)

theorem Collision.mono {H : Chunk → Chunk → Chunk} {P Q P' Q' : Chunk → Chunk → Prop} (h : Collision H P Q) (hP : ∀ a b, P a b → P' a b)
    (hQ : ∀ a b, Q a b → Q' a b) : Collision H P' Q' := by
  obtain ⟨a, b, c, d, h1, h2, h3⟩ := h
  exact ⟨a, b, c, d, hP _ _ h1, hQ _ _ h2, h3⟩

theorem perfect_binding : ∀ (d : Nat) (f g : Nat → Chunk), perfect H d f = perfect H d g →
    (∀ i, i < 2 ^ d → f i = g i) ∨ Collision H (Spec.perfectHashes H d f) (Spec.perfectHashes H d g) := by
  intro d
  induction d with
  | zero =>
    intro f g h
    refine Or.inl fun i hi => ?_
    rw [show i = 0 by simp at hi; exact hi]
    exact h
  | succ d ih =>
    intro f g h
    rw [perfect, perfect] at h
    by_cases he : perfect H d f = perfect H d g ∧ (perfect H d fun i => f (2 ^ d + i)) = perfect H d fun i => g (2 ^ d + i)
    · rcases ih _ _ he.1 with h1 | h1
      · rcases ih _ _ he.2 with h2 | h2
        · refine Or.inl fun i hi => ?_
          rcases Nat.lt_or_ge i (2 ^ d) with h' | h'
          · exact h1 i h'
          · have := h2 (i - 2 ^ d) (by rw [Nat.pow_succ] at hi; omega)
            rwa [show 2 ^ d + (i - 2 ^ d) = i by omega] at this
        · exact Or.inr (Collision.mono h2 (fun _ _ h => Or.inr (Or.inr h)) fun _ _ h => Or.inr (Or.inr h))
      · exact Or.inr (Collision.mono h1 (fun _ _ h => Or.inr (Or.inl h)) fun _ _ h => Or.inr (Or.inl h))
    · refine Or.inr ⟨_, _, _, _, Or.inl ⟨rfl, rfl⟩, Or.inl ⟨rfl, rfl⟩, ?_, h⟩
      intro hp
      rw [Prod.mk.injEq] at hp
      exact he hp

theorem merkleize_binding {l r : List Chunk} {k : Nat} (hlen : l.length = r.length) (hk : l.length ≤ k)
    (h : Spec.merkleize H l k = Spec.merkleize H r k) : l = r ∨ Collision H (Spec.merkleHashes H l k) (Spec.merkleHashes H r k) := by
  refine (perfect_binding H _ _ _ h).imp (fun h => ?_) id
  apply List.ext_getElem hlen
  intro i h1 h2
  have := h i (by have := (depthFor_spec k).1; omega)
  simpa [padded, List.getD_eq_getElem?_getD, h1, h2] using this

theorem length_le_pack (bs : List Byte) : bs.length ≤ 32 * (Spec.pack bs).length := by rw [length_pack]; omega

theorem pack_inj {bs cs : List Byte} (hlen : bs.length = cs.length) (h : Spec.pack bs = Spec.pack cs) : bs = cs := by
  apply List.ext_getElem hlen
  intro i h1 h2
  have hi : i / 32 < (bs.length + 31) / 32 := by omega
  have hc := congrArg (fun l => l[i / 32]?) h
  simp only [Spec.pack, List.getElem?_map, List.getElem?_range hi, List.getElem?_range (hlen ▸ hi), Option.map_some, Option.some.injEq] at hc
  have hb := congrArg (fun c : Chunk => c.1[i % 32]?) hc
  have hj : i % 32 < 32 := Nat.mod_lt _ (by decide)
  simp only [List.getElem?_map, List.getElem?_range hj, Option.map_some, Option.some.injEq, Nat.div_add_mod] at hb
  simpa [List.getD_eq_getElem?_getD, h1, h2] using hb

theorem packed_binding {bs cs : List Byte} {k : Nat} (hlen : bs.length = cs.length) (hk : (bs.length + 31) / 32 ≤ k)
    (h : Spec.merkleize H (Spec.pack bs) k = Spec.merkleize H (Spec.pack cs) k) :
    bs = cs ∨ Collision H (Spec.merkleHashes H (Spec.pack bs) k) (Spec.merkleHashes H (Spec.pack cs) k) := by
  have hl : (Spec.pack bs).length = (Spec.pack cs).length := by rw [length_pack, length_pack, hlen]
  exact (merkleize_binding H hl (by rw [length_pack]; exact hk) h).imp (pack_inj hlen) id

theorem uintLE_inj {k m n : Nat} (hm : m < 256 ^ k) (hn : n < 256 ^ k) (h : Spec.uintLE k m = Spec.uintLE k n) : m = n := by
  rw [← leBytes_eq_uintLE, ← leBytes_eq_uintLE] at h
  have := congrArg fromLE h
  rwa [fromLE_leBytes, fromLE_leBytes, Nat.mod_eq_of_lt hm, Nat.mod_eq_of_lt hn] at this

theorem mix_binding {r r' : Chunk} {m n : Nat} (hm : m < 2 ^ 256) (hn : n < 2 ^ 256) (h : Spec.mixInLength H r m = Spec.mixInLength H r' n) :
    (r = r' ∧ m = n) ∨ Collision H (Spec.mixHashes r m) (Spec.mixHashes r' n) := by
  by_cases he : r = r' ∧ m = n
  · exact Or.inl he
  · refine Or.inr ⟨_, _, _, _, ⟨rfl, rfl⟩, ⟨rfl, rfl⟩, ?_, h⟩
    intro hp
    rw [Prod.mk.injEq] at hp
    refine he ⟨hp.1, ?_⟩
    have h256 : (256 : Nat) ^ 32 = 2 ^ 256 := by decide
    exact uintLE_inj (k := 32) (by rw [h256]; exact hm) (by rw [h256]; exact hn) (congrArg Subtype.val hp.2)

theorem packBits_inj {n : Nat} {v w : List Bool} (hv : v.length = n) (hw : w.length = n) {k : Nat} (hk : n ≤ 8 * k)
    (h : Spec.packBits k (fun i => v.getD i false) = Spec.packBits k fun i => w.getD i false) : v = w := by
  apply List.ext_getElem (by omega)
  intro i h1 h2
  have hb := congrArg (fun l => bitAt l i) h
  rw [bitAt_packBits _ _ _ (by omega), bitAt_packBits _ _ _ (by omega)] at hb
  simpa [List.getD_eq_getElem?_getD, h1, h2, show i < 8 * k by omega] using hb

theorem map_binding {α : Type} {f : α → Chunk} {P : α → Chunk → Chunk → Prop} {l r : List α}
    (h : ∀ x ∈ l, ∀ y ∈ r, f x = f y → x = y ∨ Collision H (P x) (P y)) (he : l.map f = r.map f) :
    l = r ∨ Collision H (fun a b => ∃ x ∈ l, P x a b) (fun a b => ∃ x ∈ r, P x a b) := by
  induction l generalizing r with
  | nil =>
    cases r with
    | nil => exact Or.inl rfl
    | cons y r => simp at he
  | cons x l ih =>
    cases r with
    | nil => simp at he
    | cons y r =>
      rw [List.map_cons, List.map_cons, List.cons.injEq] at he
      rcases h x (by simp) y (by simp) he.1 with h1 | h1
      · rcases ih (fun x hx y hy => h x (by simp [hx]) y (by simp [hy])) he.2 with h2 | h2
        · exact Or.inl (by rw [h1, h2])
        · exact Or.inr (Collision.mono h2 (fun a b ⟨x, hx, hp⟩ => ⟨x, by simp [hx], hp⟩) fun a b ⟨x, hx, hp⟩ => ⟨x, by simp [hx], hp⟩)
      · exact Or.inr (Collision.mono h1 (fun a b hp => ⟨x, by simp, hp⟩) fun a b hp => ⟨y, by simp, hp⟩)

theorem uint64_inj {v w : BitVec 64} (h : Spec.encode .uint64 v = Spec.encode .uint64 w) : v = w := by
  rw [Spec.encode, Spec.encode] at h
  exact BitVec.eq_of_toNat_eq (uintLE_inj v.isLt w.isLt h)

theorem uint64s_inj {l r : List (BitVec 64)} (hlen : l.length = r.length)
    (h : (l.map fun x => Spec.encode .uint64 x).flatten = (r.map fun x => Spec.encode .uint64 x).flatten) : l = r := by
  induction l generalizing r with
  | nil => cases r with
    | nil => rfl
    | cons _ _ => simp at hlen
  | cons x l ih => cases r with
    | nil => simp at hlen
    | cons y r =>
      rw [List.map_cons, List.map_cons, List.flatten_cons, List.flatten_cons] at h
      have h8 : ∀ z, (Spec.encode .uint64 z).length = 8 := fun z => by rw [Spec.encode, ← leBytes_eq_uintLE, length_leBytes]
      have := List.append_inj h (by rw [h8, h8])
      rw [uint64_inj this.1, ih (by simpa using hlen) this.2]

/-- Lists of roots with their length mixed in. -/
theorem list_binding {α : Type} {f : α → Chunk} {P : α → Chunk → Chunk → Prop} {l r : List α} {k : Nat} (hk : k < 2 ^ 256)
    (hl : l.length ≤ k) (hr : r.length ≤ k)
    (h : ∀ x ∈ l, ∀ y ∈ r, f x = f y → x = y ∨ Collision H (P x) (P y))
    (he : Spec.mixInLength H (Spec.merkleize H (l.map f) k) l.length = Spec.mixInLength H (Spec.merkleize H (r.map f) k) r.length) :
    l = r ∨ Collision H
      (fun a b => Spec.mixHashes (Spec.merkleize H (l.map f) k) l.length a b ∨ Spec.merkleHashes H (l.map f) k a b ∨ ∃ x ∈ l, P x a b)
      (fun a b => Spec.mixHashes (Spec.merkleize H (r.map f) k) r.length a b ∨ Spec.merkleHashes H (r.map f) k a b ∨ ∃ x ∈ r, P x a b) := by
  rcases mix_binding H (by omega) (by omega) he with h1 | h1
  · rcases merkleize_binding H (by rw [List.length_map, List.length_map, h1.2]) (by rw [List.length_map]; exact hl) h1.1 with h2 | h2
    · rcases map_binding H h h2 with h3 | h3
      · exact Or.inl h3
      · exact Or.inr (Collision.mono h3 (fun _ _ h => Or.inr (Or.inr h)) fun _ _ h => Or.inr (Or.inr h))
    · exact Or.inr (Collision.mono h2 (fun _ _ h => Or.inr (Or.inl h)) fun _ _ h => Or.inr (Or.inl h))
  · exact Or.inr (Collision.mono h1 (fun _ _ h => Or.inl h) fun _ _ h => Or.inl h)

mutual
theorem root_binding : (t : Ty) → Spec.hashable t = true → (v w : t.denote) → Spec.withinLimits t v = true → Spec.withinLimits t w = true →
    Spec.root H t v = Spec.root H t w → v = w ∨ Collision H (Spec.rootHashes H t v) (Spec.rootHashes H t w)
  | .uint64, _, v, w, _, _, h => by
    have h8 : ∀ z, (Spec.encode .uint64 z).length = 8 := fun z => by rw [Spec.encode, ← leBytes_eq_uintLE, length_leBytes]
    rw [Spec.root, Spec.root] at h
    exact (packed_binding H (by rw [h8, h8]) (by rw [h8]) h).imp uint64_inj id
  | .boolean, _, v, w, _, _, h => by
    rw [Spec.root, Spec.root] at h
    refine (packed_binding H (by rw [Spec.encode, Spec.encode]; rfl) (by rw [Spec.encode, List.length_singleton]) h).imp (fun h => ?_) id
    rw [Spec.encode, Spec.encode] at h
    cases v <;> cases w <;> first | rfl | simp at h
  | .bytes n, _, v, w, _, _, h => by
    rw [Spec.root, Spec.root] at h
    exact (packed_binding H (by rw [v.2, w.2]) (by rw [v.2, Spec.chunkCount]) h).imp Subtype.ext id
  | .bitvector n, _, v, w, _, _, h => by
    rw [Spec.root, Spec.root] at h
    refine (packed_binding H (by simp [Spec.bitvector, length_packBits]) (by rw [Spec.bitvector, length_packBits, Spec.chunkCount]; omega) h).imp
      (fun h => ?_) id
    exact Subtype.ext (packBits_inj v.2 w.2 (by omega) h)
  | .bitlist n, hh, v, w, hv, hw, h => by
    simp only [Spec.hashable, decide_eq_true_eq] at hh
    rw [Spec.chunkCount] at hh
    simp only [Spec.withinLimits, decide_eq_true_eq] at hv hw
    rw [Spec.root, Spec.root] at h
    rcases mix_binding H (by omega) (by omega) h with h1 | h1
    · refine (packed_binding H (by simp [Spec.bitlistBytes, length_packBits, h1.2])
        (by rw [Spec.bitlistBytes, length_packBits, Spec.chunkCount]; omega) h1.1).imp (fun h2 => ?_) fun h2 => ?_
      · rw [Spec.bitlistBytes, Spec.bitlistBytes, ← h1.2] at h2
        exact packBits_inj rfl h1.2.symm (by omega) h2
      · exact Collision.mono h2 (fun _ _ h => Or.inr h) fun _ _ h => Or.inr h
    · exact Or.inr (Collision.mono h1 (fun _ _ h => Or.inl h) fun _ _ h => Or.inl h)
  | .vector t n, hh, v, w, hv, hw, h => by
    simp only [Spec.hashable, Bool.and_eq_true, decide_eq_true_eq, Bool.not_eq_true'] at hh
    obtain ⟨⟨⟨h1, h2⟩, h3⟩, h4⟩ := hh
    rw [Spec.root, Spec.root] at h
    by_cases hbas : Spec.isBasic t = true
    · rw [if_pos hbas, if_pos hbas] at h
      have := eq_uint64_of_basic h2 hbas
      subst this
      simp only [Spec.rootHashes, if_pos hbas]
      refine (packed_binding H (by rw [length_encode_uint64s, length_encode_uint64s, v.2, w.2])
        (by rw [length_encode_uint64s, v.2]; simp only [Spec.chunkCount, Spec.isBasic, if_true, Spec.fixedSize]; omega) h).imp (fun h => ?_) id
      exact Subtype.ext (uint64s_inj (by rw [v.2, w.2]) h)
    · rw [if_neg hbas, if_neg hbas] at h
      simp only [Spec.rootHashes, if_neg hbas]
      simp only [Spec.withinLimits, List.all_eq_true] at hv hw
      rcases merkleize_binding H (by rw [List.length_map, List.length_map, v.2, w.2])
        (by rw [List.length_map, v.2, Spec.chunkCount, if_neg hbas]) h with h5 | h5
      · rcases map_binding H (P := fun x => Spec.rootHashes H t x)
          (fun x hx y hy he => root_binding t h1 x y (hv x hx) (hw y hy) he) h5 with h6 | h6
        · exact Or.inl (Subtype.ext h6)
        · exact Or.inr (Collision.mono h6 (fun _ _ h => Or.inr h) fun _ _ h => Or.inr h)
      · exact Or.inr (Collision.mono h5 (fun _ _ h => Or.inl h) fun _ _ h => Or.inl h)
  | .listF t n, hh, v, w, hv, hw, h => by
    simp only [Spec.hashable, Bool.and_eq_true, decide_eq_true_eq, Bool.not_eq_true'] at hh
    obtain ⟨⟨h1, h2⟩, h4⟩ := hh
    rw [Spec.root, Spec.root] at h
    simp only [Spec.withinLimits, Bool.and_eq_true, decide_eq_true_eq, List.all_eq_true] at hv hw
    by_cases hbas : Spec.isBasic t = true
    · rw [if_pos hbas, if_pos hbas] at h
      have := eq_uint64_of_basic h2 hbas
      subst this
      simp only [Spec.rootHashes, if_pos hbas]
      simp only [Spec.chunkCount, Spec.isBasic, if_true, Spec.fixedSize] at h4
      rcases mix_binding H (by omega) (by omega) h with h1 | h1
      · refine (packed_binding H (by rw [length_encode_uint64s, length_encode_uint64s, h1.2])
          (by rw [length_encode_uint64s]; simp only [Spec.chunkCount, Spec.isBasic, if_true, Spec.fixedSize]; omega) h1.1).imp (fun h => ?_) fun h => ?_
        · exact uint64s_inj h1.2 h
        · exact Collision.mono h (fun _ _ h => Or.inr h) fun _ _ h => Or.inr h
      · exact Or.inr (Collision.mono h1 (fun _ _ h => Or.inl h) fun _ _ h => Or.inl h)
    · rw [if_neg hbas, if_neg hbas] at h
      simp only [Spec.rootHashes, if_neg hbas]
      simp only [Spec.chunkCount, if_neg hbas] at h4 h ⊢
      exact list_binding H (P := fun x => Spec.rootHashes H t x) (by omega) hv.1 hw.1
        (fun x hx y hy he => root_binding t h1 x y (hv.2 x hx) (hw.2 y hy) he) h
  | .listV t n, hh, v, w, hv, hw, h => by
    simp only [Spec.hashable, Bool.and_eq_true, decide_eq_true_eq, Bool.not_eq_true'] at hh
    obtain ⟨⟨h1, h2⟩, h4⟩ := hh
    have hbas : ¬ Spec.isBasic t = true := by simp [h2]
    rw [Spec.root, Spec.root, if_neg hbas, if_neg hbas] at h
    simp only [Spec.withinLimits, Bool.and_eq_true, decide_eq_true_eq, List.all_eq_true] at hv hw
    simp only [Spec.rootHashes, if_neg hbas]
    simp only [Spec.chunkCount, if_neg hbas] at h4 h ⊢
    exact list_binding H (P := fun x => Spec.rootHashes H t x) (by omega) hv.1 hw.1
      (fun x hx y hy he => root_binding t h1 x y (hv.2 x hx) (hw.2 y hy) he) h
  | .container s e ps, hh, v, w, hv, hw, h => by
    simp only [Spec.hashable, Bool.and_eq_true, decide_eq_true_eq, Spec.chunkCount] at hh
    rw [Spec.root, Spec.root] at h
    rcases merkleize_binding H (by rw [length_rootParts, length_rootParts]) (by rw [length_rootParts, Spec.chunkCount]) h with h1 | h1
    · rcases rootParts_binding ps hh.1.1 v w hv hw h1 with h2 | h2
      · exact Or.inl h2
      · exact Or.inr (Collision.mono h2 (fun _ _ h => Or.inr h) fun _ _ h => Or.inr h)
    · exact Or.inr (Collision.mono h1 (fun _ _ h => Or.inl h) fun _ _ h => Or.inl h)

theorem rootParts_binding : (ps : Parts) → Spec.hashableParts ps = true → (v w : ps.denote) → Spec.withinLimitsParts ps v = true →
    Spec.withinLimitsParts ps w = true → Spec.rootParts H ps v = Spec.rootParts H ps w →
    v = w ∨ Collision H (Spec.rootHashesParts H ps v) (Spec.rootHashesParts H ps w)
  | .nil, _, _, _, _, _, _ => Or.inl rfl
  | .cons _ t ps, hh, v, w, hv, hw, h => by
    simp only [Spec.hashableParts, Bool.and_eq_true] at hh
    simp only [Spec.withinLimitsParts, Bool.and_eq_true] at hv hw
    rw [Spec.rootParts, Spec.rootParts, List.cons.injEq] at h
    rcases root_binding t hh.1 v.1 w.1 hv.1 hw.1 h.1 with h1 | h1
    · rcases rootParts_binding ps hh.2 v.2 w.2 hv.2 hw.2 h.2 with h2 | h2
      · exact Or.inl (Prod.ext h1 h2)
      · exact Or.inr (Collision.mono h2 (fun _ _ h => Or.inr h) fun _ _ h => Or.inr h)
    · exact Or.inr (Collision.mono h1 (fun _ _ h => Or.inl h) fun _ _ h => Or.inl h)
end

end Mammon
