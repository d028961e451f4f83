import Verif.Model.Strict
import Verif.Spec.Packed
import Verif.Proofs.Encode
/-! # Hashing with checked iterators -/

namespace Mammon

variable (H : Chunk → Chunk → Chunk)

theorem packStrict_eq (bs : List Byte) : packStrict bs = if 32 ∣ bs.length then .ok (packLoop bs) else .ub := by
  rw [packStrict, packLoop]
  split
  · rename_i h; subst h; simp
  · rename_i h
    have hp : 0 < bs.length := List.length_pos_iff.2 h
    split
    · rename_i hl
      simp only [BYTES_PER_CHUNK] at hl
      rw [if_neg (by omega)]
    · rename_i hl
      simp only [BYTES_PER_CHUNK] at hl ⊢
      have ih := packStrict_eq (bs.drop 32)
      rw [ih, List.length_drop]
      by_cases hd : 32 ∣ bs.length
      · rw [if_pos (by omega), if_pos hd]; rfl
      · rw [if_neg (by omega), if_neg hd]; rfl
termination_by bs.length
decreasing_by simp only [List.length_drop]; omega

theorem hashTreeOfBytesStrict_eq (bs : List Byte) (limit : BitVec 64) :
    hashTreeOfBytesStrict H bs limit = if 32 ∣ bs.length then hashTreeOfBytes H bs limit else .ub := by
  rw [hashTreeOfBytesStrict, hashTreeOfBytes, packAndPad, packStrict_eq]
  by_cases h : bs = []
  · subst h; rfl
  · rw [if_neg h, if_neg h]
    split <;> rfl

theorem length_foldl_slots (l : List (BitVec 64)) : ∀ acc : List Byte,
    (l.foldl (fun ret p => ret ++ serializeBytes .uint64 p) acc).length = acc.length + 8 * l.length := by
  induction l with
  | nil => intro acc; rfl
  | cons x l ih =>
    intro acc
    rw [List.foldl_cons, ih, List.length_append, List.length_cons]
    have : (serializeBytes .uint64 x).length = 8 := by rw [serializeBytes]; simp [leBytes]
    omega

theorem isBasicObject_isInteger (t : Ty) : isBasicObject t = Spec.isInteger t := by cases t <;> rfl

theorem eq_uint64 {t : Ty} (h : Spec.isInteger t = true) : t = .uint64 := by cases t <;> first | rfl | cases h

theorem serialize_ok {t : Ty} {v : t.denote} (h : serializeUB t v = false) : serialize t v = .ok (serializeBytes t v) := by
  rw [serialize, h]; rfl

theorem any_slots (l : List (BitVec 64)) : (l.any fun p => serializeUB .uint64 p) = false := by
  rw [List.any_eq_false]
  intro x _
  rw [serializeUB]; exact Bool.false_ne_true

theorem rootsLoop_congr {α : Type} {f g : α → Out (List Chunk)} : ∀ (l : List α), (∀ x ∈ l, f x = g x) → rootsLoop f l = rootsLoop g l
  | [], _ => rfl
  | x :: l, h => by rw [rootsLoop, rootsLoop, h x List.mem_cons_self, rootsLoop_congr l fun y hy => h y (List.mem_cons_of_mem _ hy)]

theorem rootsLoop_ok {α : Type} {f : α → Out (List Chunk)} : ∀ (l : List α) {r : List Chunk}, rootsLoop f l = .ok r → ∀ x ∈ l, ∃ u, f x = .ok u
  | [], _, _ => fun x hx => absurd hx (by simp)
  | y :: l, r, h => by
    rw [rootsLoop] at h
    intro x hx
    cases hf : f y with
    | ok u =>
      rw [hf] at h
      simp only [Out.bind] at h
      cases ht : treeRoot u with
      | ok c =>
        rw [ht] at h
        simp only [] at h
        rcases List.mem_cons.1 hx with rfl | hx
        · exact ⟨u, hf⟩
        · cases hr : rootsLoop f l with
          | ok rs => exact rootsLoop_ok l hr x hx
          | throws e => rw [hr] at h; cases h
          | ub => rw [hr] at h; cases h
      | throws e => rw [ht] at h; cases h
      | ub => rw [ht] at h; cases h
    | throws e => rw [hf] at h; cases h
    | ub => rw [hf] at h; cases h

theorem bind_ok' {α β : Type} {x : Out α} {f : α → Out β} {b : β} (h : x.bind f = .ok b) : ∃ a, x = .ok a ∧ f a = .ok b := by
  cases x with
  | ok a => exact ⟨a, rfl, h⟩
  | throws e => cases h
  | ub => cases h

mutual
theorem hashTreeStrict_eq : (t : Ty) → (v : t.denote) → Spec.WholeChunks t v → hashTreeStrict H t v = hashTree H t v
  | .uint64, v, _ => by rw [hashTreeStrict, hashTree]
  | .boolean, v, h => by rw [Spec.WholeChunks] at h; exact h.elim
  | .bytes n, v, h => by
    rw [Spec.WholeChunks] at h
    rw [hashTreeStrict, hashTree, serialize_ok (by rw [serializeUB])]
    simp only [Out.bind]
    rw [hashTreeOfBytesStrict_eq, serializeBytes, if_pos (by rw [v.2]; exact h)]
  | .bitvector n, v, h => by
    rw [Spec.WholeChunks] at h
    rw [hashTreeStrict, hashTree, serialize_ok (by rw [serializeUB])]
    simp only [Out.bind]
    rw [hashTreeOfBytesStrict_eq, serializeBytes, if_pos (by rw [length_bitvectorSerialize]; exact h)]
  | .bitlist l, v, h => by
    rw [Spec.WholeChunks] at h
    rw [hashTreeStrict, hashTree, bitlistHashTreeStrict, bitlistHashTree]
    simp only [hashTreeOfBytesStrict_eq, length_orBitsFrom, List.length_replicate, BITS_PER_BYTE]
    rw [if_pos (c := 32 ∣ _) (by rw [show (List.length v + 8 - 1) = List.length v + 7 by omega]; exact h)]
  | .vector t n, v, h => by
    rw [Spec.WholeChunks] at h
    rw [hashTreeStrict, hashTree]
    simp only [isBasicObject_isInteger]
    by_cases hi : Spec.isInteger t = true
    · rw [if_pos hi] at h ⊢
      rw [if_pos hi]
      have := eq_uint64 hi
      subst this
      rw [serialize_ok (by rw [serializeUB]; exact any_slots v.1)]
      simp only [Out.bind]
      rw [hashTreeOfBytesStrict_eq, serializeBytes, if_pos (by rw [length_foldl_slots, v.2]; simpa using h)]
    · rw [if_neg hi] at h ⊢
      rw [if_neg hi, rootsLoop_congr v.1 fun x hx => hashTreeStrict_eq t x (h x hx)]
  | .listF t l, v, h => by
    rw [Spec.WholeChunks] at h
    rw [hashTreeStrict, hashTree]
    simp only [isBasicObject_isInteger]
    by_cases hi : Spec.isInteger t = true
    · rw [if_pos hi] at h ⊢
      rw [if_pos hi]
      have := eq_uint64 hi
      subst this
      rw [serialize_ok (by rw [serializeUB]; exact any_slots v)]
      simp only [Out.bind]
      rw [hashTreeOfBytesStrict_eq, serializeBytes, if_pos (by rw [length_foldl_slots]; simpa using h)]
    · rw [if_neg hi] at h ⊢
      rw [if_neg hi, rootsLoop_congr v fun x hx => hashTreeStrict_eq t x (h x hx)]
  | .listV t l, v, h => by
    rw [Spec.WholeChunks] at h
    rw [hashTreeStrict, hashTree, rootsLoop_congr v fun x hx => hashTreeStrict_eq t x (h x hx)]
  | .container _ _ .nil, v, h => by rw [hashTreeStrict, hashTree]
  | .container _ _ (.cons name t ps), v, h => by
    rw [Spec.WholeChunks] at h
    rw [hashTreeStrict, hashTree, hashTreePartsStrict_eq _ v h]

theorem hashTreePartsStrict_eq : (ps : Parts) → (v : ps.denote) → Spec.WholeChunksParts ps v → hashTreePartsStrict H ps v = hashTreeParts H ps v
  | .nil, _, _ => by rw [hashTreePartsStrict, hashTreeParts]
  | .cons _ t ps, v, h => by
    rw [Spec.WholeChunksParts] at h
    rw [hashTreePartsStrict, hashTreeParts, hashTreeStrict_eq t v.1 h.1, hashTreePartsStrict_eq ps v.2 h.2]
end

mutual
theorem wholeChunks_of_strict : (t : Ty) → (v : t.denote) → (u : List Chunk) → hashTreeStrict H t v = .ok u → Spec.WholeChunks t v
  | .uint64, v, _, _ => by rw [Spec.WholeChunks]; trivial
  | .boolean, v, u, h => by
    rw [hashTreeStrict, serialize_ok (by rw [serializeUB])] at h
    simp only [Out.bind] at h
    rw [hashTreeOfBytesStrict_eq, serializeBytes, if_neg (by simp [leBytes])] at h
    cases h
  | .bytes n, v, u, h => by
    rw [hashTreeStrict, serialize_ok (by rw [serializeUB])] at h
    simp only [Out.bind] at h
    rw [hashTreeOfBytesStrict_eq, serializeBytes, v.2] at h
    rw [Spec.WholeChunks]
    by_cases hd : 32 ∣ n
    · exact hd
    · rw [if_neg hd] at h; cases h
  | .bitvector n, v, u, h => by
    rw [hashTreeStrict, serialize_ok (by rw [serializeUB])] at h
    simp only [Out.bind] at h
    rw [hashTreeOfBytesStrict_eq, serializeBytes, length_bitvectorSerialize] at h
    rw [Spec.WholeChunks]
    by_cases hd : 32 ∣ (n + 7) / 8
    · exact hd
    · rw [if_neg hd] at h; cases h
  | .bitlist l, v, u, h => by
    rw [hashTreeStrict, bitlistHashTreeStrict] at h
    simp only [hashTreeOfBytesStrict_eq, length_orBitsFrom, List.length_replicate, BITS_PER_BYTE] at h
    rw [Spec.WholeChunks]
    by_cases hd : 32 ∣ (List.length v + 7) / 8
    · exact hd
    · split at h
      · cases h
      · rw [if_neg (by rw [show (List.length v + 8 - 1) = List.length v + 7 by omega]; exact hd)] at h
        cases h
  | .vector t n, v, u, h => by
    rw [hashTreeStrict] at h
    simp only [isBasicObject_isInteger] at h
    rw [Spec.WholeChunks]
    by_cases hi : Spec.isInteger t = true
    · rw [if_pos hi] at h ⊢
      have := eq_uint64 hi
      subst this
      rw [serialize_ok (by rw [serializeUB]; exact any_slots v.1)] at h
      simp only [Out.bind] at h
      rw [hashTreeOfBytesStrict_eq, serializeBytes, length_foldl_slots, v.2] at h
      by_cases hd : 32 ∣ 8 * n
      · exact hd
      · rw [if_neg (by simpa using hd)] at h; cases h
    · rw [if_neg hi] at h ⊢
      obtain ⟨r, hr, -⟩ := bind_ok' h
      intro x hx
      obtain ⟨w, hw⟩ := rootsLoop_ok v.1 hr x hx
      exact wholeChunks_of_strict t x w hw
  | .listF t l, v, u, h => by
    rw [hashTreeStrict] at h
    simp only [isBasicObject_isInteger] at h
    rw [Spec.WholeChunks]
    by_cases hi : Spec.isInteger t = true
    · rw [if_pos hi] at h ⊢
      have := eq_uint64 hi
      subst this
      rw [serialize_ok (by rw [serializeUB]; exact any_slots v)] at h
      simp only [Out.bind] at h
      rw [hashTreeOfBytesStrict_eq, serializeBytes, length_foldl_slots] at h
      by_cases hd : 32 ∣ 8 * List.length v
      · exact hd
      · rw [if_neg (by simpa using hd)] at h; cases h
    · rw [if_neg hi] at h ⊢
      obtain ⟨r, hr, -⟩ := bind_ok' h
      intro x hx
      obtain ⟨w, hw⟩ := rootsLoop_ok v hr x hx
      exact wholeChunks_of_strict t x w hw
  | .listV t l, v, u, h => by
    rw [hashTreeStrict] at h
    rw [Spec.WholeChunks]
    obtain ⟨r, hr, -⟩ := bind_ok' h
    intro x hx
    obtain ⟨w, hw⟩ := rootsLoop_ok v hr x hx
    exact wholeChunks_of_strict t x w hw
  | .container _ _ .nil, v, u, h => by rw [Spec.WholeChunks, Spec.WholeChunksParts]; trivial
  | .container _ _ (.cons name t ps), v, u, h => by
    rw [hashTreeStrict] at h
    obtain ⟨r, hr, -⟩ := bind_ok' h
    rw [Spec.WholeChunks]
    exact wholeChunksParts_of_strict _ v r hr

theorem wholeChunksParts_of_strict : (ps : Parts) → (v : ps.denote) → (r : List Chunk) → hashTreePartsStrict H ps v = .ok r → Spec.WholeChunksParts ps v
  | .nil, _, _, _ => by rw [Spec.WholeChunksParts]; trivial
  | .cons _ t ps, v, r, h => by
    rw [hashTreePartsStrict] at h
    obtain ⟨u, h1, h⟩ := bind_ok' h
    obtain ⟨c, -, h⟩ := bind_ok' h
    rw [Spec.WholeChunksParts]
    refine ⟨wholeChunks_of_strict t v.1 u h1, ?_⟩
    cases h2 : hashTreePartsStrict H ps v.2 with
    | ok rs => exact wholeChunksParts_of_strict ps v.2 rs h2
    | throws e => rw [h2] at h; cases h
    | ub => rw [h2] at h; cases h
end

/-! ## the outcome is the same or undefined -/

theorem bind_or {α β : Type} {x y : Out α} {f : α → Out β} (h : x = .ub ∨ x = y) : x.bind f = .ub ∨ x.bind f = y.bind f := by
  rcases h with rfl | rfl
  · exact .inl rfl
  · exact .inr rfl

theorem bind_or' {α β : Type} {x y : Out α} {f g : α → Out β} (h : x = .ub ∨ x = y) (hf : ∀ a, f a = .ub ∨ f a = g a) :
    x.bind f = .ub ∨ x.bind f = y.bind g := by
  rcases h with rfl | rfl
  · exact .inl rfl
  · cases x with
    | ok a => exact hf a
    | throws e => exact .inr rfl
    | ub => exact .inl rfl

theorem map_or {α β : Type} {x y : Out α} {f : α → β} (h : x = .ub ∨ x = y) : x.map f = .ub ∨ x.map f = y.map f := by
  rcases h with rfl | rfl
  · exact .inl rfl
  · exact .inr rfl

theorem ofBytesStrict_or (bs : List Byte) (limit : BitVec 64) :
    hashTreeOfBytesStrict H bs limit = .ub ∨ hashTreeOfBytesStrict H bs limit = hashTreeOfBytes H bs limit := by
  rw [hashTreeOfBytesStrict_eq]
  split
  · exact .inr rfl
  · exact .inl rfl

theorem rootsLoop_or {α : Type} {f g : α → Out (List Chunk)} (h : ∀ x, f x = .ub ∨ f x = g x) : ∀ l : List α,
    rootsLoop f l = .ub ∨ rootsLoop f l = rootsLoop g l
  | [] => .inr rfl
  | x :: l => by
    rw [rootsLoop, rootsLoop]
    refine bind_or' (h x) fun u => ?_
    exact bind_or' (.inr rfl) fun r => map_or (rootsLoop_or h l)

mutual
theorem hashTreeStrict_or : (t : Ty) → (v : t.denote) → hashTreeStrict H t v = .ub ∨ hashTreeStrict H t v = hashTree H t v
  | .uint64, v => by rw [hashTreeStrict, hashTree]; exact .inr rfl
  | .boolean, v => by rw [hashTreeStrict, hashTree]; exact bind_or' (.inr rfl) fun bs => ofBytesStrict_or H bs _
  | .bytes n, v => by rw [hashTreeStrict, hashTree]; exact bind_or' (.inr rfl) fun bs => ofBytesStrict_or H bs _
  | .bitvector n, v => by rw [hashTreeStrict, hashTree]; exact bind_or' (.inr rfl) fun bs => ofBytesStrict_or H bs _
  | .bitlist l, v => by
    rw [hashTreeStrict, hashTree, bitlistHashTreeStrict, bitlistHashTree]
    split
    · exact .inl rfl
    · exact bind_or (ofBytesStrict_or H _ _)
  | .vector t n, v => by
    rw [hashTreeStrict, hashTree]
    split
    · exact bind_or' (.inr rfl) fun bs => ofBytesStrict_or H bs _
    · exact bind_or (rootsLoop_or (hashTreeStrict_or t) v.1)
  | .listF t l, v => by
    rw [hashTreeStrict, hashTree]
    split
    · exact bind_or' (.inr rfl) fun bs => bind_or (ofBytesStrict_or H bs _)
    · exact bind_or (rootsLoop_or (hashTreeStrict_or t) v)
  | .listV t l, v => by
    rw [hashTreeStrict, hashTree]
    exact bind_or (rootsLoop_or (hashTreeStrict_or t) v)
  | .container _ _ .nil, v => by rw [hashTreeStrict, hashTree]; exact .inr rfl
  | .container _ _ (.cons name t ps), v => by
    rw [hashTreeStrict, hashTree]
    exact bind_or (hashTreePartsStrict_or _ v)

theorem hashTreePartsStrict_or : (ps : Parts) → (v : ps.denote) → hashTreePartsStrict H ps v = .ub ∨ hashTreePartsStrict H ps v = hashTreeParts H ps v
  | .nil, _ => by rw [hashTreePartsStrict, hashTreeParts]; exact .inr rfl
  | .cons _ t ps, v => by
    rw [hashTreePartsStrict, hashTreeParts]
    exact bind_or' (hashTreeStrict_or t v.1) fun u => bind_or' (.inr rfl) fun r => map_or (hashTreePartsStrict_or ps v.2)
end

end Mammon
