import Mathlib.SetTheory.Cardinal.Finite
import Verif.Spec.Spare
import Verif.Proofs.Whole
import Verif.Proofs.Bits
/-!
# Counting what `forget` forgets
-/

namespace Mammon.Spec

theorem card_one {α : Type} (P : α → Prop) (a : α) (h : ∀ x, P x ↔ x = a) : Nat.card {x // P x} = 1 := by
  haveI : Nonempty {x // P x} := ⟨⟨a, (h a).2 rfl⟩⟩
  haveI : Subsingleton {x // P x} := ⟨fun x y => Subtype.ext (((h _).1 x.2).trans ((h _).1 y.2).symm)⟩
  exact Nat.card_unique

/-- Preimages of a list are lists of preimages. -/
theorem card_map {α β : Type} (f : α → β) (s : β → Nat) (hf : ∀ x, Nat.card {w // f w = x} = 2 ^ s x) :
    (l : List β) → Nat.card {ws : List α // ws.map f = l} = 2 ^ (l.map s).sum
  | [] => card_one _ [] fun ws => by simp
  | x :: l => by
    rw [List.map_cons, List.sum_cons, Nat.pow_add, ← hf x, ← card_map f s hf l, ← Nat.card_prod]
    refine (Nat.card_eq_of_bijective
      (fun p : {w // f w = x} × {ws : List α // ws.map f = l} =>
        (⟨p.1.1 :: p.2.1, by rw [List.map_cons, p.1.2, p.2.2]⟩ : {ws : List α // ws.map f = x :: l})) ⟨?_, ?_⟩).symm
    · rintro ⟨⟨a, ha⟩, ⟨b, hb⟩⟩ ⟨⟨c, hc⟩, ⟨d, hd⟩⟩ h
      have h' := congrArg Subtype.val h
      simp only [List.cons.injEq] at h'
      obtain ⟨rfl, rfl⟩ := h'
      rfl
    · rintro ⟨ws, hws⟩
      cases ws with
      | nil => simp at hws
      | cons w ws =>
        simp only [List.map_cons, List.cons.injEq] at hws
        exact ⟨(⟨w, hws.1⟩, ⟨ws, hws.2⟩), rfl⟩

theorem bitsOf_eq_iff (n : Nat) (bs : List Byte) (v : List Bool) (hv : v.length = n) :
    bitsOf n bs = v ↔ ∀ i, i < n → bitAt bs i = v.getD i false := by
  constructor
  · rintro rfl i hi
    rw [bitsOf, List.getD_eq_getElem?_getD, List.getElem?_map, List.getElem?_range hi]
    rfl
  · intro h
    apply List.ext_getElem (by rw [bitsOf, List.length_map, List.length_range, hv])
    intro i h1 h2
    have := h i (by omega)
    rw [List.getD_eq_getElem _ _ h2] at this
    rw [← this]
    simp only [bitsOf, List.getElem_map, List.getElem_range]
    rfl

/-- Byte vectors with given first bits: the other bits are free. -/
theorem card_bits (n m : Nat) (hn : n ≤ 8 * m) (v : List Bool) (hv : v.length = n) :
    Nat.card {w : Vec Byte m // bitsOf n w.1 = v} = 2 ^ (8 * m - n) := by
  have hc : Nat.card (Fin (8 * m - n) → Bool) = 2 ^ (8 * m - n) := by
    rw [Nat.card_fun, Nat.card_eq_fintype_card, Nat.card_eq_fintype_card, Fintype.card_bool, Fintype.card_fin]
  rw [← hc]
  refine Nat.card_eq_of_bijective (fun w i => bitAt w.1.1 (n + i)) ⟨?_, ?_⟩
  · rintro ⟨⟨a, ha⟩, h1⟩ ⟨⟨b, hb⟩, h2⟩ h
    have h1' := (bitsOf_eq_iff n a v hv).1 h1
    have h2' := (bitsOf_eq_iff n b v hv).1 h2
    apply Subtype.ext
    apply Subtype.ext
    apply bytes_ext (ha.trans hb.symm)
    intro p hp
    by_cases hpn : p < n
    · exact (h1' p hpn).trans (h2' p hpn).symm
    · have := congrFun h ⟨p - n, by rw [ha] at hp; omega⟩
      simpa only [Nat.add_sub_cancel' (Nat.le_of_not_lt hpn)] using this
  · intro g
    let f : Nat → Bool := fun i => if i < n then v.getD i false else if h : i - n < 8 * m - n then g ⟨i - n, h⟩ else false
    refine ⟨⟨⟨packBits m f, length_packBits m f⟩, ?_⟩, ?_⟩
    · rw [bitsOf_eq_iff n _ v hv]
      intro i hi
      rw [bitAt_packBits _ _ _ (by omega)]
      exact if_pos hi
    · funext i
      have hi := i.2
      show bitAt (packBits m f) (n + i) = g i
      rw [bitAt_packBits _ _ _ (by omega)]
      simp only [f]
      rw [if_neg (by omega), dif_pos (by omega)]
      congr 1
      exact Fin.ext (Nat.add_sub_cancel_left ..)

theorem card_vec {α β : Type} (f : α → β) (n : Nat) (v : Vec β n) :
    Nat.card {w : Vec α n // (⟨w.1.map f, by rw [List.length_map]; exact w.2⟩ : Vec β n) = v} =
      Nat.card {ws : List α // ws.map f = v.1} := by
  refine Nat.card_eq_of_bijective (fun w => ⟨w.1.1, congrArg Subtype.val w.2⟩) ⟨?_, ?_⟩
  · rintro ⟨⟨a, ha⟩, h1⟩ ⟨⟨b, hb⟩, h2⟩ h
    have h' := congrArg Subtype.val h
    exact Subtype.ext (Subtype.ext h')
  · rintro ⟨ws, hws⟩
    exact ⟨⟨⟨ws, by rw [← List.length_map (f := f), hws]; exact v.2⟩, Subtype.ext hws⟩, rfl⟩

mutual
/-- As many ways to fill up an object as there are contents of its padding bits. -/
theorem card_forget : (t : Ty) → (v : t.denote) → Nat.card {w : (whole t).denote // forget t w = v} = 2 ^ spare t v
  | .uint64, v => card_one _ v fun _ => Iff.rfl
  | .boolean, v => card_one _ v fun _ => Iff.rfl
  | .bytes _, v => card_one _ v fun _ => Iff.rfl
  | .bitvector n, v => by
    rw [spare, ← card_bits n ((n + 7) / 8) (by omega) v.1 v.2]
    refine Nat.card_eq_of_bijective (fun w => ⟨w.1, congrArg Subtype.val w.2⟩) ⟨?_, ?_⟩
    · intro a b h
      exact Subtype.ext (congrArg Subtype.val h :)
    · rintro ⟨w, hw⟩
      exact ⟨⟨w, Subtype.ext hw⟩, rfl⟩
  | .bitlist _, v => card_one _ v fun _ => Iff.rfl
  | .vector t n, v => by
    rw [spare]
    exact (card_vec (forget t) n v).trans (card_map (forget t) (spare t) (card_forget t) v.1)
  | .listF t _, v => by
    rw [spare]
    exact card_map (forget t) (spare t) (card_forget t) v
  | .listV t _, v => by
    rw [spare]
    exact card_map (forget t) (spare t) (card_forget t) v
  | .container _ _ ps, v => by
    rw [spare]
    exact card_forgetParts ps v

/-- The same for all parts. -/
theorem card_forgetParts : (ps : Parts) → (v : ps.denote) →
    Nat.card {w : (wholeParts ps).denote // forgetParts ps w = v} = 2 ^ spareParts ps v
  | .nil, v => card_one _ v fun _ => ⟨fun _ => rfl, fun _ => rfl⟩
  | .cons _ t ps, v => by
    rw [spareParts, Nat.pow_add, ← card_forget t v.1, ← card_forgetParts ps v.2, ← Nat.card_prod]
    refine Nat.card_eq_of_bijective (fun w => (⟨w.1.1, congrArg Prod.fst w.2⟩, ⟨w.1.2, congrArg Prod.snd w.2⟩)) ⟨?_, ?_⟩
    · rintro ⟨⟨a, b⟩, h1⟩ ⟨⟨c, d⟩, h2⟩ h
      have h3 := congrArg (fun p => p.1.1) h
      have h4 := congrArg (fun p => p.2.1) h
      exact Subtype.ext (Prod.ext h3 h4)
    · rintro ⟨⟨a, ha⟩, ⟨b, hb⟩⟩
      exact ⟨⟨(a, b), Prod.ext ha hb⟩, rfl⟩
end

mutual
/-- Bit vectors of whole bytes have no padding. -/
theorem spare_wholeBytes : (t : Ty) → (v : t.denote) → wholeBytes t = true → spare t v = 0
  | .uint64, _, _ => rfl
  | .boolean, _, _ => rfl
  | .bytes _, _, _ => rfl
  | .bitvector n, _, h => by
    simp only [wholeBytes, decide_eq_true_eq] at h
    rw [spare]; omega
  | .bitlist _, _, _ => rfl
  | .vector t _, v, h => by
    rw [spare]; exact spare_map t v.1 h
  | .listF t _, v, h => by
    rw [spare]; exact spare_map t v h
  | .listV t _, v, h => by
    rw [spare]; exact spare_map t v h
  | .container _ _ ps, v, h => by
    rw [spare]; exact spareParts_wholeBytes ps v h

/-- Nor do lists of such objects. -/
theorem spare_map (t : Ty) (l : List t.denote) (h : wholeBytes t = true) : (l.map fun x => spare t x).sum = 0 := by
  induction l with
  | nil => rfl
  | cons x l ih => rw [List.map_cons, List.sum_cons, ih, spare_wholeBytes t x h]

/-- Nor do parts. -/
theorem spareParts_wholeBytes : (ps : Parts) → (v : ps.denote) → wholeBytesParts ps = true → spareParts ps v = 0
  | .nil, _, _ => rfl
  | .cons _ t ps, v, h => by
    simp only [wholeBytesParts, Bool.and_eq_true] at h
    rw [spareParts, spare_wholeBytes t v.1 h.1, spareParts_wholeBytes ps v.2 h.2]
end

mutual
/-- The padding bits that an object of the type has whatever it holds, if its lists are of types without padding. -/
def spareTy : Ty → Nat
  | .bitvector n => 8 * ((n + 7) / 8) - n
  | .vector t n => n * spareTy t
  | .container _ _ ps => sparePartsTy ps
  | _ => 0

/-- `spareTy` for all parts. -/
def sparePartsTy : Parts → Nat
  | .nil => 0
  | .cons _ t ps => spareTy t + sparePartsTy ps
end

mutual
/-- The lists in the type are of types without padding. -/
def listsWhole : Ty → Bool
  | .listF t _ => wholeBytes t
  | .listV t _ => wholeBytes t
  | .vector t _ => listsWhole t
  | .container _ _ ps => listsWholeParts ps
  | _ => true

/-- `listsWhole` for all parts. -/
def listsWholeParts : Parts → Bool
  | .nil => true
  | .cons _ t ps => listsWhole t && listsWholeParts ps
end

mutual
theorem spare_eq_spareTy : (t : Ty) → (v : t.denote) → listsWhole t = true → spare t v = spareTy t
  | .uint64, _, _ => rfl
  | .boolean, _, _ => rfl
  | .bytes _, _, _ => rfl
  | .bitvector n, _, _ => by rw [spare, spareTy]
  | .bitlist _, _, _ => rfl
  | .vector t n, v, h => by
    rw [spare, spareTy]
    rw [listsWhole] at h
    have key : ∀ l : List t.denote, (l.map fun x => spare t x).sum = l.length * spareTy t := by
      intro l
      induction l with
      | nil => simp
      | cons x l ih => rw [List.map_cons, List.sum_cons, ih, spare_eq_spareTy t x h, List.length_cons, Nat.succ_mul, Nat.add_comm]
    exact (key v.1).trans (congrArg (· * spareTy t) v.2)
  | .listF t _, v, h => by
    rw [spare]; exact spare_map t v h
  | .listV t _, v, h => by
    rw [spare]; exact spare_map t v h
  | .container _ _ ps, v, h => by
    rw [spare, spareTy]; exact spareParts_eq ps v h

theorem spareParts_eq : (ps : Parts) → (v : ps.denote) → listsWholeParts ps = true → spareParts ps v = sparePartsTy ps
  | .nil, _, _ => rfl
  | .cons _ t ps, v, h => by
    simp only [listsWholeParts, Bool.and_eq_true] at h
    rw [spareParts, sparePartsTy, spare_eq_spareTy t v.1 h.1, spareParts_eq ps v.2 h.2]
end

end Mammon.Spec
