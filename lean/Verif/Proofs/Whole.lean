import Verif.Spec.Whole
import Verif.Spec.Classes
import Verif.Proofs.Decode
/-!
# Bit vectors as byte vectors
-/

namespace Mammon.Spec

open Verdict

mutual
theorem isVariable_whole : (t : Ty) → isVariable (whole t) = isVariable t
  | .uint64 => rfl
  | .boolean => rfl
  | .bytes _ => rfl
  | .bitvector _ => rfl
  | .bitlist _ => rfl
  | .vector t n => by simp only [whole, isVariable, isVariable_whole t]
  | .listF t n => rfl
  | .listV t n => rfl
  | .container _ _ ps => by simp only [whole, isVariable, anyVariable_whole ps]

theorem anyVariable_whole : (ps : Parts) → anyVariable (wholeParts ps) = anyVariable ps
  | .nil => rfl
  | .cons _ t ps => by simp only [wholeParts, anyVariable, isVariable_whole t, anyVariable_whole ps]
end

mutual
theorem fixedSize_whole : (t : Ty) → fixedSize (whole t) = fixedSize t
  | .uint64 => rfl
  | .boolean => rfl
  | .bytes _ => rfl
  | .bitvector _ => rfl
  | .bitlist _ => rfl
  | .vector t n => by simp only [whole, fixedSize, fixedSize_whole t]
  | .listF t n => rfl
  | .listV t n => rfl
  | .container _ _ ps => by simp only [whole, fixedSize, fixedSizeParts_whole ps]

theorem fixedSizeParts_whole : (ps : Parts) → fixedSizeParts (wholeParts ps) = fixedSizeParts ps
  | .nil => rfl
  | .cons _ t ps => by simp only [wholeParts, fixedSizeParts, isVariable_whole t, fixedSize_whole t, fixedSizeParts_whole ps]
end

mutual
theorem wf_whole : (t : Ty) → wf t = true → wf (whole t) = true
  | .uint64, _ => rfl
  | .boolean, _ => rfl
  | .bytes _, h => h
  | .bitvector n, h => by
    simp only [whole, wf, decide_eq_true_eq] at h ⊢
    omega
  | .bitlist _, _ => rfl
  | .vector t n, h => by
    simp only [whole, wf, Bool.and_eq_true, isVariable_whole] at h ⊢
    exact ⟨⟨wf_whole t h.1.1, h.1.2⟩, h.2⟩
  | .listF t n, h => by
    simp only [whole, wf, Bool.and_eq_true, isVariable_whole] at h ⊢
    exact ⟨wf_whole t h.1, h.2⟩
  | .listV t n, h => by
    simp only [whole, wf, Bool.and_eq_true, isVariable_whole] at h ⊢
    exact ⟨wf_whole t h.1, h.2⟩
  | .container _ _ ps, h => by
    simp only [whole, wf, Bool.and_eq_true, fixedSizeParts_whole, anyVariable_whole] at h ⊢
    exact ⟨⟨⟨wfParts_whole ps h.1.1.1, h.1.1.2⟩, h.1.2⟩, h.2⟩

theorem wfParts_whole : (ps : Parts) → wfParts ps = true → wfParts (wholeParts ps) = true
  | .nil, _ => rfl
  | .cons _ t ps, h => by
    simp only [wholeParts, wfParts, Bool.and_eq_true] at h ⊢
    exact ⟨wf_whole t h.1, wfParts_whole ps h.2⟩
end

mutual
theorem wholeBytes_whole : (t : Ty) → wholeBytes (whole t) = true
  | .uint64 => rfl
  | .boolean => rfl
  | .bytes _ => rfl
  | .bitvector n => rfl
  | .bitlist _ => rfl
  | .vector t n => by simp only [whole, wholeBytes, wholeBytes_whole t]
  | .listF t n => by simp only [whole, wholeBytes, wholeBytes_whole t]
  | .listV t n => by simp only [whole, wholeBytes, wholeBytes_whole t]
  | .container _ _ ps => by simp only [whole, wholeBytes, wholeBytesParts_whole ps]

theorem wholeBytesParts_whole : (ps : Parts) → wholeBytesParts (wholeParts ps) = true
  | .nil => rfl
  | .cons _ t ps => by simp only [wholeParts, wholeBytesParts, wholeBytes_whole t, wholeBytesParts_whole ps, Bool.and_self]
end

theorem sszSize_whole : (t : Ty) → (whole t).sszSize = t.sszSize
  | .uint64 => rfl
  | .boolean => rfl
  | .bytes _ => rfl
  | .bitvector n => by simp [whole, Ty.sszSize, BITS_PER_BYTE]
  | .bitlist _ => rfl
  | .vector t n => by simp only [whole, Ty.sszSize, sszSize_whole t]
  | .listF t n => rfl
  | .listV t n => rfl
  | .container _ _ ps => rfl

mutual
theorem forget_dflt : (t : Ty) → forget t (whole t).dflt = t.dflt
  | .uint64 => rfl
  | .boolean => rfl
  | .bytes _ => rfl
  | .bitvector n => by
    apply Subtype.ext
    simp only [forget, whole, Ty.dflt, bitsOf]
    apply List.ext_getElem?
    intro i
    by_cases h : i < n
    · rw [List.getElem?_map, List.getElem?_range h, List.getElem?_replicate, if_pos h]
      simp [List.getD_replicate]
    · rw [List.getElem?_eq_none (by simpa using h), List.getElem?_eq_none (by simpa using h)]
  | .bitlist _ => rfl
  | .vector t n => by
    apply Subtype.ext
    simp only [forget, whole, Ty.dflt, List.map_replicate, forget_dflt t]
  | .listF t n => rfl
  | .listV t n => rfl
  | .container _ _ ps => forgetParts_dflt ps

theorem forgetParts_dflt : (ps : Parts) → forgetParts ps (wholeParts ps).dflt = ps.dflt
  | .nil => rfl
  | .cons _ t ps => by
    show (forget t (whole t).dflt, forgetParts ps (wholeParts ps).dflt) = (t.dflt, ps.dflt)
    rw [forget_dflt t, forgetParts_dflt ps]
end

/-- A verdict with the value mapped. -/
def Verdict.image {α β : Type} (f : α → β) (x : Verdict α) : Verdict β := x.andThen fun a => accepted (f a)

theorem image_ite {α β : Type} (f : α → β) (p : Prop) [Decidable p] (x y : Verdict α) :
    Verdict.image f (if p then x else y) = if p then Verdict.image f x else Verdict.image f y := by split <;> rfl

theorem image_rejected {α β : Type} (f : α → β) : Verdict.image f (rejected : Verdict α) = rejected := rfl
theorem image_accepted {α β : Type} (f : α → β) (a : α) : Verdict.image f (accepted a) = accepted (f a) := rfl
theorem image_undefined {α β : Type} (f : α → β) : Verdict.image f (undefined : Verdict α) = undefined := rfl

theorem void_image {α β : Type} (f : α → β) (x : Verdict α) : (Verdict.image f x).void = x.void := by cases x <;> rfl

theorem value_image {α β : Type} (f : α → β) (x : Verdict α) (d : α) : (Verdict.image f x).value (f d) = f (x.value d) := by cases x <;> rfl

theorem andThen_image {α β γ : Type} (f : α → β) (x : Verdict α) (g : β → Verdict γ) :
    (Verdict.image f x).andThen g = x.andThen fun a => g (f a) := by cases x <;> rfl

theorem inOrder_image {α β : Type} (f : α → β) : (n : Nat) → (g : Nat → Verdict α) →
    inOrder n (fun k => Verdict.image f (g k)) =
      Verdict.image (fun v : Vec α n => (⟨v.1.map f, by rw [List.length_map]; exact v.2⟩ : Vec β n)) (inOrder n g)
  | 0, g => rfl
  | n + 1, g => by
    rw [inOrder, inOrder, inOrder_image f n]
    cases g 0 with
    | accepted a => cases inOrder n fun k => g (k + 1) <;> rfl
    | rejected => rfl
    | undefined => rfl

theorem offsetPositions_whole : (ps : Parts) → (i : Nat) → offsetPositions (wholeParts ps) i = offsetPositions ps i
  | .nil, _ => rfl
  | .cons _ t ps, i => by
    simp only [wholeParts, offsetPositions, isVariable_whole, fixedSize_whole, offsetPositions_whole ps]

theorem endOf_whole (ps : Parts) (bs : List Byte) (i : Nat) : endOf (wholeParts ps) bs i = endOf ps bs i := by
  simp only [endOf, offsetPositions_whole]

mutual
/-- A type decodes what the type with byte vectors decodes, and forgets the padding bits. -/
theorem decode_whole : (t : Ty) → (bs : List Byte) → decode t bs = Verdict.image (forget t) (decode (whole t) bs)
  | .uint64, bs => by
    simp only [whole, decode]
    split <;> rfl
  | .boolean, bs => by
    simp only [whole, decode]
    split
    · rfl
    · split <;> rfl
  | .bytes n, bs => by
    simp only [whole, decode]
    split <;> rfl
  | .bitvector n, bs => by
    simp only [whole, decode]
    split <;> rfl
  | .bitlist n, bs => by
    simp only [whole, decode]
    cases bs.getLast? with
    | none => rfl
    | some b =>
      simp only
      split <;> rfl
  | .vector t n, bs => by
    simp only [whole, decode, fixedSize_whole]
    have : (fun k => decode t (range bs (k * fixedSize t) ((k + 1) * fixedSize t))) =
      fun k => Verdict.image (forget t) (decode (whole t) (range bs (k * fixedSize t) ((k + 1) * fixedSize t))) :=
      funext fun k => decode_whole t _
    rw [this, inOrder_image]
    split <;> rfl
  | .listF t l, bs => by
    simp only [whole]
    rw [decode, decode, fixedSize_whole]
    have : (fun k => decode t (range bs (k * fixedSize t) ((k + 1) * fixedSize t))) =
      fun k => Verdict.image (forget t) (decode (whole t) (range bs (k * fixedSize t) ((k + 1) * fixedSize t))) :=
      funext fun k => decode_whole t _
    rw [this, inOrder_image, andThen_image]
    split
    · generalize inOrder _ _ = x
      cases x <;> rfl
    · rfl
  | .listV t l, bs => by
    simp only [whole, decode]
    have h : ∀ k : Nat, (if k + 1 < readOffset bs 0 / 4 then
          if readOffset bs (4 * k) ≤ readOffset bs (4 * (k + 1)) ∧ readOffset bs (4 * (k + 1)) ≤ bs.length then
            decode t (range bs (readOffset bs (4 * k)) (readOffset bs (4 * (k + 1)))) else rejected
        else if readOffset bs 0 % 4 = 0 then decode t (range bs (readOffset bs (4 * k)) bs.length) else rejected) =
      Verdict.image (forget t) (if k + 1 < readOffset bs 0 / 4 then
          if readOffset bs (4 * k) ≤ readOffset bs (4 * (k + 1)) ∧ readOffset bs (4 * (k + 1)) ≤ bs.length then
            decode (whole t) (range bs (readOffset bs (4 * k)) (readOffset bs (4 * (k + 1)))) else rejected
        else if readOffset bs 0 % 4 = 0 then decode (whole t) (range bs (readOffset bs (4 * k)) bs.length) else rejected) := by
      intro k
      simp only [image_ite, image_rejected, ← decode_whole t]
    rw [funext h, inOrder_image, andThen_image]
    split
    · rfl
    split
    · rfl
    generalize inOrder _ _ = x
    cases x <;> rfl
  | .container _ _ ps, bs => by
    simp only [whole, decode, fixedSizeParts_whole, walk_whole ps, contents_whole ps]
    generalize walk _ _ _ _ _ = x
    cases x <;> rfl

theorem walk_whole : (ps : Parts) → (bs : List Byte) → (fl i : Nat) → (before : Option (Nat × (Nat → Verdict Unit))) →
    walk ps bs fl i before = walk (wholeParts ps) bs fl i before
  | .nil, _, _, _, _ => rfl
  | .cons _ t ps, bs, fl, i, before => by
    simp only [wholeParts, walk, isVariable_whole, fixedSize_whole, walk_whole ps, decode_whole t, void_image, andThen_image]

theorem contents_whole : (ps : Parts) → (bs : List Byte) → (i : Nat) →
    contents ps bs i = forgetParts ps (contents (wholeParts ps) bs i)
  | .nil, _, _ => rfl
  | .cons _ t ps, bs, i => by
    simp only [wholeParts, contents, isVariable_whole, fixedSize_whole, contents_whole ps, decode_whole t, endOf_whole,
      ← forget_dflt t, value_image]
    split <;> rfl
end

/-- Assembled parts of the same lengths have the same length. -/
theorem length_assemble_congr {X Y : List (Bool × List Byte)}
    (h : List.Forall₂ (fun x y => x.1 = y.1 ∧ x.2.length = y.2.length) X Y) : (assemble X).length = (assemble Y).length := by
  rw [assemble_eq, assemble_eq, List.length_append, List.length_append, length_headsL, length_headsL]
  have h1 : fixedLenL X = fixedLenL Y := by
    induction h with
    | nil => rfl
    | cons h _ ih => rw [fixedLenL, fixedLenL, ih, h.1, h.2]
  have h2 : (tailsL X).length = (tailsL Y).length := by
    clear h1
    induction h with
    | nil => rfl
    | @cons x y _ _ h _ ih =>
      rw [tailsL, tailsL, List.length_append, List.length_append, ih, ← h.1]
      split
      · rw [h.2]
      · rfl
  rw [h1, h2]

theorem forall₂_map_map {α β γ δ : Type} (R : γ → δ → Prop) (f : α → γ) (g : β → δ) (h : β → α) (l : List β)
    (hR : ∀ x, R (f (h x)) (g x)) : List.Forall₂ R ((l.map h).map f) (l.map g) := by
  induction l with
  | nil => exact .nil
  | cons x l ih => exact .cons (hR x) ih

mutual
theorem length_encode_forget : (t : Ty) → (w : (whole t).denote) → (encode t (forget t w)).length = (encode (whole t) w).length
  | .uint64, _ => rfl
  | .boolean, _ => rfl
  | .bytes _, _ => rfl
  | .bitvector n, w => by
    simp only [whole, encode]
    rw [show w.1.length = (n + 7) / 8 from w.2]
    simp [bitvector, packBits]
  | .bitlist _, _ => rfl
  | .vector t n, w => by
    simp only [whole, encode, forget]
    exact length_assemble_congr (forall₂_map_map _ _ _ _ _ fun x => ⟨(isVariable_whole t).symm, length_encode_forget t x⟩)
  | .listF t n, w => by
    simp only [whole, encode, forget]
    exact length_assemble_congr (forall₂_map_map _ _ _ _ _ fun x => ⟨(isVariable_whole t).symm, length_encode_forget t x⟩)
  | .listV t n, w => by
    simp only [whole, encode, forget]
    exact length_assemble_congr (forall₂_map_map _ _ _ _ _ fun x => ⟨(isVariable_whole t).symm, length_encode_forget t x⟩)
  | .container _ _ ps, w => by
    simp only [whole, encode, forget]
    exact length_assemble_congr (length_encode_forgetParts ps w)

theorem length_encode_forgetParts : (ps : Parts) → (w : (wholeParts ps).denote) →
    List.Forall₂ (fun x y => x.1 = y.1 ∧ x.2.length = y.2.length) (encodeParts ps (forgetParts ps w)) (encodeParts (wholeParts ps) w)
  | .nil, _ => .nil
  | .cons _ t ps, w => .cons ⟨(isVariable_whole t).symm, length_encode_forget t w.1⟩ (length_encode_forgetParts ps w.2)
end

end Mammon.Spec
