import Verif.Proofs.Whole
import Verif.Props.Decode
/-!
# Properties of the padding bits of bit vectors: C06, C10
-/

namespace Mammon

theorem decode_of_accepted {t : Ty} (hw : Spec.wf t = true) {old v : t.denote} {bs : List Byte}
    (h : deserialize t old bs = .ok (true, v)) : Spec.decode t bs = .accepted v := by
  have := C60_exact t hw old bs
  cases hd : Spec.decode t bs with
  | accepted w => rw [hd] at this; simp only [] at this; rw [h] at this; cases this; rfl
  | rejected => rw [hd] at this; obtain ⟨w, hw⟩ := this; rw [h] at hw; cases hw
  | undefined => rw [hd] at this; simp only [] at this; rw [h] at this; cases this

/-- What is accepted is an encoding with some padding bits. -/
theorem exists_whole {t : Ty} (hw : Spec.wf t = true) {old v : t.denote} {bs : List Byte}
    (hl : t.sszSize ≠ 0 → bs.length = t.sszSize) (h : deserialize t old bs = .ok (true, v)) :
    ∃ w, Spec.encode (Spec.whole t) w = bs ∧ Spec.forget t w = v := by
  have hd := decode_of_accepted hw h
  rw [Spec.decode_whole] at hd
  cases hx : Spec.decode (Spec.whole t) bs with
  | accepted w =>
    rw [hx, Spec.image_accepted] at hd
    cases hd
    have hd' := C60_exact (Spec.whole t) (Spec.wf_whole t hw) (Spec.whole t).dflt bs
    rw [hx] at hd'
    exact ⟨w, C06_canonical (Spec.whole t) (Spec.wf_whole t hw) (Spec.wholeBytes_whole t) _ w bs
      (by rw [Spec.sszSize_whole]; exact hl) hd', rfl⟩
  | rejected => rw [hx] at hd; cases hd
  | undefined => rw [hx] at hd; cases hd

/-- **C06** For every type, with or without bit vectors: the byte strings accepted (of the declared length, for fixed-size types) are exactly the encodings of the type
whose bit vectors are replaced by byte vectors of the same size, and the object is what remains when the padding bits are forgotten. So an object has as many accepted
encodings as its bit vectors have paddings, and everything else is canonical. -/
theorem C06_exact (t : Ty) (hw : Spec.wf t = true) (old v : t.denote) (bs : List Byte)
    (hl : t.sszSize ≠ 0 → bs.length = t.sszSize) (hs : bs.length < 2 ^ 32) :
    deserialize t old bs = .ok (true, v) ↔ ∃ w, Spec.encode (Spec.whole t) w = bs ∧ Spec.forget t w = v := by
  refine ⟨exists_whole hw hl, ?_⟩
  rintro ⟨w, rfl, rfl⟩
  have h := (C60_inverse (Spec.whole t) (Spec.wf_whole t hw) _ w hs).1 rfl
  have := C60_exact t hw old (Spec.encode (Spec.whole t) w)
  rw [Spec.decode_whole, h, Spec.image_accepted] at this
  exact this

/-- **C06** Re-encoding what was accepted gives as many bytes as were received. -/
theorem C06_length (t : Ty) (hw : Spec.wf t = true) (old v : t.denote) (bs : List Byte)
    (hl : t.sszSize ≠ 0 → bs.length = t.sszSize) (h : deserialize t old bs = .ok (true, v)) :
    (Spec.encode t v).length = bs.length := by
  obtain ⟨w, rfl, rfl⟩ := exists_whole hw hl h
  exact Spec.length_encode_forget t w

/-- **C10** Bit vectors: which byte strings decode to a given bit vector. -/
theorem C10_encodings_partial (n : Nat) (hn : 0 < n) (old v : Vec Bool n) (bs : List Byte) :
    deserialize (.bitvector n) old bs = .ok (true, v) ↔
      bs.length = (n + 7) / 8 ∧ ∀ i, i < n → (bs.getD (i / 8) 0#8).getLsbD (i % 8) = v.1.getD i false := by
  have h := C60_exact (.bitvector n) (by simpa [Spec.wf] using hn) old bs
  rw [Spec.decode] at h
  by_cases hb : bs.length = (n + 7) / 8
  · rw [if_pos hb] at h
    simp only [] at h
    rw [h]
    simp only [hb, true_and, Out.ok.injEq, Prod.mk.injEq]
    rw [Subtype.ext_iff]
    simp only [Spec.bitsOf]
    constructor
    · rintro hv i hi
      rw [← hv, List.getD_eq_getElem?_getD (l := List.map _ _), List.getElem?_map, List.getElem?_range hi]
      rfl
    · intro hv
      apply List.ext_getElem?
      intro i
      by_cases hi : i < n
      · rw [List.getElem?_map, List.getElem?_range hi, Option.map_some, hv i hi, List.getD_eq_getElem?_getD,
          List.getElem?_eq_getElem (by rw [v.2]; exact hi)]
        rfl
      · rw [List.getElem?_eq_none (by simpa using hi), List.getElem?_eq_none (by rw [v.2]; omega)]
  · rw [if_neg hb] at h
    obtain ⟨w, h⟩ := h
    rw [h]
    simp [hb]

example : deserialize (.bitvector 4) ⟨[false, false, false, false], rfl⟩ [0xf5#8] = .ok (true, ⟨[true, false, true, false], rfl⟩) ∧
    Spec.forget (.bitvector 4) ⟨[0xf5#8], rfl⟩ = ⟨[true, false, true, false], rfl⟩ := by
  decide +kernel

example : Spec.wf (Objects.beaconState mainnet) = true ∧ (Objects.beaconState mainnet).sszSize = 0 := by decide +kernel

end Mammon
