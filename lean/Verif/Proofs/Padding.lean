import Verif.Proofs.RoundTrip
/-! # Padding bits of bit vectors are ignored: alternative encodings -/

namespace Mammon

/-- The bytes with the top bit of the last byte flipped. -/
def flipTop (bs : List Byte) : List Byte := bs.modify (bs.length - 1) (· ^^^ 0x80#8)

theorem length_flipTop (bs : List Byte) : (flipTop bs).length = bs.length := by simp [flipTop]

theorem flipTop_ne (bs : List Byte) (h : bs ≠ []) : flipTop bs ≠ bs := by
  intro he
  have hpos := List.length_pos_iff.2 h
  have := congrArg (·[bs.length - 1]?) he
  rw [flipTop, List.getElem?_modify, List.getElem?_eq_getElem (by omega)] at this
  simp only [Option.map_eq_map, Option.map_some, Option.some.injEq, if_true] at this
  generalize bs[bs.length - 1] = b at this
  revert b; decide

theorem bitAt_flipTop (bs : List Byte) (p : Nat) (hp : p / 8 + 1 < bs.length ∨ p / 8 + 1 = bs.length ∧ p % 8 ≠ 7) :
    bitAt (flipTop bs) p = bitAt bs p := by
  unfold bitAt flipTop
  rw [List.getD_eq_getElem?_getD, List.getD_eq_getElem?_getD, List.getElem?_modify]
  split
  · rename_i h
    have h7 : p % 8 ≠ 7 := by omega
    rw [List.getElem?_eq_getElem (by omega)]
    simp only [Option.map_eq_map, Option.map_some, Option.getD_some, BitVec.getLsbD_xor]
    have : (0x80#8).getLsbD (p % 8) = false := by
      have : p % 8 < 8 := Nat.mod_lt _ (by decide)
      generalize p % 8 = k at *
      have : k = 0 ∨ k = 1 ∨ k = 2 ∨ k = 3 ∨ k = 4 ∨ k = 5 ∨ k = 6 := by omega
      rcases this with rfl | rfl | rfl | rfl | rfl | rfl | rfl <;> rfl
    rw [this, Bool.xor_false]
  · simp

/-- A bit vector of a length that is not a multiple of 8 decodes from its encoding with a padding bit flipped. -/
theorem bitvectorDeserialize_flipTop (n : Nat) (hn : n % 8 ≠ 0) (old v : Vec Bool n) :
    bitvectorDeserialize n old (flipTop (bitvectorSerialize n v.1)) = .ok (true, v) := by
  have hrt := bitvector_roundtrip n old v
  rw [bitvectorDeserialize, if_neg (by rw [length_bitvectorSerialize]; simp [BITS_PER_BYTE])] at hrt
  rw [bitvectorDeserialize, if_neg (by rw [length_flipTop, length_bitvectorSerialize]; simp [BITS_PER_BYTE])]
  rw [← hrt]
  congr 2
  apply Subtype.ext
  simp only
  rw [bitvectorStore_eq _ _ _ old.2 (by rw [length_flipTop, length_bitvectorSerialize]),
    bitvectorStore_eq _ _ _ old.2 (length_bitvectorSerialize _ _)]
  apply List.map_congr_left
  intro p hp
  rw [List.mem_range] at hp
  apply bitAt_flipTop
  rw [length_bitvectorSerialize]
  omega

/-- `partsL` with a padding bit flipped in the bit vectors of a length that is not a multiple of 8. -/
def partsFlip : (ps : Parts) → ps.denote → List (Bool × List Byte)
  | .nil, _ => []
  | .cons _ (.bitvector n) ps, v =>
    (false, if n % 8 = 0 then serializeBytes (.bitvector n) v.1 else flipTop (serializeBytes (.bitvector n) v.1)) :: partsFlip ps v.2
  | .cons _ t ps, v => (decide (t.sszSize = 0), serializeBytes t v.1) :: partsFlip ps v.2

theorem partsFlip_sim (ps : Parts) (hw : Spec.wfParts ps = true) (v : ps.denote) : List.Forall₂ (fun x y => x.1 = y.1 ∧ x.2.length = y.2.length ∧ (x.1 = true → x.2 = y.2))
    (partsFlip ps v) (partsL ps v) := by
  fun_induction partsFlip ps v with
  | case1 => exact .nil
  | case2 v n ps v' ih =>
    simp only [Spec.wfParts, Spec.wf, Bool.and_eq_true, decide_eq_true_eq] at hw
    rw [partsL]
    refine .cons ⟨?_, ?_, by simp⟩ (ih hw.2)
    · exact (decide_eq_false (by simp only [Ty.sszSize, BITS_PER_BYTE]; omega)).symm
    · simp only; split
      · rfl
      · rw [length_flipTop]
  | case3 v t ps _ v' ih =>
    simp only [Spec.wfParts, Bool.and_eq_true] at hw
    rw [partsL]
    exact .cons ⟨rfl, rfl, fun _ => rfl⟩ (ih hw.2)

theorem sim_fixedLenL {X Y : List (Bool × List Byte)}
    (h : List.Forall₂ (fun x y => x.1 = y.1 ∧ x.2.length = y.2.length ∧ (x.1 = true → x.2 = y.2)) X Y) : fixedLenL X = fixedLenL Y := by
  induction h with
  | nil => rfl
  | cons h _ ih => rw [fixedLenL, fixedLenL, ih, h.1, h.2.1]

theorem sim_tailsL {X Y : List (Bool × List Byte)}
    (h : List.Forall₂ (fun x y => x.1 = y.1 ∧ x.2.length = y.2.length ∧ (x.1 = true → x.2 = y.2)) X Y) : tailsL X = tailsL Y := by
  induction h with
  | nil => rfl
  | @cons x y _ _ h _ ih =>
    rw [tailsL, tailsL, ih, ← h.1]
    cases hx : x.1
    · rfl
    · rw [h.2.2 hx]

theorem sim_headsL {X Y : List (Bool × List Byte)} (off : Nat)
    (h : List.Forall₂ (fun x y => x.1 = y.1 ∧ x.2.length = y.2.length ∧ (x.1 = true → x.2 = y.2)) X Y)
    (he : headsL X off = headsL Y off) : X = Y := by
  induction h generalizing off with
  | nil => rfl
  | @cons x y _ _ h _ ih =>
    obtain ⟨xf, xb⟩ := x
    obtain ⟨yf, yb⟩ := y
    obtain ⟨h1, h2, h3⟩ := h
    simp only at h1 h2 h3
    subst h1
    cases xf
    · simp only [headsL, Bool.false_eq_true, if_false] at he
      obtain ⟨e1, e2⟩ := List.append_inj he h2
      rw [e1, ih _ e2]
    · simp only [headsL, if_true] at he
      obtain ⟨e1, e2⟩ := List.append_inj he (by simp [length_leBytes])
      have := h3 rfl
      subst this
      rw [ih _ e2]

theorem partsOK_partsFlip : (ps : Parts) → Spec.wfParts ps = true → (v old : ps.denote) →
    fixedLenL (partsL ps v) + (tailsL (partsL ps v)).length < 2 ^ 32 → PartsOK ps old v (partsFlip ps v)
  | .nil, _, v, old, _ => rfl
  | .cons _ t ps, hw, v, old, hs => by
    have h := partsOK_partsL _ hw v old hs
    simp only [Spec.wfParts, Bool.and_eq_true] at hw
    simp only [partsL, fixedLenL, tailsL, List.length_append] at hs
    have ih := partsOK_partsFlip ps hw.2 v.2 old.2 (by omega)
    obtain ⟨h1, h2, h3, -⟩ := h
    cases t with
    | bitvector n =>
      simp only [Spec.wf, decide_eq_true_eq] at hw
      refine ⟨?_, ?_, ?_, ih⟩
      · exact (decide_eq_false (by simp only [Ty.sszSize, BITS_PER_BYTE]; omega)).symm
      · intro _
        simp only [serializeBytes, Ty.sszSize]
        split
        · rw [length_bitvectorSerialize]; rfl
        · rw [length_flipTop, length_bitvectorSerialize]; rfl
      · simp only
        split
        · exact h3
        · rename_i hn
          exact bitvectorDeserialize_flipTop n hn _ _
    | uint64 => exact ⟨h1, h2, h3, ih⟩
    | boolean => exact ⟨h1, h2, h3, ih⟩
    | bytes => exact ⟨h1, h2, h3, ih⟩
    | bitlist => exact ⟨h1, h2, h3, ih⟩
    | vector => exact ⟨h1, h2, h3, ih⟩
    | listF => exact ⟨h1, h2, h3, ih⟩
    | listV => exact ⟨h1, h2, h3, ih⟩
    | container => exact ⟨h1, h2, h3, ih⟩

/-- Some direct part is a bit vector of a length that is not a multiple of 8. -/
def hasPaddedPart : Parts → Bool
  | .nil => false
  | .cons _ (.bitvector n) ps => decide (n % 8 ≠ 0) || hasPaddedPart ps
  | .cons _ _ ps => hasPaddedPart ps

theorem partsFlip_ne (ps : Parts) (hw : Spec.wfParts ps = true) (v : ps.denote) (h : hasPaddedPart ps = true) : partsFlip ps v ≠ partsL ps v := by
  fun_induction partsFlip ps v with
  | case1 => simp [hasPaddedPart] at h
  | case2 v n ps v' ih =>
    simp only [Spec.wfParts, Spec.wf, Bool.and_eq_true, decide_eq_true_eq] at hw
    rw [partsL]
    intro he
    obtain ⟨e1, e2⟩ := List.cons.inj he
    rw [hasPaddedPart] at h
    by_cases hn : n % 8 = 0
    · exact ih hw.2 (by simpa [hn] using h) e2
    · rw [if_neg hn] at e1
      refine flipTop_ne _ ?_ (congrArg Prod.snd e1)
      apply List.ne_nil_of_length_pos
      rw [serializeBytes, length_bitvectorSerialize]
      omega
  | case3 v t ps hnb v' ih =>
    simp only [Spec.wfParts, Bool.and_eq_true] at hw
    rw [partsL]
    intro he
    obtain ⟨e1, e2⟩ := List.cons.inj he
    refine ih hw.2 ?_ e2
    cases t with
    | bitvector n => exact absurd HEq.rfl (v' n hnb rfl)
    | _ => simpa only [hasPaddedPart] using h

/-- A container with such a part has a second encoding for each value. -/
theorem container_second_encoding (s : Nat) (e : Bool) (ps : Parts) (hw : Spec.wf (.container s e ps) = true) (hp : hasPaddedPart ps = true)
    (v old : ps.denote) (hs : (serializeBytes (.container s e ps) v).length < 2 ^ 32) :
    ∃ bs, bs ≠ serializeBytes (.container s e ps) v ∧ bs.length = (serializeBytes (.container s e ps) v).length ∧
      deserialize (.container s e ps) old bs = .ok (true, v) := by
  have hw' := hw
  simp only [Spec.wf, Bool.and_eq_true] at hw'
  have hwp := hw'.1.1.1
  have hsim := partsFlip_sim ps hwp v
  have hfl := fixedLenL_partsL ps hwp v
  rw [serializeBytes_container s e ps hw] at hs ⊢
  rw [List.length_append, length_headsL] at hs
  have hd := deserialize_assemble s e ps hw v old (partsFlip ps v) [] (partsOK_partsFlip ps hwp v old hs)
    (by rw [sim_fixedLenL hsim, hfl]) (by rw [sim_fixedLenL hsim, sim_tailsL hsim]; exact hs) (Or.inl rfl)
  rw [List.append_nil] at hd
  refine ⟨_, ?_, ?_, hd⟩
  · intro he
    obtain ⟨e1, e2⟩ := List.append_inj he (by rw [length_headsL, length_headsL, sim_fixedLenL hsim])
    exact partsFlip_ne ps hwp v hp (sim_headsL _ hsim e1)
  · simp only [List.length_append, length_headsL, sim_fixedLenL hsim, sim_tailsL hsim]

end Mammon
