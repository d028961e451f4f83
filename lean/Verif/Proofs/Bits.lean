import Verif.Model.Bits
import Verif.Proofs.Util
import Verif.Spec.SSZ
/-! # Lemmas on bit packing -/

namespace Mammon

/-! ## single bytes -/

theorem and_shift_ne_zero (b : Byte) (j : Nat) (hj : j < 8) : (b &&& (1#8 <<< j) != 0#8) = b.getLsbD j := by
  rw [Bool.eq_iff_iff, bne_iff_ne]
  constructor
  · intro h
    by_contra hb
    apply h
    ext i hi
    simp only [BitVec.getElem_and, BitVec.getElem_shiftLeft, BitVec.getElem_zero]
    by_cases hij : i = j
    · subst hij
      simp only [BitVec.getLsbD_eq_getElem hi] at hb
      simp [hb]
    · by_cases hlt : i < j
      · simp [hlt]
      · have : 1 ≤ i - j := by omega
        simp [hlt, BitVec.getElem_one]; omega
  · intro h he
    have := congrArg (fun x => x.getLsbD j) he
    rw [BitVec.getLsbD_and, h] at this
    simp [hj] at this

theorem shr_and_one_eq (b : Byte) (j : Nat) : ((b >>> j) &&& 1#8 == 1#8) = b.getLsbD j := by
  rw [Bool.eq_iff_iff, beq_iff_eq]
  constructor
  · intro h
    have := congrArg (fun x => x.getLsbD 0) h
    simpa using this
  · intro h
    ext i hi
    by_cases h0 : i = 0
    · subst h0
      simp [BitVec.getElem_ushiftRight, h]
    · simp [BitVec.getElem_one, h0]

theorem getLsbD_orOne (x : Byte) (b : Bool) (m j : Nat) (hm : m < 8) :
    (x ||| ((if b then 1#8 else 0#8) <<< m)).getLsbD j = (x.getLsbD j || (decide (j = m) && b)) := by
  rw [BitVec.getLsbD_or, BitVec.getLsbD_shiftLeft]
  congr 1
  cases b
  · simp
  · simp only [if_true, BitVec.getLsbD_one, Bool.and_true]
    rw [Bool.eq_iff_iff]; simp; omega

/-! ## bit `p` of a byte string -/

/-- Bit `p` of a byte string, least significant bit of each byte first. -/
def bitAt (l : List Byte) (p : Nat) : Bool := (l.getD (p / 8) 0#8).getLsbD (p % 8)

theorem bytes_ext {l₁ l₂ : List Byte} (hl : l₁.length = l₂.length)
    (h : ∀ p, p < 8 * l₁.length → bitAt l₁ p = bitAt l₂ p) : l₁ = l₂ := by
  apply List.ext_getElem hl
  intro k h₁ h₂
  ext j hj
  have := h (8 * k + j) (by omega)
  have e1 : (8 * k + j) / 8 = k := by omega
  have e2 : (8 * k + j) % 8 = j := by omega
  simp only [bitAt, e1, e2, List.getD_eq_getElem _ _ h₁, List.getD_eq_getElem _ _ h₂] at this
  rwa [BitVec.getLsbD_eq_getElem hj, BitVec.getLsbD_eq_getElem hj] at this

theorem length_orBit (ret : List Byte) (i : Nat) (b : Bool) : (orBit ret i b).length = ret.length := by
  simp [orBit]

theorem bitAt_modify_or (ret : List Byte) (k m : Nat) (b : Bool) (hm : m < 8) (hk : k < ret.length) (p : Nat) :
    bitAt (ret.modify k (fun x => x ||| ((if b then 1#8 else 0#8) <<< m))) p =
      (bitAt ret p || (decide (p = 8 * k + m) && b)) := by
  simp only [bitAt, List.getD_eq_getElem?_getD, List.getElem?_modify]
  by_cases hp : k = p / 8
  · have hlt : p / 8 < ret.length := by omega
    simp only [List.getElem?_eq_getElem hlt, hp, if_true, Option.map_eq_map, Option.map_some, Option.getD_some]
    rw [getLsbD_orOne _ _ _ _ hm]
    congr 2
    rw [decide_eq_decide]; omega
  · have : ¬ p = 8 * k + m := by omega
    simp [hp, this]

theorem bitAt_orBit (ret : List Byte) (i : Nat) (b : Bool) (hi : i < 8 * ret.length) (p : Nat) :
    bitAt (orBit ret i b) p = (bitAt ret p || (decide (p = i) && b)) := by
  rw [orBit, bitAt_modify_or _ _ _ _ (Nat.mod_lt _ (by decide)) (by simp only [BITS_PER_BYTE]; omega)]
  simp only [BITS_PER_BYTE]
  rw [Nat.div_add_mod]

theorem length_orBitsFrom (bits : List Bool) (ret : List Byte) (i : Nat) :
    (orBitsFrom ret i bits).length = ret.length := by
  induction bits generalizing ret i with
  | nil => rfl
  | cons b bs ih => simp only [orBitsFrom, ih, length_orBit]

theorem bitAt_orBitsFrom (bits : List Bool) (ret : List Byte) (i : Nat) (h : i + bits.length ≤ 8 * ret.length) (p : Nat) :
    bitAt (orBitsFrom ret i bits) p = (bitAt ret p || (decide (i ≤ p) && bits.getD (p - i) false)) := by
  induction bits generalizing ret i with
  | nil => simp [orBitsFrom]
  | cons b bs ih =>
    simp only [List.length_cons] at h
    simp only [orBitsFrom]
    rw [ih _ _ (by rw [length_orBit]; omega), bitAt_orBit _ _ _ (by omega)]
    rcases Nat.lt_trichotomy p i with hlt | heq | hgt
    · have h1 : ¬ p = i := by omega
      have h2 : ¬ i + 1 ≤ p := by omega
      have h3 : ¬ i ≤ p := by omega
      simp [h1, h2, h3]
    · subst heq
      simp
    · have h1 : ¬ p = i := by omega
      have h2 : i + 1 ≤ p := by omega
      have h3 : i ≤ p := by omega
      have h4 : p - i = (p - (i + 1)) + 1 := by omega
      simp only [h1, h2, h3, h4, decide_true, decide_false, Bool.true_and, Bool.false_and, Bool.or_false,
        List.getD_cons_succ]

theorem bitAt_replicate (k p : Nat) : bitAt (List.replicate k 0#8) p = false := by
  simp only [bitAt, List.getD_eq_getElem?_getD, List.getElem?_replicate]
  split <;> simp

/-! ## the specification's packing -/

theorem getLsbD_byteOfBits (f : Nat → Bool) (j : Nat) (hj : j < 8) : (Spec.byteOfBits f).getLsbD j = f j := by
  have key : ∀ b0 b1 b2 b3 b4 b5 b6 b7 : Bool, ∀ j : Fin 8,
      (BitVec.ofNat 8 (b0.toNat * 1 + (b1.toNat * 2 + (b2.toNat * 4 + (b3.toNat * 8 + (b4.toNat * 16 +
        (b5.toNat * 32 + (b6.toNat * 64 + b7.toNat * 128)))))))).getLsbD j =
      match j with | 0 => b0 | 1 => b1 | 2 => b2 | 3 => b3 | 4 => b4 | 5 => b5 | 6 => b6 | 7 => b7 := by
    decide +kernel
  have e : Spec.byteOfBits f = BitVec.ofNat 8 ((f 0).toNat * 1 + ((f 1).toNat * 2 + ((f 2).toNat * 4 + ((f 3).toNat * 8 +
      ((f 4).toNat * 16 + ((f 5).toNat * 32 + ((f 6).toNat * 64 + (f 7).toNat * 128))))))) := by
    simp [Spec.byteOfBits, List.range_succ]
  rw [e]
  rcases j with _ | _ | _ | _ | _ | _ | _ | _ | j
  · exact key _ _ _ _ _ _ _ _ 0
  · exact key _ _ _ _ _ _ _ _ 1
  · exact key _ _ _ _ _ _ _ _ 2
  · exact key _ _ _ _ _ _ _ _ 3
  · exact key _ _ _ _ _ _ _ _ 4
  · exact key _ _ _ _ _ _ _ _ 5
  · exact key _ _ _ _ _ _ _ _ 6
  · exact key _ _ _ _ _ _ _ _ 7
  · omega

theorem length_packBits (len : Nat) (f : Nat → Bool) : (Spec.packBits len f).length = len := by
  simp [Spec.packBits]

theorem bitAt_packBits (len : Nat) (f : Nat → Bool) (p : Nat) (hp : p < 8 * len) :
    bitAt (Spec.packBits len f) p = f p := by
  have h : p / 8 < (Spec.packBits len f).length := by rw [length_packBits]; omega
  rw [bitAt, List.getD_eq_getElem _ _ h]
  simp only [Spec.packBits, List.getElem_map, List.getElem_range]
  rw [getLsbD_byteOfBits _ _ (Nat.mod_lt _ (by decide)), Nat.div_add_mod]

/-! ## serialization of bit vectors and bit lists -/

theorem length_bitvectorSerialize (n : Nat) (bits : List Bool) :
    (bitvectorSerialize n bits).length = (n + 7) / 8 := by
  simp [bitvectorSerialize, length_orBitsFrom, BITS_PER_BYTE]

theorem bitAt_bitvectorSerialize (n : Nat) (bits : List Bool) (h : bits.length = n) (p : Nat) :
    bitAt (bitvectorSerialize n bits) p = bits.getD p false := by
  rw [bitvectorSerialize, bitAt_orBitsFrom _ _ _ (by simp [BITS_PER_BYTE]; omega), bitAt_replicate]
  simp

theorem bitvectorSerialize_eq_spec (n : Nat) (bits : List Bool) (h : bits.length = n) :
    bitvectorSerialize n bits = Spec.bitvector n bits := by
  apply bytes_ext
  · rw [length_bitvectorSerialize, Spec.bitvector, length_packBits]
  · intro p hp
    rw [length_bitvectorSerialize] at hp
    rw [bitAt_bitvectorSerialize n bits h, Spec.bitvector, bitAt_packBits _ _ _ hp]

theorem length_bitlistSerialize (bits : List Bool) : (bitlistSerialize bits).length = bits.length / 8 + 1 := by
  simp [bitlistSerialize, length_orBitsFrom, BITS_PER_BYTE]

theorem getD_append_true (bits : List Bool) (p : Nat) :
    (bits ++ [true]).getD p false = (bits.getD p false || decide (p = bits.length)) := by
  rcases Nat.lt_trichotomy p bits.length with h | h | h
  · have : ¬ p = bits.length := by omega
    rw [List.getD_append _ _ _ _ h]; simp [this]
  · subst h
    simp
  · have : ¬ p = bits.length := by omega
    rw [List.getD_eq_default _ _ (by simp; omega), List.getD_eq_default _ _ (by omega)]
    simp [this]

theorem bitAt_bitlistSerialize (bits : List Bool) (p : Nat) :
    bitAt (bitlistSerialize bits) p = (bits ++ [true]).getD p false := by
  have hb := fun q => bitAt_orBitsFrom bits (List.replicate (bits.length / BITS_PER_BYTE + 1) 0#8) 0
    (by simp [BITS_PER_BYTE]; omega) q
  have hl := length_orBitsFrom bits (List.replicate (bits.length / BITS_PER_BYTE + 1) 0#8) 0
  have := bitAt_modify_or (orBitsFrom (List.replicate (bits.length / BITS_PER_BYTE + 1) 0#8) 0 bits)
    (bits.length / 8) (bits.length % 8) true (Nat.mod_lt _ (by decide)) (by rw [hl]; simp [BITS_PER_BYTE]) p
  rw [getD_append_true]
  simp only [bitlistSerialize, hl, List.length_replicate, Nat.add_sub_cancel]
  simp only [BITS_PER_BYTE, if_true] at this hb ⊢
  rw [this, hb, bitAt_replicate, Nat.div_add_mod]
  simp

theorem bitlistSerialize_eq_spec (bits : List Bool) : bitlistSerialize bits = Spec.bitlist bits := by
  apply bytes_ext
  · rw [length_bitlistSerialize, Spec.bitlist, length_packBits]
  · intro p hp
    rw [length_bitlistSerialize] at hp
    rw [bitAt_bitlistSerialize, Spec.bitlist, bitAt_packBits _ _ _ hp]

/-! ## deserialization of bit vectors -/

theorem getElem?_bitvectorStoreByte (n i : Nat) (b : Byte) (arr : List Bool) (p : Nat) :
    (bitvectorStoreByte n i b arr)[p]? =
      if p < n ∧ p / 8 = i ∧ p < arr.length then some (b.getLsbD (p % 8)) else arr[p]? := by
  have aux : ∀ (k : Nat), k ≤ 8 →
      ((List.range k).foldl (fun arr j => if BITS_PER_BYTE * i + j < n then
        arr.set (BITS_PER_BYTE * i + j) (b &&& (1#8 <<< j) != 0#8) else arr) arr)[p]? =
      (if p < n ∧ (p / 8 = i ∧ p % 8 < k) ∧ p < arr.length then some (b.getLsbD (p % 8)) else arr[p]?) ∧
      ((List.range k).foldl (fun arr j => if BITS_PER_BYTE * i + j < n then
        arr.set (BITS_PER_BYTE * i + j) (b &&& (1#8 <<< j) != 0#8) else arr) arr).length = arr.length := by
    intro k
    induction k with
    | zero => intro _; simp
    | succ k ih =>
      intro hk
      obtain ⟨ih1, ih2⟩ := ih (by omega)
      rw [List.range_succ, List.foldl_append]
      simp only [List.foldl_cons, List.foldl_nil]
      generalize (List.range k).foldl _ arr = arr' at ih1 ih2
      rw [and_shift_ne_zero _ _ (by omega : k < 8)]
      by_cases hlt : 8 * i + k < n
      · rw [if_pos hlt]
        refine ⟨?_, by simp [ih2]⟩
        rw [List.getElem?_set, ih2]
        by_cases hp : 8 * i + k = p
        · subst hp
          have e1 : (8 * i + k) / 8 = i := by omega
          have e2 : (8 * i + k) % 8 = k := by omega
          rw [if_pos rfl, e1, e2]
          by_cases hl : 8 * i + k < arr.length
          · rw [if_pos hl, if_pos ⟨hlt, ⟨rfl, by omega⟩, hl⟩]
          · rw [if_neg hl, if_neg (by omega), List.getElem?_eq_none (by omega)]
        · rw [if_neg hp, ih1]
          congr 1
          apply propext
          constructor
          · rintro ⟨h1, ⟨h2, h3⟩, h4⟩; exact ⟨h1, ⟨h2, by omega⟩, h4⟩
          · rintro ⟨h1, ⟨h2, h3⟩, h4⟩; exact ⟨h1, ⟨h2, by omega⟩, h4⟩
      · rw [if_neg hlt]
        refine ⟨?_, ih2⟩
        rw [ih1]
        congr 1
        apply propext
        constructor
        · rintro ⟨h1, ⟨h2, h3⟩, h4⟩; exact ⟨h1, ⟨h2, by omega⟩, h4⟩
        · rintro ⟨h1, ⟨h2, h3⟩, h4⟩; exact ⟨h1, ⟨h2, by omega⟩, h4⟩
  have := (aux 8 (by omega)).1
  unfold bitvectorStoreByte
  simp only [BITS_PER_BYTE] at this ⊢
  rw [this]
  have : p % 8 < 8 := Nat.mod_lt _ (by decide)
  simp [this]

theorem getElem?_bitvectorStoreFrom (n : Nat) (bs : List Byte) (i : Nat) (arr : List Bool) (hn : arr.length = n) (p : Nat) :
    (bitvectorStoreFrom n i bs arr)[p]? =
      if p < n ∧ i ≤ p / 8 ∧ p / 8 < i + bs.length then some (bitAt bs (p - 8 * i)) else arr[p]? := by
  induction bs generalizing i arr with
  | nil => rw [bitvectorStoreFrom, if_neg (by simp only [List.length_nil]; omega)]
  | cons b bs ih =>
    rw [bitvectorStoreFrom, ih _ _ (by rw [length_bitvectorStoreByte, hn]), getElem?_bitvectorStoreByte]
    simp only [List.length_cons]
    by_cases hp : p < n
    · rcases Nat.lt_trichotomy (p / 8) i with h1 | h1 | h1
      · rw [if_neg (by omega), if_neg (by omega), if_neg (by omega)]
      · rw [if_neg (by omega), if_pos (by omega), if_pos (by omega)]
        have e1 : (p - 8 * i) / 8 = 0 := by omega
        have e2 : (p - 8 * i) % 8 = p % 8 := by omega
        simp [bitAt, e1, e2]
      · by_cases h2 : p / 8 < i + (bs.length + 1)
        · rw [if_pos (by omega), if_pos (by omega)]
          have e1 : (p - 8 * i) / 8 = (p - 8 * (i + 1)) / 8 + 1 := by omega
          have e2 : (p - 8 * i) % 8 = (p - 8 * (i + 1)) % 8 := by omega
          simp [bitAt, e1, e2]
        · rw [if_neg (by omega), if_neg (by omega), if_neg (by omega)]
    · rw [if_neg (by omega), if_neg (by omega), if_neg (by omega)]

/-- After a successful decode, bit `p` of the object is bit `p` of the input, whatever the object held. -/
theorem bitvectorStore_eq (n : Nat) (bs : List Byte) (arr : List Bool) (hn : arr.length = n)
    (hl : bs.length = (n + 7) / 8) :
    bitvectorStoreFrom n 0 bs arr = (List.range n).map (bitAt bs) := by
  apply List.ext_getElem?
  intro p
  rw [getElem?_bitvectorStoreFrom n bs 0 arr hn]
  by_cases hp : p < n
  · rw [if_pos (by omega), List.getElem?_eq_getElem (by simpa using hp)]
    simp
  · rw [if_neg (by omega), List.getElem?_eq_none (by omega), List.getElem?_eq_none (by simp; omega)]

/-! ## deserialization of bit lists -/

theorem pushBits_eq (b : Byte) (k : Nat) (arr : List Bool) :
    pushBits b k arr = arr ++ (List.range k).map (b.getLsbD ·) := by
  unfold pushBits
  simp only [shr_and_one_eq]
  induction k with
  | zero => simp
  | succ k ih => rw [List.range_succ, List.foldl_append, ih]; simp

theorem foldl_pushBits (bs : List Byte) (arr : List Bool) :
    bs.foldl (fun arr b => pushBits b BITS_PER_BYTE arr) arr = arr ++ (List.range (8 * bs.length)).map (bitAt bs) := by
  induction bs generalizing arr with
  | nil => simp
  | cons b bs ih =>
    rw [List.foldl_cons, ih, pushBits_eq, List.append_assoc]
    congr 1
    rw [List.length_cons, show 8 * (bs.length + 1) = 8 + 8 * bs.length by omega, List.range_add, List.map_append]
    congr 1
    · rw [List.map_map]
      apply List.map_congr_left
      intro j _
      show bitAt bs j = bitAt (b :: bs) (8 + j)
      have e1 : (8 + j) / 8 = j / 8 + 1 := by omega
      have e2 : (8 + j) % 8 = j % 8 := by omega
      simp [bitAt, e1, e2]

/-- Index of the highest set bit of a nonzero byte. -/
theorem log2_lt_8 (b : Byte) : Nat.log2 b.toNat < 8 := by
  by_cases h : b.toNat = 0
  · simp [h]
  · rw [Nat.log2_lt h]; exact b.isLt

theorem getLsbD_log2 (b : Byte) (h : b ≠ 0#8) : b.getLsbD (Nat.log2 b.toNat) = true := by
  have h0 : b.toNat ≠ 0 := fun e => h (BitVec.eq_of_toNat_eq (by simpa using e))
  rw [BitVec.getLsbD, Nat.testBit_log2 h0]

theorem getLsbD_gt_log2 (b : Byte) (j : Nat) (hj : Nat.log2 b.toNat < j) : b.getLsbD j = false := by
  by_cases h0 : b.toNat = 0
  · simp [BitVec.getLsbD, h0]
  · rw [BitVec.getLsbD]
    apply Nat.testBit_lt_two_pow
    exact (Nat.log2_lt h0).1 hj

theorem bitlistTailBound_eq (b : Byte) (h : b ≠ 0#8) :
    (bitlistTailBound (countlZero8 b)).toNat = Nat.log2 b.toNat := by
  have := log2_lt_8 b
  simp only [countlZero8, if_neg h, bitlistTailBound, BITS_PER_BYTE]
  rw [BitVec.toNat_sub_of_le]
  · simp; omega
  · rw [BitVec.le_def]; simp; omega

theorem bitlistTailBound_zero : (bitlistTailBound (countlZero8 0#8)).toNat = 2 ^ 32 - 1 := by
  decide

/-- The number of data bits in a bit list encoding with a nonzero last byte. -/
def bitlistLen (bs : List Byte) : Nat := 8 * (bs.length - 1) + Nat.log2 (bs.getLastD 0#8).toNat

theorem bitlistDeserialize_ok (bs : List Byte) (hne : bs ≠ []) (hlast : bs.getLast hne ≠ 0#8) :
    bitlistDeserialize bs = .ok (true, (List.range (bitlistLen bs)).map (bitAt bs)) := by
  have hlt := log2_lt_8 (bs.getLast hne)
  rw [bitlistDeserialize, List.getLast?_eq_some_getLast hne]
  simp only
  rw [bitlistTailBound_eq _ hlast, if_neg (by omega), pushBits_eq, foldl_pushBits, List.nil_append]
  congr 2
  have hlen : bs.length - 1 + 1 = bs.length := by
    have := List.length_pos_iff.2 hne; omega
  have hdl : bs.dropLast.length = bs.length - 1 := List.length_dropLast
  rw [bitlistLen, List.getLastD_eq_getLast?, List.getLast?_eq_some_getLast hne, Option.getD_some, List.range_add, List.map_append,
    hdl]
  congr 1
  · apply List.map_congr_left
    intro j hj
    rw [List.mem_range] at hj
    simp only [bitAt]
    rw [List.getD_eq_getElem _ _ (by rw [hdl]; omega), List.getD_eq_getElem _ _ (by omega), List.getElem_dropLast]
  · rw [List.map_map]
    apply List.map_congr_left
    intro j hj
    rw [List.mem_range] at hj
    have e1 : (8 * (bs.length - 1) + j) / 8 = bs.length - 1 := by omega
    have e2 : (8 * (bs.length - 1) + j) % 8 = j := by omega
    simp only [Function.comp, bitAt, e1, e2]
    rw [List.getD_eq_getElem _ _ (by omega), List.getLast_eq_getElem]

theorem bitlistDeserialize_nil : bitlistDeserialize [] = .ub := rfl

theorem bitlistDeserialize_last_zero (bs : List Byte) (hne : bs ≠ []) (hlast : bs.getLast hne = 0#8) :
    bitlistDeserialize bs = .ub := by
  rw [bitlistDeserialize, List.getLast?_eq_some_getLast hne]
  simp only
  rw [hlast, bitlistTailBound_zero, if_pos (by decide)]

/-! ## round trips -/

theorem bitlistSerialize_ne_nil (bits : List Bool) : bitlistSerialize bits ≠ [] := by
  apply List.ne_nil_of_length_pos
  rw [length_bitlistSerialize]; omega

theorem bitlistSerialize_getLast_bit (bits : List Bool) (j : Nat) (hj : j < 8) :
    ((bitlistSerialize bits).getLast (bitlistSerialize_ne_nil bits)).getLsbD j =
      (bits ++ [true]).getD (8 * (bits.length / 8) + j) false := by
  rw [← bitAt_bitlistSerialize, bitAt]
  have e1 : (8 * (bits.length / 8) + j) / 8 = bits.length / 8 := by omega
  have e2 : (8 * (bits.length / 8) + j) % 8 = j := by omega
  rw [e1, e2, List.getLast_eq_getElem, List.getD_eq_getElem _ _ (by rw [length_bitlistSerialize]; omega)]
  simp only [length_bitlistSerialize, Nat.add_sub_cancel]

theorem bitlistSerialize_last (bits : List Bool) :
    (bitlistSerialize bits).getLast (bitlistSerialize_ne_nil bits) ≠ 0#8 ∧
    Nat.log2 ((bitlistSerialize bits).getLast (bitlistSerialize_ne_nil bits)).toNat = bits.length % 8 := by
  have hbit := bitlistSerialize_getLast_bit bits
  generalize (bitlistSerialize bits).getLast (bitlistSerialize_ne_nil bits) = b at hbit
  have hm : bits.length % 8 < 8 := Nat.mod_lt _ (by decide)
  have h1 : b.getLsbD (bits.length % 8) = true := by
    rw [hbit _ hm, Nat.div_add_mod, getD_append_true]; simp
  have h0 : b ≠ 0#8 := by
    intro e; rw [e] at h1; simp at h1
  refine ⟨h0, ?_⟩
  apply Nat.le_antisymm
  · by_contra hlt
    have hb := getLsbD_log2 b h0
    rw [hbit _ (log2_lt_8 b), getD_append_true] at hb
    rw [List.getD_eq_getElem?_getD, List.getElem?_eq_none (by omega)] at hb
    simp at hb
    omega
  · by_contra hlt
    rw [getLsbD_gt_log2 b _ (by omega)] at h1
    cases h1

theorem bitlist_roundtrip (bits : List Bool) : bitlistDeserialize (bitlistSerialize bits) = .ok (true, bits) := by
  obtain ⟨h0, hlog⟩ := bitlistSerialize_last bits
  rw [bitlistDeserialize_ok _ (bitlistSerialize_ne_nil bits) h0]
  congr 2
  have hlen : bitlistLen (bitlistSerialize bits) = bits.length := by
    rw [bitlistLen, List.getLastD_eq_getLast?, List.getLast?_eq_some_getLast (bitlistSerialize_ne_nil bits), Option.getD_some, hlog,
      length_bitlistSerialize]
    omega
  rw [hlen]
  apply List.ext_getElem
  · simp
  · intro k h1 h2
    simp only [List.getElem_map, List.getElem_range]
    rw [bitAt_bitlistSerialize, getD_append_true, List.getD_eq_getElem _ _ h2]
    have : ¬ k = bits.length := by omega
    simp [this]

theorem bitlist_canonical (bs : List Byte) (hne : bs ≠ []) (hlast : bs.getLast hne ≠ 0#8) :
    bitlistSerialize ((List.range (bitlistLen bs)).map (bitAt bs)) = bs := by
  have hlt := log2_lt_8 (bs.getLast hne)
  have hpos := List.length_pos_iff.2 hne
  have hbl : bitlistLen bs = 8 * (bs.length - 1) + Nat.log2 (bs.getLast hne).toNat := by
    rw [bitlistLen, List.getLastD_eq_getLast?, List.getLast?_eq_some_getLast hne, Option.getD_some]
  apply bytes_ext
  · rw [length_bitlistSerialize, List.length_map, List.length_range]; omega
  · intro p hp
    rw [length_bitlistSerialize, List.length_map, List.length_range] at hp
    rw [bitAt_bitlistSerialize, getD_append_true, List.length_map, List.length_range]
    have hlastbit : ∀ j, j < 8 → bitAt bs (8 * (bs.length - 1) + j) = (bs.getLast hne).getLsbD j := by
      intro j hj
      have e1 : (8 * (bs.length - 1) + j) / 8 = bs.length - 1 := by omega
      have e2 : (8 * (bs.length - 1) + j) % 8 = j := by omega
      rw [bitAt, e1, e2, List.getLast_eq_getElem, List.getD_eq_getElem _ _ (by omega)]
    rcases Nat.lt_trichotomy p (bitlistLen bs) with h | h | h
    · have h' : ¬ p = bitlistLen bs := by omega
      rw [List.getD_eq_getElem _ _ (by simpa using h)]
      simp [h']
    · subst h
      rw [List.getD_eq_getElem?_getD, List.getElem?_eq_none (by simp)]
      have := hlastbit _ hlt
      rw [← hbl] at this
      rw [this, getLsbD_log2 _ hlast]
      simp
    · rw [List.getD_eq_getElem?_getD, List.getElem?_eq_none (by simp; omega)]
      have h' : ¬ p = bitlistLen bs := by omega
      have := hlastbit (p - 8 * (bs.length - 1)) (by omega)
      rw [show 8 * (bs.length - 1) + (p - 8 * (bs.length - 1)) = p by omega, getLsbD_gt_log2 _ _ (by omega)] at this
      simp [h', this]

theorem bitvector_roundtrip (n : Nat) (old v : Vec Bool n) :
    bitvectorDeserialize n old (bitvectorSerialize n v.1) = .ok (true, v) := by
  rw [bitvectorDeserialize, if_neg (by rw [length_bitvectorSerialize]; simp [BITS_PER_BYTE])]
  congr 2
  apply Subtype.ext
  simp only
  rw [bitvectorStore_eq _ _ _ old.2 (length_bitvectorSerialize _ _)]
  apply List.ext_getElem
  · simp [v.2]
  · intro k h1 h2
    simp only [List.getElem_map, List.getElem_range]
    rw [bitAt_bitvectorSerialize _ _ v.2, List.getD_eq_getElem _ _ h2]

/-- Decoding forgets exactly the padding bits: re-encoding gives the input with the padding bits cleared. -/
theorem bitvector_reencode_bit (n : Nat) (bs : List Byte) (p : Nat) :
    bitAt (bitvectorSerialize n ((List.range n).map (bitAt bs))) p = (decide (p < n) && bitAt bs p) := by
  rw [bitAt_bitvectorSerialize _ _ (by simp), List.getD_eq_getElem?_getD]
  by_cases hp : p < n
  · rw [List.getElem?_eq_getElem (by simpa using hp)]; simp [hp]
  · rw [List.getElem?_eq_none (by simp; omega)]; simp [hp]

theorem bitvector_canonical (n : Nat) (bs : List Byte) (hn : n % 8 = 0) (hl : bs.length = (n + 7) / 8) :
    bitvectorSerialize n ((List.range n).map (bitAt bs)) = bs := by
  apply bytes_ext
  · rw [length_bitvectorSerialize, hl]
  · intro p hp
    rw [length_bitvectorSerialize] at hp
    rw [bitvector_reencode_bit]
    have : p < n := by omega
    simp [this]

end Mammon
