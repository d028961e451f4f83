import Verif.Model.BytesOps
import Verif.Spec.Hex
import Verif.Proofs.LE
/-!
# Lemmas on the operations of `eth::Bytes`
-/

namespace Mammon

/-- The value `hextoint` takes a 7-bit character for. -/
def hexVal (c : Byte) : Nat := (Spec.hexDigit c.toNat).getD 0

theorem hexTable_spec : ∀ c < 128, hexTable[c]? = some ((Spec.hexDigit c).getD 0) ∧ (Spec.hexDigit c).getD 0 < 16 := by decide +kernel

theorem hexTable_length : hexTable.length = 128 := by decide +kernel

theorem hextoint_of_lt {c : Byte} (h : c.toNat < 128) : hextoint c = .ok (hexVal c) := by
  rw [hextoint, (hexTable_spec _ h).1]; rfl

theorem hexVal_lt {c : Byte} (h : c.toNat < 128) : hexVal c < 16 := (hexTable_spec _ h).2

theorem hextoint_of_ge {c : Byte} (h : ¬ c.toNat < 128) : hextoint c = .ub := by
  rw [hextoint, List.getElem?_eq_none (by rw [hexTable_length]; omega)]

theorem charsToByte_one {c : Byte} (h : c.toNat < 128) : charsToByte [c] = .ok (BitVec.ofNat 8 (hexVal c)) := by
  have := hexVal_lt h
  rw [charsToByte, strhex2int, List.reverse_singleton, strhexLoop, hextoint_of_lt h, Out.bind, if_pos (by omega), strhexLoop, Out.map]
  simp

theorem charsToByte_two {c d : Byte} (hc : c.toNat < 128) (hd : d.toNat < 128) :
    charsToByte [c, d] = .ok (BitVec.ofNat 8 (16 * hexVal c + hexVal d)) := by
  have h1 := hexVal_lt hc
  have h2 := hexVal_lt hd
  rw [charsToByte, strhex2int, show [c, d].reverse = [d, c] from rfl, strhexLoop, hextoint_of_lt hd, Out.bind, if_pos (by omega), strhexLoop,
    hextoint_of_lt hc, Out.bind, if_pos (by omega), strhexLoop, Out.map]
  congr 2
  omega

theorem charsToByte_one_ub {c : Byte} (h : ¬ c.toNat < 128) : charsToByte [c] = .ub := by
  rw [charsToByte, strhex2int, List.reverse_singleton, strhexLoop, hextoint_of_ge h, Out.bind, Out.map]

theorem charsToByte_two_ub {c d : Byte} (h : ¬ (c.toNat < 128 ∧ d.toNat < 128)) : charsToByte [c, d] = .ub := by
  rw [charsToByte, strhex2int, show [c, d].reverse = [d, c] from rfl, strhexLoop]
  by_cases hd : d.toNat < 128
  · have h2 := hexVal_lt hd
    rw [hextoint_of_lt hd, Out.bind, if_pos (by omega), strhexLoop, hextoint_of_ge (fun hc => h ⟨hc, hd⟩), Out.bind, Out.map]
  · rw [hextoint_of_ge hd, Out.bind, Out.map]

/-- The bytes read from the characters after the prefix. -/
def hexBytes (s : List Byte) : List Byte := (Spec.pairDigits (s.map hexVal)).map (BitVec.ofNat 8)

theorem length_pairDigits (l : List Nat) : (Spec.pairDigits l).length = (l.length + 1) / 2 := by
  fun_induction Spec.pairDigits l with
  | case1 => rfl
  | case2 => simp
  | case3 d e ds ih => simp only [List.length_cons, ih]; omega

theorem length_hexBytes (s : List Byte) : (hexBytes s).length = (s.length + 1) / 2 := by
  rw [hexBytes, List.length_map, length_pairDigits, List.length_map]

theorem set_append_replicate (done : List Byte) (m : Nat) (b : Byte) :
    (done ++ List.replicate (m + 1) 0#8).set done.length b = (done ++ [b]) ++ List.replicate m 0#8 := by
  rw [List.set_append_right _ _ (Nat.le_refl _), Nat.sub_self, List.replicate_succ, List.set_cons_zero, List.append_assoc]
  rfl

theorem fromStrLoop_spec (str : List Byte) : ∀ (m k : Nat) (done : List Byte), done.length = k → (str.drop (2 * k + 2)).length ≤ 2 * m →
    fromStrLoop str (2 * k + 2) (done ++ List.replicate m 0#8) =
      if ∀ c ∈ str.drop (2 * k + 2), c.toNat < 128 then
        .ok (done ++ (hexBytes (str.drop (2 * k + 2)) ++ List.replicate (m - (hexBytes (str.drop (2 * k + 2))).length) 0#8))
      else .ub := by
  intro m
  induction m with
  | zero =>
    intro k done hk hm
    have hnil : str.drop (2 * k + 2) = [] := List.eq_nil_of_length_eq_zero (by omega)
    rw [hnil, fromStrLoop, if_neg (by have := List.length_drop (i := 2 * k + 2) (l := str); rw [hnil] at this; simp at this; omega)]
    simp [hexBytes, Spec.pairDigits]
  | succ m ih =>
    intro k done hk hm
    rw [fromStrLoop]
    rcases hd : str.drop (2 * k + 2) with _ | ⟨c, _ | ⟨d, rest⟩⟩
    · rw [if_neg (by have := List.length_drop (i := 2 * k + 2) (l := str); rw [hd] at this; simp at this; omega)]
      simp [hexBytes, Spec.pairDigits]
    · have hl := List.length_drop (i := 2 * k + 2) (l := str)
      rw [hd] at hl
      simp only [List.length_cons, List.length_nil] at hl
      rw [if_pos (by omega), List.take_of_length_le (by simp)]
      by_cases hc : c.toNat < 128
      · rw [charsToByte_one hc, Out.bind, if_pos (by simp; omega), show (2 * k + 2) / 2 - 1 = done.length by omega, set_append_replicate,
          show 2 * k + 2 + 2 = 2 * (k + 1) + 2 by omega,
          ih (k + 1) _ (by simp [hk]) (by rw [List.length_drop]; omega)]
        have hnil : str.drop (2 * (k + 1) + 2) = [] := List.eq_nil_of_length_eq_zero (by rw [List.length_drop]; omega)
        rw [hnil]
        simp [hexBytes, Spec.pairDigits, hc]
      · rw [charsToByte_one_ub hc, Out.bind]
        simp [hc]
    · have hl := List.length_drop (i := 2 * k + 2) (l := str)
      rw [hd] at hl hm
      simp only [List.length_cons] at hl hm
      have hdr : str.drop (2 * (k + 1) + 2) = rest := by
        rw [show 2 * (k + 1) + 2 = 2 * k + 2 + 2 by omega, ← List.drop_drop, hd]; rfl
      rw [if_pos (by omega), show (c :: d :: rest).take 2 = [c, d] from rfl]
      by_cases hc : c.toNat < 128 ∧ d.toNat < 128
      · rw [charsToByte_two hc.1 hc.2, Out.bind, if_pos (by simp; omega), show (2 * k + 2) / 2 - 1 = done.length by omega, set_append_replicate,
          show 2 * k + 2 + 2 = 2 * (k + 1) + 2 by omega,
          ih (k + 1) _ (by simp [hk]) (by rw [hdr]; omega), hdr]
        have hall : (∀ x ∈ c :: d :: rest, x.toNat < 128) ↔ ∀ x ∈ rest, x.toNat < 128 := by
          simp [hc.1, hc.2]
        have hb : hexBytes (c :: d :: rest) = BitVec.ofNat 8 (16 * hexVal c + hexVal d) :: hexBytes rest := by
          simp [hexBytes, Spec.pairDigits]
        rw [hb]
        simp only [hall, List.length_cons, List.append_assoc, List.cons_append, List.nil_append, Nat.add_sub_add_right]
      · rw [charsToByte_two_ub hc, Out.bind, if_neg]
        intro h
        exact hc ⟨h c (by simp), h d (by simp)⟩

theorem bytesFromStr_eq (N : Nat) (str : List Byte) : bytesFromStr N str =
    if str.take 2 ≠ [0x30#8, 0x78#8] then .throws .invalidArgument
    else if str.length > 2 * N + 2 then .throws .outOfRange
    else if ∀ c ∈ str.drop 2, c.toNat < 128 then .ok (hexBytes (str.drop 2) ++ List.replicate (N - (hexBytes (str.drop 2)).length) 0#8)
    else .ub := by
  rw [bytesFromStr]
  split
  · rfl
  · split
    · rfl
    · have := fromStrLoop_spec str N 0 [] rfl (by rw [List.length_drop]; omega)
      simpa using this

theorem xorLoop_spec (b : List Byte) : ∀ (n : Nat) (a : List Byte), a.length = b.length → n ≤ a.length →
    ∀ k, k + n = a.length → ∀ p q : List Byte, a = p ++ q → p.length = k →
    xorLoop b (List.range' k n) a = .ok (p ++ List.zipWith (· ^^^ ·) q (b.drop k)) := by
  intro n
  induction n with
  | zero =>
    intro a hab hn k hk p q hpq hp
    have hq : q = [] := List.eq_nil_of_length_eq_zero (by have := congrArg List.length hpq; simp at this; omega)
    subst hq hpq
    simp [xorLoop]
  | succ n ih =>
    intro a hab hn k hk p q hpq hp
    rcases q with _ | ⟨x, q⟩
    · have := congrArg List.length hpq; simp at this; omega
    · rw [List.range'_succ, xorLoop]
      have ha : a[k]? = some x := by rw [hpq, List.getElem?_append_right (by omega), hp, Nat.sub_self]; rfl
      have hkb : k < b.length := by omega
      have hb : b[k]? = some b[k] := List.getElem?_eq_getElem hkb
      rw [ha, hb]
      have hset : a.set k (x ^^^ b[k]) = (p ++ [x ^^^ b[k]]) ++ q := by
        rw [hpq, List.set_append_right _ _ (by omega), hp, Nat.sub_self, List.set_cons_zero, List.append_assoc]; rfl
      simp only
      rw [ih (a.set k (x ^^^ b[k])) (by simp [hab]) (by simp; omega) (k + 1) (by simp; omega) (p ++ [x ^^^ b[k]]) q hset (by simp [hp]),
        List.drop_eq_getElem_cons hkb]
      simp [-List.getElem_cons_drop]

theorem xorAssign_eq {N : Nat} (a b : BytesN N) : xorAssign a b = .ok (List.zipWith (· ^^^ ·) a.1 b.1) := by
  have := xorLoop_spec b.1 N a.1 (by rw [a.2, b.2]) (by rw [a.2]) 0 (by rw [a.2]; omega) [] a.1 rfl rfl
  rw [xorAssign, List.range_eq_range']
  simpa using this

theorem eqVecLoop_spec (a r : List Byte) (h : a.length = r.length) : ∀ (n k : Nat), k + n = a.length →
    eqVecLoop a r (List.range' k n) = .ok (decide (a.drop k = r.drop k)) := by
  intro n
  induction n with
  | zero =>
    intro k hk
    rw [List.drop_of_length_le (by omega), List.drop_of_length_le (by omega)]
    simp [eqVecLoop]
  | succ n ih =>
    intro k hk
    have ha : k < a.length := by omega
    have hr : k < r.length := by omega
    rw [List.range'_succ, eqVecLoop, List.getElem?_eq_getElem ha, List.getElem?_eq_getElem hr]
    simp only
    rw [List.drop_eq_getElem_cons ha, List.drop_eq_getElem_cons hr]
    split
    · rename_i hne; simp [hne, -List.getElem_cons_drop]
    · rename_i heq
      simp only [ne_eq, Classical.not_not] at heq
      rw [ih (k + 1) (by omega)]
      simp [heq, -List.getElem_cons_drop]

theorem bytesEqVec_eq {N : Nat} (a : BytesN N) (r : List Byte) : bytesEqVec a r = .ok (decide (a.1 = r)) := by
  rw [bytesEqVec]
  split
  · rename_i h
    have : a.1 ≠ r := fun h' => h (by rw [← h', a.2])
    simp [this]
  · rename_i h
    simp only [ne_eq, Classical.not_not] at h
    have := eqVecLoop_spec a.1 r (by rw [a.2, h]) N 0 (by rw [a.2]; omega)
    rw [List.range_eq_range']
    simpa using this

theorem bytesConcat_eq {N M : Nat} (init : BytesN (N + M)) (a : BytesN N) (b : BytesN M) : bytesConcat init a b = .ok (a.1 ++ b.1) := by
  have h1 : copyInto init.1 a.1 0 = .ok (a.1 ++ init.1.drop N) := by
    rw [copyInto, if_pos (by rw [a.2, init.2]; omega)]
    simp [a.2]
  rw [bytesConcat, h1, Out.bind, copyInto, if_pos (by rw [List.length_append, List.length_drop, a.2, b.2, init.2]; omega)]
  have h2 : (a.1 ++ init.1.drop N).take N = a.1 := by rw [List.take_append_of_le_length (by rw [a.2])]; rw [List.take_of_length_le (by rw [a.2])]
  rw [h2, List.drop_of_length_le (by rw [List.length_append, List.length_drop, a.2, b.2, init.2]; omega), List.append_nil]

end Mammon
