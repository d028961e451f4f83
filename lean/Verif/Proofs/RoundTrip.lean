import Verif.Proofs.Encode
/-! # deserialize ∘ serialize -/

namespace Mammon

theorem vectorLoop_roundtrip {α : Type} (elem : α → List Byte → Out (Bool × α)) (ser : α → List Byte) (size : Nat)
    (hlen : ∀ x, (ser x).length = size) (hrt : ∀ old x, elem old (ser x) = .ok (true, x))
    (vs old : List α) (hl : vs.length = old.length) (pre : List Byte) (i : Nat) (hi : pre.length = i * size) :
    vectorLoop elem size (pre ++ vs.flatMap ser) i old = .ok (true, ⟨vs, hl⟩) := by
  induction old generalizing vs pre i with
  | nil =>
    have : vs = [] := List.eq_nil_of_length_eq_zero hl
    subst this
    rfl
  | cons x xs ih =>
    match vs, hl with
    | v :: vs, hl =>
      have hl' : vs.length = xs.length := by simpa using hl
      rw [vectorLoop, List.flatMap_cons, slice_append pre (ser v) _ (i * size) _ hi.symm (by rw [hlen, hi]; ring)]
      simp only [Out.ok_bind, hrt, if_true]
      have h := ih vs hl' (pre ++ ser v) (i + 1) (by rw [List.length_append, hi, hlen]; ring)
      rw [List.append_assoc] at h
      rw [h]
      rfl

theorem listFLoop_roundtrip {α : Type} (elem : List Byte → Out (Bool × α)) (ser : α → List Byte) (size : Nat)
    (hpos : 0 < size) (hlen : ∀ x, (ser x).length = size) (hrt : ∀ x, elem (ser x) = .ok (true, x))
    (vs acc : List α) : listFLoop elem size acc (vs.flatMap ser) = .ok (true, acc ++ vs) := by
  induction vs generalizing acc with
  | nil => rw [listFLoop]; simp
  | cons v vs ih =>
    have hne : ¬ ((v :: vs).flatMap ser).isEmpty = true := by
      rw [List.isEmpty_iff, List.flatMap_cons]
      intro h
      have := congrArg List.length h
      rw [List.length_append, hlen, List.length_nil] at this
      omega
    rw [listFLoop, if_neg hne, dif_neg (by rw [List.flatMap_cons, List.length_append, hlen]; omega), List.flatMap_cons,
      List.take_left' (hlen v), List.drop_left' (hlen v), hrt]
    simp only [Out.ok_bind, if_true]
    rw [ih]; simp

theorem listVLoop_roundtrip {α : Type} (elem : List Byte → Out (Bool × α)) (ser : α → List Byte)
    (hrt : ∀ x, (ser x).length < 2 ^ 32 → elem (ser x) = .ok (true, x))
    (xs : List α) (y : α) (acc : List α) (O D : List Byte) (first it last : Nat)
    (hit : it = O.length) (hfirst : first = O.length + xs.length * 4) (hlast : last = first + D.length)
    (hsmall : last + (ser y).length + (xs.flatMap ser).length < 2 ^ 32) :
    listVLoop elem (O ++ (headsL (xs.map fun x => (true, ser x)) (last + (ser y).length) ++
        (D ++ (ser y ++ xs.flatMap ser))))
      (BitVec.ofNat 32 first) it (BitVec.ofNat 32 last) acc = .ok (true, acc ++ y :: xs) := by
  induction xs generalizing y acc O D it last with
  | nil =>
    simp only [List.map_nil, headsL, List.nil_append, List.flatMap_nil, List.append_nil, List.length_nil, Nat.zero_mul,
      Nat.add_zero] at *
    have h1 : (BitVec.ofNat 32 first).toNat = first := by rw [BitVec.toNat_ofNat]; exact Nat.mod_eq_of_lt (by omega)
    have h2 : (BitVec.ofNat 32 last).toNat = last := by rw [BitVec.toNat_ofNat]; exact Nat.mod_eq_of_lt (by omega)
    rw [listVLoop, if_pos (by rw [h1]; omega), h2, ← List.append_assoc,
      slice_append_end _ _ _ _ (by rw [List.length_append]; omega) (by simp only [List.length_append])]
    simp [hrt y (by omega)]
  | cons x xs ih =>
    rw [List.flatMap_cons, List.length_append] at hsmall
    rw [List.length_cons] at hfirst
    have h1 : (BitVec.ofNat 32 first).toNat = first := by rw [BitVec.toNat_ofNat]; exact Nat.mod_eq_of_lt (by omega)
    have h2 : (BitVec.ofNat 32 last).toNat = last := by rw [BitVec.toNat_ofNat]; exact Nat.mod_eq_of_lt (by omega)
    have h3 : (BitVec.ofNat 32 (last + (ser y).length)).toNat = last + (ser y).length := by
      rw [BitVec.toNat_ofNat]; exact Nat.mod_eq_of_lt (by omega)
    have hheads : ∀ off, (headsL (xs.map fun x => (true, ser x)) off).length = xs.length * 4 := by
      intro off; rw [length_headsL, fixedLenL_map_true]
    rw [listVLoop, if_neg (by rw [h1]; omega), dif_neg (by rw [h1]; simp only [BYTES_PER_LENGTH_OFFSET]; omega)]
    simp only [List.map_cons, headsL, if_true, List.append_assoc, List.flatMap_cons]
    rw [read32_append O _ _ _ hit]
    simp only [Out.ok_bind]
    rw [if_neg (by rw [BitVec.lt_def, h2, h3]; omega), if_neg (by
      rw [h3]; simp only [List.length_append, length_leBytes, hheads]; omega)]
    rw [h2, h3, ← List.append_assoc O, ← List.append_assoc (O ++ _), ← List.append_assoc (O ++ _ ++ _),
      slice_append _ (ser y) _ _ _ (by simp only [List.length_append, length_leBytes, hheads]; omega)
        (by simp only [List.length_append, length_leBytes, hheads]; omega)]
    simp only [Out.ok_bind, hrt y (by omega), if_true]
    have h := ih x (acc ++ [y]) (O ++ leBytes 4 (last + (ser y).length)) (D ++ ser y) (it + 4) (last + (ser y).length)
      (by simp [length_leBytes, hit]) (by rw [List.length_append, length_leBytes]; omega)
      (by rw [List.length_append]; omega) (by omega)
    simp only [List.append_assoc, List.singleton_append, BYTES_PER_LENGTH_OFFSET] at h ⊢
    exact h

theorem listVDeserialize_roundtrip {α : Type} (elem : List Byte → Out (Bool × α)) (ser : α → List Byte)
    (hrt : ∀ x, (ser x).length < 2 ^ 32 → elem (ser x) = .ok (true, x)) (xs : List α)
    (hsmall : xs.length * 4 + (xs.flatMap ser).length < 2 ^ 32) :
    listVDeserialize elem (headsL (xs.map fun x => (true, ser x)) (xs.length * 4) ++ xs.flatMap ser) = .ok (true, xs) := by
  match xs with
  | [] => rfl
  | x :: xs =>
    have hheads : ∀ off, (headsL (xs.map fun x => (true, ser x)) off).length = xs.length * 4 := by
      intro off; rw [length_headsL, fixedLenL_map_true]
    rw [List.length_cons, List.flatMap_cons, List.length_append] at hsmall
    simp only [List.map_cons, headsL, if_true, List.length_cons, List.flatMap_cons, List.append_assoc]
    have h1 : (BitVec.ofNat 32 ((xs.length + 1) * 4)).toNat = (xs.length + 1) * 4 := by
      rw [BitVec.toNat_ofNat]; exact Nat.mod_eq_of_lt (by omega)
    rw [listVDeserialize, if_neg (by
        rw [List.isEmpty_iff]; intro h; have := congrArg List.length h
        simp [length_leBytes] at this),
      if_neg (by simp only [List.length_append, length_leBytes, BYTES_PER_LENGTH_OFFSET]; omega)]
    have := read32_append [] (headsL (xs.map fun x => (true, ser x)) ((xs.length + 1) * 4 + (ser x).length) ++
      (ser x ++ xs.flatMap ser)) ((xs.length + 1) * 4) 0 rfl
    rw [List.nil_append] at this
    rw [this]
    simp only [Out.ok_bind]
    rw [if_neg (by rw [h1]; simp only [BYTES_PER_LENGTH_OFFSET]; omega), if_neg (by rw [h1]; simp only [List.length_append, length_leBytes, hheads]; omega)]
    have h := listVLoop_roundtrip elem ser hrt xs x [] (leBytes 4 ((xs.length + 1) * 4)) [] ((xs.length + 1) * 4) 4
      ((xs.length + 1) * 4) (by rw [length_leBytes]) (by rw [length_leBytes]; omega) (by simp) (by omega)
    simpa using h

/-- The flagged byte strings `X` decode, part by part, to `v`. -/
def PartsOK : (ps : Parts) → (old v : ps.denote) → List (Bool × List Byte) → Prop
  | .nil, _, _, X => X = []
  | .cons _ _ _, _, _, [] => False
  | .cons _ t ps, old, v, x :: X =>
    x.1 = decide (t.sszSize = 0) ∧ (t.sszSize ≠ 0 → x.2.length = t.sszSize) ∧ deserialize t old.1 x.2 = .ok (true, v.1) ∧
      PartsOK ps old.2 v.2 X

theorem deserializeParts_assemble : (ps : Parts) → (v old : ps.denote) → (X : List (Bool × List Byte)) → PartsOK ps old v X →
    (A B C : List Byte) → (off fl it : Nat) → (last : BitVec 32) → {p : Ty} → (prev pv : p.denote) →
    (desPrev : List Byte → Out (Bool × p.denote)) → it = A.length → fl = A.length + fixedLenL X →
    off = fl + B.length → off + (tailsL X).length < 2 ^ 32 →
    (last = 0#32 ∧ B = [] ∧ pv = prev ∧ (C = [] ∨ ∀ x ∈ X, x.1 = false) ∨
      C = [] ∧ ∃ B₀ P, B = B₀ ++ P ∧ last = BitVec.ofNat 32 (fl + B₀.length) ∧ last ≠ 0#32 ∧ desPrev P = .ok (true, pv)) →
    deserializeParts ps old (A ++ (headsL X off ++ (B ++ (tailsL X ++ C)))) (BitVec.ofNat 32 fl) it last
      prev desPrev = .ok (true, pv, v)
  | .nil, v, old, X, hX, A, B, C, off, fl, it, last, p, prev, pv, desPrev, hit, hfl, hoff, hs, hp => by
    simp only [PartsOK] at hX
    subst hX
    simp only [headsL, tailsL, fixedLenL, List.nil_append, List.length_nil, Nat.add_zero] at *
    rw [deserializeParts]
    rcases hp with ⟨h1, h2, h3, _⟩ | ⟨hC, B₀, P, h1, h2, h3, h4⟩
    · rw [if_neg (by simp [h1]), h3]
    · have hl : last.toNat = fl + B₀.length := by
        rw [h2, BitVec.toNat_ofNat]
        apply Nat.mod_eq_of_lt
        rw [h1, List.length_append] at hoff; omega
      rw [if_pos h3, hl, h1, hC, List.append_nil, ← List.append_assoc,
        slice_append_end _ _ _ _ (by rw [List.length_append]; omega) (by simp only [List.length_append])]
      simp only [Out.ok_bind, h4]
  | .cons _ t ps, v, old, [], hX, A, B, C, off, fl, it, last, p, prev, pv, desPrev, hit, hfl, hoff, hs, hp => by
    simp only [PartsOK] at hX
  | .cons _ t ps, v, old, (xf, xb) :: X, hX, A, B, C, off, fl, it, last, p, prev, pv, desPrev, hit, hfl, hoff, hs, hp => by
    simp only [PartsOK] at hX
    obtain ⟨rfl, hX2, hX3, hX4⟩ := hX
    simp only [headsL, tailsL, fixedLenL] at hfl hs ⊢
    have hheads := length_headsL X
    rw [deserializeParts]
    by_cases ht : t.sszSize = 0
    · -- variable part
      simp only [ht, decide_true, if_true, List.length_append] at hfl hs ⊢
      rw [if_neg (by simp), if_neg (by simp only [List.length_append, length_leBytes, BYTES_PER_LENGTH_OFFSET]; omega)]
      simp only [List.append_assoc]
      rw [read32_append A _ _ _ hit]
      have hcur : (BitVec.ofNat 32 off).toNat = off := by rw [BitVec.toNat_ofNat]; exact Nat.mod_eq_of_lt (by omega)
      have hcur0 : BitVec.ofNat 32 off ≠ 0#32 := by
        intro h; have := congrArg BitVec.toNat h; rw [hcur] at this; simp at this; omega
      simp only [Out.ok_bind]
      rw [if_neg (by rw [hcur]; simp only [List.length_append, length_leBytes, hheads]; omega)]
      have hC : C = [] := by
        rcases hp with ⟨_, _, _, h | h⟩ | ⟨h, _⟩
        · exact h
        · have := h _ (List.mem_cons_self ..)
          simp [ht] at this
        · exact h
      have ih := deserializeParts_assemble ps v.2 old.2 X hX4 (A ++ leBytes 4 off) (B ++ xb) C
        (off + xb.length) fl (it + 4) (BitVec.ofNat 32 off) old.1 v.1
        (fun s => deserialize t old.1 s) (by rw [List.length_append, length_leBytes, hit])
        (by rw [List.length_append, length_leBytes]; omega) (by rw [List.length_append]; omega) (by omega)
        (Or.inr ⟨hC, B, xb, rfl, by rw [hoff], hcur0, hX3⟩)
      simp only [List.append_assoc, BYTES_PER_LENGTH_OFFSET] at ih ⊢
      rcases hp with ⟨h1, h2, h3, _⟩ | ⟨_, B₀, P, h1, h2, h3, h4⟩
      · subst h1 h2 h3
        rw [if_neg (by simp), if_neg (by simp [hoff]), ih]
        rfl
      · have hl : last.toNat = fl + B₀.length := by
          rw [h2, BitVec.toNat_ofNat]
          apply Nat.mod_eq_of_lt
          rw [h1, List.length_append] at hoff; omega
        have hB := congrArg List.length h1
        rw [List.length_append] at hB
        rw [if_pos h3, if_neg (by rw [BitVec.lt_def, hl, hcur]; omega), hl, hcur]
        rw [h1] at ih ⊢
        simp only [List.append_assoc] at ih ⊢
        rw [← List.append_assoc A, ← List.append_assoc (A ++ _), ← List.append_assoc (A ++ _ ++ _),
          slice_append _ P _ _ _ (by simp only [List.length_append, length_leBytes, hheads]; omega)
            (by simp only [List.length_append, length_leBytes, hheads]; omega)]
        simp only [List.append_assoc, Out.ok_bind, h4, if_true, ih]
    · -- fixed part
      have hlen := hX2 ht
      simp only [ht, decide_false, Bool.false_eq_true, if_false, List.nil_append, ne_eq, not_false_eq_true, if_true,
        hlen] at hfl hs ⊢
      rw [if_neg (by simp only [List.length_append]; omega)]
      simp only [List.append_assoc]
      rw [slice_append A xb _ _ _ hit (by omega)]
      simp only [Out.ok_bind]
      rw [hX3]
      simp only [Out.ok_bind, if_true]
      have ih := deserializeParts_assemble ps v.2 old.2 X hX4 (A ++ xb) B C off fl (it + t.sszSize) last
        prev pv desPrev (by rw [List.length_append]; omega) (by rw [List.length_append]; omega) hoff hs
        (by
          rcases hp with ⟨h1, h2, h3, h⟩ | h
          · exact Or.inl ⟨h1, h2, h3, h.imp id fun h x hx => h x (List.mem_cons_of_mem _ hx)⟩
          · exact Or.inr h)
      simp only [List.append_assoc] at ih
      rw [ih]
      rfl

/-- A container decodes any assembly of byte strings its parts decode. Bytes after the end are ignored if the
container has no variable part. -/
theorem deserialize_assemble (s : Nat) (e : Bool) (ps : Parts) (hw : Spec.wf (.container s e ps) = true)
    (v old : ps.denote) (X : List (Bool × List Byte)) (C : List Byte) (hX : PartsOK ps old v X)
    (hfl : fixedLenL X = Spec.fixedSizeParts ps) (hs : fixedLenL X + (tailsL X).length < 2 ^ 32)
    (hC : C = [] ∨ ∀ x ∈ X, x.1 = false) :
    deserialize (.container s e ps) old (headsL X (Spec.fixedSizeParts ps) ++ (tailsL X ++ C)) = .ok (true, v) := by
  simp only [Spec.wf, Bool.and_eq_true, decide_eq_true_eq] at hw
  obtain ⟨⟨⟨hw, h1⟩, _⟩, h2⟩ := hw
  rw [deserialize, computeFixedLength_eq ps hw, BitVec.zero_add]
  have h := deserializeParts_assemble ps v old X hX [] [] C (Spec.fixedSizeParts ps) (Spec.fixedSizeParts ps) 0 0#32
    (p := .boolean) false false (fun _ => .ub) rfl (by simp [hfl]) (by simp)
    (by simpa [hfl] using hs) (Or.inl ⟨rfl, rfl, rfl, hC⟩)
  simp only [List.nil_append] at h
  rw [h]
  rfl

mutual
theorem deserialize_serializeBytes : (t : Ty) → Spec.wf t = true → (v old : t.denote) →
    (serializeBytes t v).length < 2 ^ 32 → deserialize t old (serializeBytes t v) = .ok (true, v)
  | .uint64, _, v, old, _ => by
    rw [serializeBytes, deserialize, if_neg (by simp [length_leBytes]), fromLE_leBytes, Nat.mod_eq_of_lt (Nat.lt_of_lt_of_le v.isLt (by decide))]
    simp
  | .boolean, _, v, old, _ => by cases v <;> rfl
  | .bytes n, _, v, old, _ => by
    rw [serializeBytes, deserialize, dif_pos v.2]
  | .bitvector n, _, v, old, _ => by
    rw [serializeBytes, deserialize, bitvector_roundtrip]
  | .bitlist n, _, v, old, _ => by
    rw [serializeBytes, deserialize, bitlist_roundtrip]
  | .vector t n, hw, v, old, hs => by
    simp only [Spec.wf, Bool.and_eq_true, Bool.not_eq_true', decide_eq_true_eq] at hw
    have hsz := (sszSize_spec t hw.1.1).2 hw.1.2
    have hlen : ∀ x, (serializeBytes t x).length = t.sszSize := fun x => by
      rw [length_serializeBytes t hw.1.1 hw.1.2, hsz.1]
    obtain ⟨l, hl⟩ := v
    have htot : (serializeBytes (.vector t n) ⟨l, hl⟩).length = n * t.sszSize := by
      rw [length_serializeBytes (.vector t n) (by simp [Spec.wf, hw]) (by simp [Spec.isVariable, hw]), Spec.fixedSize, hsz.1]
    have hsmall : t.sszSize < 2 ^ 32 := by
      rw [htot] at hs
      exact Nat.lt_of_le_of_lt (Nat.le_mul_of_pos_left _ hw.2) hs
    have ih := fun o x => deserialize_serializeBytes t hw.1.1 x o (by rw [hlen]; exact hsmall)
    rw [deserialize, if_neg (by rw [htot]; simp)]
    have h := vectorLoop_roundtrip (fun x s => deserialize t x s) (serializeBytes t) t.sszSize hlen ih l old.1
      (by rw [hl, old.2]) [] 0 (by simp)
    rw [List.nil_append] at h
    rw [serializeBytes_vector, h]
    rfl
  | .listF t n, hw, v, old, hs => by
    simp only [Spec.wf, Bool.and_eq_true, Bool.not_eq_true'] at hw
    have hsz := (sszSize_spec t hw.1).2 hw.2
    have hlen : ∀ x, (serializeBytes t x).length = t.sszSize := fun x => by
      rw [length_serializeBytes t hw.1 hw.2, hsz.1]
    rw [serializeBytes_listF] at hs ⊢
    have htot : (List.flatMap (serializeBytes t) v).length = v.length * t.sszSize := by
      rw [List.length_flatMap, List.map_congr_left (fun x _ => hlen x), List.map_const', List.sum_replicate_nat]
    match v with
    | [] =>
      rw [deserialize, if_neg (by omega), if_neg (by simp)]
      rw [listFLoop]; simp
    | x :: xs =>
      have hsmall : t.sszSize < 2 ^ 32 := by
        rw [List.flatMap_cons, List.length_append, hlen] at hs; omega
      have ih := fun x => deserialize_serializeBytes t hw.1 x t.dflt (by rw [hlen]; exact hsmall)
      rw [deserialize, if_neg (by omega), if_neg (by rw [htot]; simp)]
      rw [listFLoop_roundtrip _ (serializeBytes t) t.sszSize hsz.2 hlen ih]
      simp
  | .listV t n, hw, v, old, hs => by
    simp only [Spec.wf, Bool.and_eq_true, Bool.not_eq_true'] at hw
    rw [serializeBytes_listV] at hs ⊢
    rw [List.length_append, length_headsL, fixedLenL_map_true] at hs
    rw [deserialize, listVDeserialize_roundtrip _ (serializeBytes t)
      (fun x hx => deserialize_serializeBytes t hw.1 x t.dflt hx) v hs]
  | .container s e ps, hw, v, old, hs => by
    rw [serializeBytes_container s e ps hw v] at hs ⊢
    have hw' := hw
    simp only [Spec.wf, Bool.and_eq_true, decide_eq_true_eq] at hw'
    have hfl := fixedLenL_partsL ps hw'.1.1.1 v
    rw [List.length_append, length_headsL] at hs
    have h := deserialize_assemble s e ps hw v old (partsL ps v) [] (partsOK_partsL ps hw'.1.1.1 v old hs) hfl hs (Or.inl rfl)
    rwa [List.append_nil] at h

theorem partsOK_partsL : (ps : Parts) → Spec.wfParts ps = true → (v old : ps.denote) →
    fixedLenL (partsL ps v) + (tailsL (partsL ps v)).length < 2 ^ 32 → PartsOK ps old v (partsL ps v)
  | .nil, _, v, old, _ => rfl
  | .cons _ t ps, hw, v, old, hs => by
    simp only [Spec.wfParts, Bool.and_eq_true] at hw
    rw [partsL]
    simp only [partsL, fixedLenL, tailsL, List.length_append] at hs
    have hlen : t.sszSize ≠ 0 → (serializeBytes t v.1).length = t.sszSize := by
      intro ht
      have hvar : Spec.isVariable t = false := by
        cases h : Spec.isVariable t
        · rfl
        · exact absurd ((sszSize_eq_zero_iff hw.1).2 h) ht
      rw [length_serializeBytes t hw.1 hvar, ((sszSize_spec t hw.1).2 hvar).1]
    refine ⟨rfl, hlen, deserialize_serializeBytes t hw.1 v.1 old.1 ?_, partsOK_partsL ps hw.2 v.2 old.2 (by omega)⟩
    by_cases ht : t.sszSize = 0 <;> simp [ht] at hs <;> omega
end

end Mammon
