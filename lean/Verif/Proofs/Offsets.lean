import Verif.Proofs.RoundTrip
import Verif.Proofs.Canonical
import Verif.Spec.Offsets
/-! # Sizes of variable types, offsets of encodings and of accepted input -/

namespace Mammon

/-! ## undefined behaviour of `serialize` -/

mutual
theorem serializeUB_eq : (t : Ty) → (v : t.denote) → serializeUB t v = !Spec.bitlistsShort t v
  | .uint64, _ => rfl
  | .boolean, _ => rfl
  | .bytes _, _ => rfl
  | .bitvector _, _ => rfl
  | .bitlist _, v => by
    rw [serializeUB, Spec.bitlistsShort]
    by_cases h : 2 ^ 31 ≤ List.length v
    · have h' : ¬ List.length v < 2 ^ 31 := by omega
      simp only [h, h', decide_true, decide_false, Bool.not_false]
    · have h' : List.length v < 2 ^ 31 := by omega
      simp only [h, h', decide_true, decide_false, Bool.not_true]
  | .vector t _, v => by
    rw [serializeUB, Spec.bitlistsShort, List.not_all_eq_any_not]
    exact congrArg (v.1.any ·) (funext fun x => serializeUB_eq t x)
  | .listF t _, v => by
    rw [serializeUB, Spec.bitlistsShort, List.not_all_eq_any_not]
    exact congrArg (List.any v ·) (funext fun x => serializeUB_eq t x)
  | .listV t _, v => by
    rw [serializeUB, Spec.bitlistsShort, List.not_all_eq_any_not]
    exact congrArg (List.any v ·) (funext fun x => serializeUB_eq t x)
  | .container _ _ ps, v => by rw [serializeUB, Spec.bitlistsShort, serializeUBParts_eq ps v]

theorem serializeUBParts_eq : (ps : Parts) → (v : ps.denote) → serializeUBParts ps v = !Spec.bitlistsShortParts ps v
  | .nil, _ => rfl
  | .cons _ t ps, v => by
    rw [serializeUBParts, Spec.bitlistsShortParts, serializeUB_eq t, serializeUBParts_eq ps, Bool.not_and]
end

theorem serialize_of_short {t : Ty} {v : t.denote} (h : Spec.bitlistsShort t v = true) :
    serialize t v = .ok (serializeBytes t v) := by
  rw [serialize, serializeUB_eq, h]; rfl

theorem serialize_of_long {t : Ty} {v : t.denote} (h : Spec.bitlistsShort t v = false) : serialize t v = .ub := by
  rw [serialize, serializeUB_eq, h]; rfl

mutual
/-- Fixed-size types contain no bit lists. -/
theorem short_of_fixed : (t : Ty) → Spec.wf t = true → Spec.isVariable t = false → (v : t.denote) → Spec.bitlistsShort t v = true
  | .uint64, _, _, _ => rfl
  | .boolean, _, _, _ => rfl
  | .bytes _, _, _, _ => rfl
  | .bitvector _, _, _, _ => rfl
  | .bitlist _, _, h, _ => by simp [Spec.isVariable] at h
  | .vector t n, hw, h, v => by
    simp only [Spec.wf, Bool.and_eq_true] at hw
    rw [Spec.bitlistsShort, List.all_eq_true]
    exact fun x _ => short_of_fixed t hw.1.1 (by simpa [Spec.isVariable] using h) x
  | .listF _ _, _, h, _ => by simp [Spec.isVariable] at h
  | .listV _ _, _, h, _ => by simp [Spec.isVariable] at h
  | .container _ _ ps, hw, h, v => by
    simp only [Spec.wf, Bool.and_eq_true] at hw
    rw [Spec.bitlistsShort]
    exact short_of_fixed_parts ps hw.1.1.1 (by simpa [Spec.isVariable] using h) v

theorem short_of_fixed_parts : (ps : Parts) → Spec.wfParts ps = true → Spec.anyVariable ps = false → (v : ps.denote) →
    Spec.bitlistsShortParts ps v = true
  | .nil, _, _, _ => rfl
  | .cons _ t ps, hw, h, v => by
    simp only [Spec.wfParts, Bool.and_eq_true] at hw
    simp only [Spec.anyVariable, Bool.or_eq_false_iff] at h
    rw [Spec.bitlistsShortParts, Bool.and_eq_true]
    exact ⟨short_of_fixed t hw.1 h.1 v.1, short_of_fixed_parts ps hw.2 h.2 v.2⟩
end

/-! ## variable-size types have values of different sizes -/

mutual
theorem exists_lengths : (t : Ty) → Spec.wf t = true → Spec.isVariable t = true →
    ∃ v w : t.denote, Spec.bitlistsShort t v = true ∧ Spec.bitlistsShort t w = true ∧
      (serializeBytes t v).length ≠ (serializeBytes t w).length
  | .uint64, _, h => by simp [Spec.isVariable] at h
  | .boolean, _, h => by simp [Spec.isVariable] at h
  | .bytes _, _, h => by simp [Spec.isVariable] at h
  | .bitvector _, _, h => by simp [Spec.isVariable] at h
  | .bitlist _, _, _ => ⟨[], List.replicate 8 false, rfl, rfl, by
    show (1 : Nat) ≠ 2; decide⟩
  | .vector t n, hw, h => by
    simp only [Spec.wf, Bool.and_eq_true, Bool.not_eq_true'] at hw
    simp [Spec.isVariable, hw] at h
  | .listF t n, hw, h => by
    simp only [Spec.wf, Bool.and_eq_true, Bool.not_eq_true'] at hw
    have hsz := (sszSize_spec t hw.1).2 hw.2
    refine ⟨[], [t.dflt], rfl, ?_, ?_⟩
    · simp only [Spec.bitlistsShort, List.all_cons, List.all_nil, Bool.and_true]
      exact short_dflt t
    · rw [serializeBytes_listF, serializeBytes_listF]
      simp only [List.flatMap_nil, List.length_nil, List.flatMap_cons, List.append_nil]
      rw [length_serializeBytes t hw.1 hw.2]; omega
  | .listV t n, hw, h => by
    simp only [Spec.wf, Bool.and_eq_true] at hw
    refine ⟨[], [t.dflt], rfl, ?_, ?_⟩
    · simp only [Spec.bitlistsShort, List.all_cons, List.all_nil, Bool.and_true]
      exact short_dflt t
    · rw [serializeBytes_listV, serializeBytes_listV]
      simp only [List.flatMap_nil, List.length_nil, List.flatMap_cons, List.append_nil, List.map_nil, headsL, List.map_cons,
        if_true, List.length_append, length_leBytes]
      omega
  | .container s e ps, hw, h => by
    have hw' := hw
    simp only [Spec.wf, Bool.and_eq_true] at hw'
    simp only [Spec.isVariable] at h
    obtain ⟨v, w, h1, h2, h3⟩ := exists_lengths_parts ps hw'.1.1.1 h
    refine ⟨v, w, h1, h2, ?_⟩
    rw [serializeBytes_container s e ps hw, serializeBytes_container s e ps hw, List.length_append, List.length_append,
      length_headsL, length_headsL, fixedLenL_partsL ps hw'.1.1.1, fixedLenL_partsL ps hw'.1.1.1]
    omega

theorem exists_lengths_parts : (ps : Parts) → Spec.wfParts ps = true → Spec.anyVariable ps = true →
    ∃ v w : ps.denote, Spec.bitlistsShortParts ps v = true ∧ Spec.bitlistsShortParts ps w = true ∧
      (tailsL (partsL ps v)).length ≠ (tailsL (partsL ps w)).length
  | .nil, _, h => by simp [Spec.anyVariable] at h
  | .cons _ t ps, hw, h => by
    simp only [Spec.wfParts, Bool.and_eq_true] at hw
    simp only [Spec.anyVariable, Bool.or_eq_true] at h
    by_cases ht : Spec.isVariable t = true
    · have h0 := (sszSize_eq_zero_iff hw.1).2 ht
      obtain ⟨v, w, h1, h2, h3⟩ := exists_lengths t hw.1 ht
      refine ⟨(v, ps.dflt), (w, ps.dflt), ?_, ?_, ?_⟩
      · rw [Spec.bitlistsShortParts, Bool.and_eq_true]; exact ⟨h1, short_dflt_parts ps⟩
      · rw [Spec.bitlistsShortParts, Bool.and_eq_true]; exact ⟨h2, short_dflt_parts ps⟩
      · simp only [partsL, tailsL, h0, decide_true, if_true, List.length_append]; omega
    · obtain ⟨v, w, h1, h2, h3⟩ := exists_lengths_parts ps hw.2 (h.resolve_left ht)
      have h0 : ¬ t.sszSize = 0 := fun h => ht ((sszSize_eq_zero_iff hw.1).1 h)
      refine ⟨(t.dflt, v), (t.dflt, w), ?_, ?_, ?_⟩
      · rw [Spec.bitlistsShortParts, Bool.and_eq_true]; exact ⟨short_dflt t, h1⟩
      · rw [Spec.bitlistsShortParts, Bool.and_eq_true]; exact ⟨short_dflt t, h2⟩
      · simp only [partsL, tailsL, h0, decide_false, Bool.false_eq_true, if_false, List.nil_append]; exact h3

theorem short_dflt : (t : Ty) → Spec.bitlistsShort t t.dflt = true
  | .uint64 => rfl
  | .boolean => rfl
  | .bytes _ => rfl
  | .bitvector _ => rfl
  | .bitlist _ => by simp [Spec.bitlistsShort, Ty.dflt]
  | .vector t n => by
    rw [Spec.bitlistsShort, Ty.dflt, List.all_eq_true]
    intro x hx
    rw [List.eq_of_mem_replicate hx]
    exact short_dflt t
  | .listF _ _ => rfl
  | .listV _ _ => rfl
  | .container _ _ ps => by rw [Spec.bitlistsShort, Ty.dflt]; exact short_dflt_parts ps

theorem short_dflt_parts : (ps : Parts) → Spec.bitlistsShortParts ps ps.dflt = true
  | .nil => rfl
  | .cons _ t ps => by
    rw [Spec.bitlistsShortParts, Parts.dflt, Bool.and_eq_true]; exact ⟨short_dflt t, short_dflt_parts ps⟩
end

/-! ## reading offsets -/

theorem readOffset_eq {bs : List Byte} {i : Nat} {r : BitVec 32} (h : read32 bs i = .ok r) :
    Spec.readOffset bs i = r.toNat := by
  obtain ⟨h1, h2⟩ := read32_eq_ok h
  have hg : ∀ k, k < 4 → bs.getD (i + k) 0#8 = (leBytes 4 r.toNat).getD k 0#8 := by
    intro k hk
    rw [← h2, List.getD_eq_getElem?_getD, List.getD_eq_getElem?_getD, List.getElem?_take_of_lt hk, List.getElem?_drop]
  rw [Spec.readOffset, hg 1 (by omega), hg 2 (by omega), hg 3 (by omega)]
  have := hg 0 (by omega)
  rw [Nat.add_zero] at this
  rw [this]
  have h3 := fromLE_leBytes 4 r.toNat
  rw [Nat.mod_eq_of_lt (Nat.lt_of_lt_of_le r.isLt (by decide))] at h3
  conv_rhs => rw [← h3]
  simp only [leBytes, fromLE, List.getD_cons_zero, List.getD_cons_succ]
  omega

theorem readOffset_append (a c : List Byte) (n i : Nat) (hi : i = a.length) (hn : n < 2 ^ 32) :
    Spec.readOffset (a ++ (leBytes 4 n ++ c)) i = n := by
  rw [readOffset_eq (read32_append a c n i hi), BitVec.toNat_ofNat, Nat.mod_eq_of_lt hn]

/-- The offsets in the fixed section of encoded parts, for encodings below 2^32 bytes, point at the parts. -/
theorem offsets_encode : (ps : Parts) → Spec.wfParts ps = true → (v : ps.denote) → (A B : List Byte) → (off : Nat) →
    off = A.length + fixedLenL (partsL ps v) + B.length → off + (tailsL (partsL ps v)).length < 2 ^ 32 →
    List.Forall₂ (fun o b => ((A ++ (headsL (partsL ps v) off ++ (B ++ tailsL (partsL ps v)))).drop o).take b.length = b)
      ((Spec.offsetPositions ps A.length).map
        (Spec.readOffset (A ++ (headsL (partsL ps v) off ++ (B ++ tailsL (partsL ps v))))))
      (((partsL ps v).filter (·.1)).map (·.2))
  | .nil, _, v, A, B, off, _, _ => by simp [Spec.offsetPositions, partsL]
  | .cons _ t ps, hw, v, A, B, off, hoff, hs => by
    simp only [Spec.wfParts, Bool.and_eq_true] at hw
    simp only [partsL, headsL, tailsL, fixedLenL] at hoff hs ⊢
    have hheads := length_headsL (partsL ps v.2)
    by_cases ht : t.sszSize = 0
    · have hvar := (sszSize_eq_zero_iff hw.1).1 ht
      simp only [ht, decide_true, if_true, List.length_append, Spec.offsetPositions, hvar, List.map_cons] at hoff hs ⊢
      rw [List.filter_cons_of_pos (by simp), List.map_cons]
      simp only [List.append_assoc]
      have ih := offsets_encode ps hw.2 v.2 (A ++ leBytes 4 off) (B ++ serializeBytes t v.1)
        (off + (serializeBytes t v.1).length) (by simp only [List.length_append, length_leBytes]; omega) (by omega)
      simp only [List.append_assoc, List.length_append, length_leBytes] at ih
      refine List.Forall₂.cons ?_ ih
      rw [readOffset_append A _ off _ rfl (by omega)]
      rw [← List.append_assoc A, ← List.append_assoc (A ++ _), ← List.append_assoc (A ++ _ ++ _), List.drop_left' (by
        simp only [List.length_append, length_leBytes, hheads]; omega), List.take_left]
    · have hvar : Spec.isVariable t = false := by
        cases h : Spec.isVariable t
        · rfl
        · exact absurd ((sszSize_eq_zero_iff hw.1).2 h) ht
      have hlen := length_serializeBytes t hw.1 hvar v.1
      simp only [ht, decide_false, Bool.false_eq_true, if_false, List.nil_append, Spec.offsetPositions, hvar] at hoff hs ⊢
      rw [List.filter_cons_of_neg (by simp)]
      have ih := offsets_encode ps hw.2 v.2 (A ++ serializeBytes t v.1) B off
        (by simp only [List.length_append]; omega) (by omega)
      simp only [List.append_assoc, List.length_append, hlen] at ih ⊢
      exact ih

/-- The offsets of accepted input. -/
theorem offsets_decode : (ps : Parts) → Spec.wfParts ps = true →
    (old v : ps.denote) → (bs : List Byte) → (fl it : Nat) → (last : BitVec 32) → {p : Ty} → (prev pv : p.denote) →
    (desPrev : List Byte → Out (Bool × p.denote)) → 0 < fl → fl < 2 ^ 32 →
    deserializeParts ps old bs (BitVec.ofNat 32 fl) it last prev desPrev = .ok (true, pv, v) →
    let o := (Spec.offsetPositions ps it).map (Spec.readOffset bs)
    (it ≤ bs.length → it + Spec.fixedSizeParts ps ≤ bs.length) ∧ (last = 0#32 → ∀ x ∈ o.head?, x = fl) ∧
      (last ≠ 0#32 → ∀ x ∈ o, last.toNat ≤ x) ∧ o.Pairwise (· ≤ ·) ∧ (∀ x ∈ o, x ≤ bs.length)
  | .nil, _, old, v, bs, fl, it, last, p, prev, pv, desPrev, hfl, hfl2, h => by
    simp [Spec.offsetPositions, Spec.fixedSizeParts]
  | .cons _ t ps, hw, old, v, bs, fl, it, last, p, prev, pv, desPrev, hfl, hfl2, h => by
    simp only [Spec.wfParts, Bool.and_eq_true] at hw
    rw [deserializeParts] at h
    by_cases ht : t.sszSize = 0
    · have hvar := (sszSize_eq_zero_iff hw.1).1 ht
      simp only [Spec.offsetPositions, hvar, if_true, List.map_cons, Spec.fixedSizeParts]
      rw [if_neg (by simp [ht])] at h
      simp only [BYTES_PER_LENGTH_OFFSET] at h
      by_cases h1 : bs.length - it < 4
      · rw [if_pos h1] at h; cases h
      rw [if_neg h1, Out.bind_eq_ok] at h
      obtain ⟨cur, hcur, h⟩ := h
      have hro := readOffset_eq hcur
      by_cases h2 : bs.length < cur.toNat
      · rw [if_pos h2] at h; cases h
      rw [if_neg h2] at h
      have key : ∀ pv' : t.denote, ∀ v' : ps.denote, cur ≠ 0#32 →
          deserializeParts ps old.2 bs (BitVec.ofNat 32 fl) (it + 4) cur old.1 (fun s => deserialize t old.1 s) =
            .ok (true, pv', v') →
          (it ≤ bs.length → it + (4 + Spec.fixedSizeParts ps) ≤ bs.length) ∧
          (cur.toNat :: (Spec.offsetPositions ps (it + 4)).map (Spec.readOffset bs)).Pairwise (· ≤ ·) ∧
          ∀ x ∈ cur.toNat :: (Spec.offsetPositions ps (it + 4)).map (Spec.readOffset bs), x ≤ bs.length := by
        intro pv' v' hc hd
        obtain ⟨e1, e2, e3, e4, e5⟩ := offsets_decode ps hw.2 old.2 v' bs fl (it + 4) cur old.1 pv' _ hfl hfl2 hd
        refine ⟨fun hi => by have := e1 (by omega); omega, ?_, ?_⟩
        · exact List.pairwise_cons.2 ⟨e3 hc, e4⟩
        · intro x hx
          rcases List.mem_cons.1 hx with rfl | hx
          · omega
          · exact e5 x hx
      rw [hro]
      by_cases h0 : last ≠ 0#32
      · rw [if_pos h0] at h
        by_cases h3 : cur < last
        · rw [if_pos h3] at h; cases h
        rw [if_neg h3, Out.bind_eq_ok] at h
        obtain ⟨s, hs, h⟩ := h
        rw [Out.bind_eq_ok] at h
        obtain ⟨⟨b, r⟩, hr, h⟩ := h
        obtain ⟨⟨e1, e2⟩, e3, e4⟩ := slice_eq_ok hs
        cases b
        · cases h
        simp only [if_true] at h
        rw [Out.bind_eq_ok] at h
        obtain ⟨⟨b, q1, q2⟩, hq, h⟩ := h
        simp only [Out.ok.injEq, Prod.mk.injEq] at h
        obtain ⟨rfl, _⟩ := h
        have hc0 : cur ≠ 0#32 := by
          rintro rfl
          apply h0
          apply BitVec.eq_of_toNat_eq
          simp at e1
          simp [e1]
        obtain ⟨k1, k2, k3⟩ := key _ _ hc0 hq
        refine ⟨k1, fun h => absurd h h0, fun _ x hx => ?_, k2, k3⟩
        rcases List.mem_cons.1 hx with rfl | hx
        · exact e1
        · exact Nat.le_trans e1 ((List.pairwise_cons.1 k2).1 x hx)
      · rw [if_neg h0] at h
        split at h
        · cases h
        rename_i hcf
        simp only [ne_eq, Decidable.not_not] at hcf
        rw [Out.bind_eq_ok] at h
        obtain ⟨⟨b, q1, q2⟩, hq, h⟩ := h
        simp only [Out.ok.injEq, Prod.mk.injEq] at h
        obtain ⟨rfl, _⟩ := h
        have hcn : cur.toNat = fl := by rw [hcf, BitVec.toNat_ofNat]; exact Nat.mod_eq_of_lt hfl2
        have hc0 : cur ≠ 0#32 := by
          rintro rfl
          simp at hcn; omega
        obtain ⟨k1, k2, k3⟩ := key _ _ hc0 hq
        exact ⟨k1, fun _ x hx => by simpa [hcn, eq_comm] using hx, fun h => absurd h h0, k2, k3⟩
    · have hvar : Spec.isVariable t = false := by
        cases hv : Spec.isVariable t
        · rfl
        · exact absurd ((sszSize_eq_zero_iff hw.1).2 hv) ht
      have hsz := ((sszSize_spec t hw.1).2 hvar).1
      simp only [Spec.offsetPositions, hvar, Bool.false_eq_true, if_false, Spec.fixedSizeParts]
      rw [if_pos ht] at h
      by_cases h1 : bs.length - it < t.sszSize
      · rw [if_pos h1] at h; cases h
      rw [if_neg h1, Out.bind_eq_ok] at h
      obtain ⟨s, hs, h⟩ := h
      rw [Out.bind_eq_ok] at h
      obtain ⟨⟨b, r⟩, hr, h⟩ := h
      obtain ⟨⟨e1, e2⟩, e3, e4⟩ := slice_eq_ok hs
      cases b
      · cases h
      simp only [if_true] at h
      rw [Out.bind_eq_ok] at h
      obtain ⟨⟨b, q1, q2⟩, hq, h⟩ := h
      simp only [Out.ok.injEq, Prod.mk.injEq] at h
      obtain ⟨rfl, _⟩ := h
      obtain ⟨e1, e2, e3, e4, e5⟩ := offsets_decode ps hw.2 old.2 q2 bs fl (it + t.sszSize) last prev q1 _ hfl hfl2 hq
      rw [hsz] at e1 e2 e3 e4 e5
      refine ⟨fun hi => ?_, e2, e3, e4, e5⟩
      have := e1 (by omega)
      omega

theorem listVLoop_offsets {α : Type} (elem : List Byte → Out (Bool × α))
    (bs : List Byte) (first : BitVec 32) (it : Nat) (last : BitVec 32) (acc r : List α)
    (hit : it ≤ first.toNat) (hf : first.toNat ≤ bs.length) (hl : last.toNat ≤ bs.length)
    (h : listVLoop elem bs first it last acc = .ok (true, r)) :
    let o := (List.range ((first.toNat - it) / 4)).map fun k => Spec.readOffset bs (it + 4 * k)
    r.length = acc.length + 1 + (first.toNat - it) / 4 ∧ 4 ∣ first.toNat - it ∧ (last.toNat :: o).Pairwise (· ≤ ·) ∧
      ∀ x ∈ o, x ≤ bs.length := by
  fun_induction listVLoop elem bs first it last acc with
  | case1 last acc =>
    rw [Out.bind_eq_ok] at h
    obtain ⟨s, hs, h⟩ := h
    rw [Out.bind_eq_ok] at h
    obtain ⟨⟨b, v⟩, hv, h⟩ := h
    cases b
    · simp at h
    · simp only [if_true, Out.ok.injEq, Prod.mk.injEq, true_and] at h
      simp [← h]
  | case2 => cases h
  | case3 it last acc hne hle ih =>
    simp only [BYTES_PER_LENGTH_OFFSET] at *
    rw [Out.bind_eq_ok] at h
    obtain ⟨cur, hcur, h⟩ := h
    have hro := readOffset_eq hcur
    by_cases h1 : cur < last
    · rw [if_pos h1] at h; cases h
    rw [if_neg h1] at h
    by_cases h2 : bs.length < cur.toNat
    · rw [if_pos h2] at h; cases h
    rw [if_neg h2, Out.bind_eq_ok] at h
    obtain ⟨s, hs, h⟩ := h
    rw [Out.bind_eq_ok] at h
    obtain ⟨⟨b, v⟩, hv, h⟩ := h
    obtain ⟨⟨h3, h4⟩, h5, h6⟩ := slice_eq_ok hs
    cases b
    · cases h
    · simp only [if_true] at h
      obtain ⟨e1, e2, e3, e4⟩ := ih cur (true, v) (by omega) (by omega) h
      rw [List.length_append, List.length_singleton] at e1
      have hd : (first.toNat - it) / 4 = (first.toNat - (it + 4)) / 4 + 1 := by omega
      have ho : (List.range ((first.toNat - it) / 4)).map (fun k => Spec.readOffset bs (it + 4 * k)) =
          cur.toNat :: (List.range ((first.toNat - (it + 4)) / 4)).map (fun k => Spec.readOffset bs (it + 4 + 4 * k)) := by
        rw [hd, List.range_succ_eq_map, List.map_cons, List.map_map, Nat.mul_zero, Nat.add_zero, hro]
        congr 1
        apply List.map_congr_left
        intro k _
        simp only [Function.comp, Nat.succ_eq_add_one]
        congr 1
        omega
      refine ⟨by omega, by omega, ?_, ?_⟩
      · rw [ho]
        refine List.pairwise_cons.2 ⟨fun x hx => ?_, e3⟩
        rcases List.mem_cons.1 hx with rfl | hx
        · exact h3
        · exact Nat.le_trans h3 ((List.pairwise_cons.1 e3).1 x hx)
      · rw [ho]
        intro x hx
        rcases List.mem_cons.1 hx with rfl | hx
        · omega
        · exact e4 x hx

theorem listVDeserialize_offsets {α : Type} (elem : List Byte → Out (Bool × α)) (bs : List Byte) (r : List α) (hne : bs ≠ [])
    (h : listVDeserialize elem bs = .ok (true, r)) :
    (Spec.listOffsets bs).head? = some (4 * r.length) ∧ (Spec.listOffsets bs).length = r.length ∧
      (Spec.listOffsets bs).Pairwise (· ≤ ·) ∧ ∀ x ∈ Spec.listOffsets bs, x ≤ bs.length := by
  rw [listVDeserialize, if_neg (by simpa using hne)] at h
  simp only [BYTES_PER_LENGTH_OFFSET] at h
  by_cases h1 : bs.length < 4
  · rw [if_pos h1] at h; cases h
  rw [if_neg h1, Out.bind_eq_ok] at h
  obtain ⟨first, hfirst, h⟩ := h
  have hro := readOffset_eq hfirst
  by_cases h2 : first.toNat < 4
  · rw [if_pos h2] at h; cases h
  rw [if_neg h2] at h
  by_cases h3 : bs.length < first.toNat
  · rw [if_pos h3] at h; cases h
  rw [if_neg h3] at h
  obtain ⟨e1, e2, e3, e4⟩ := listVLoop_offsets elem bs first 4 first [] r (by omega) (by omega) (by omega) h
  rw [List.length_nil] at e1
  have ho : Spec.listOffsets bs =
      first.toNat :: (List.range ((first.toNat - 4) / 4)).map (fun k => Spec.readOffset bs (4 + 4 * k)) := by
    rw [Spec.listOffsets, hro, show first.toNat / 4 = (first.toNat - 4) / 4 + 1 by omega, List.range_succ_eq_map, List.map_cons,
      List.map_map, Nat.mul_zero, hro]
    congr 1
    apply List.map_congr_left
    intro k _
    simp only [Function.comp, Nat.succ_eq_add_one]
    congr 1
    omega
  rw [ho]
  refine ⟨?_, ?_, e3, ?_⟩
  · simp only [List.head?_cons]; congr 1; omega
  · simp only [List.length_cons, List.length_map, List.length_range]; omega
  · intro x hx
    rcases List.mem_cons.1 hx with rfl | hx
    · omega
    · exact e4 x hx

/-! ## further lemmas -/

theorem partsL_fixed : (ps : Parts) → Spec.wfParts ps = true → Spec.anyVariable ps = false → (v : ps.denote) →
    ∀ x ∈ partsL ps v, x.1 = false
  | .nil, _, _, _ => by simp [partsL]
  | .cons _ t ps, hw, h, v => by
    simp only [Spec.wfParts, Bool.and_eq_true] at hw
    simp only [Spec.anyVariable, Bool.or_eq_false_iff] at h
    intro x hx
    rw [partsL, List.mem_cons] at hx
    rcases hx with rfl | hx
    · have := (sszSize_spec t hw.1).2 h.1
      simp only [decide_eq_false_iff_not]; omega
    · exact partsL_fixed ps hw.2 h.2 v.2 x hx

theorem listFLoop_length {α : Type} (elem : List Byte → Out (Bool × α)) (size : Nat) (acc : List α) (bs : List Byte) (r : List α)
    (h : listFLoop elem size acc bs = .ok (true, r)) : r.length * size = acc.length * size + bs.length := by
  fun_induction listFLoop elem size acc bs with
  | case1 acc bs hbs =>
    simp only [Out.ok.injEq, Prod.mk.injEq, true_and] at h
    simp [← h, List.isEmpty_iff.1 hbs]
  | case2 => cases h
  | case3 acc bs hbs hs ih =>
    rw [Out.bind_eq_ok] at h
    obtain ⟨⟨b, v⟩, hv, h⟩ := h
    cases b
    · simp at h
    · have := ih (true, v) h
      rw [this, List.length_append, List.length_singleton, List.length_drop, Nat.add_mul]
      omega

end Mammon
