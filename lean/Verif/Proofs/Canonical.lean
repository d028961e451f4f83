import Verif.Proofs.Encode
import Verif.Spec.Classes
/-! # Whatever `deserialize` accepts is what `serialize` produces -/

namespace Mammon

theorem take_drop_add {α : Type} (l : List α) (i m n : Nat) :
    (l.drop i).take (m + n) = (l.drop i).take m ++ (l.drop (i + m)).take n := by
  rw [List.take_add, List.drop_drop]

theorem drop_eq_take_append {α : Type} (l : List α) (i j : Nat) (h : i ≤ j) :
    l.drop i = (l.drop i).take (j - i) ++ l.drop j := by
  have := (List.take_append_drop (j - i) (l.drop i)).symm
  rwa [List.drop_drop, Nat.add_sub_cancel' h] at this

theorem vectorLoop_canonical {α : Type} (elem : α → List Byte → Out (Bool × α)) (ser : α → List Byte) (size : Nat)
    (bs : List Byte) (hc : ∀ old s v, s.length = size → elem old s = .ok (true, v) → ser v = s)
    (olds : List α) (i : Nat) (r : Vec α olds.length)
    (h : vectorLoop elem size bs i olds = .ok (true, r)) :
    List.flatMap ser r.1 = (bs.drop (i * size)).take (olds.length * size) := by
  induction olds generalizing i with
  | nil =>
    simp only [vectorLoop] at h
    cases h
    simp
  | cons o os ih =>
    rw [vectorLoop, Out.bind_eq_ok] at h
    obtain ⟨s, hs, h⟩ := h
    rw [Out.bind_eq_ok] at h
    obtain ⟨⟨b, v⟩, hv, h⟩ := h
    obtain ⟨⟨h1, h2⟩, h3, h4⟩ := slice_eq_ok hs
    cases b
    · cases h
    · simp only [if_true] at h
      rw [Out.bind_eq_ok] at h
      obtain ⟨⟨b, q⟩, hq, h⟩ := h
      simp only [Out.ok.injEq, Prod.mk.injEq] at h
      obtain ⟨rfl, rfl⟩ := h
      have hsz : (i + 1) * size - i * size = size := by rw [Nat.succ_mul]; omega
      rw [List.flatMap_cons, ih _ _ hq, hc o s v (by rw [h4, hsz]) hv, h3, hsz, List.length_cons,
        show (os.length + 1) * size = size + os.length * size by rw [Nat.succ_mul, Nat.add_comm], take_drop_add, Nat.succ_mul]

theorem listFLoop_canonical {α : Type} (elem : List Byte → Out (Bool × α)) (ser : α → List Byte) (size : Nat)
    (hc : ∀ s v, s.length = size → elem s = .ok (true, v) → ser v = s)
    (bs : List Byte) (acc r : List α) (h : listFLoop elem size acc bs = .ok (true, r)) :
    List.flatMap ser r = List.flatMap ser acc ++ bs := by
  fun_induction listFLoop elem size acc bs with
  | case1 acc bs he =>
    cases h
    simp at he
    simp [he]
  | case2 => cases h
  | case3 acc bs he hsz ih =>
    rw [Out.bind_eq_ok] at h
    obtain ⟨⟨b, v⟩, hv, h⟩ := h
    cases b
    · cases h
    · simp only [if_true] at h
      rw [ih (true, v) h, List.flatMap_append, List.flatMap_singleton,
        hc _ _ (by rw [List.length_take]; omega) hv, List.append_assoc, List.take_append_drop]

theorem listVLoop_canonical {α : Type} (elem : List Byte → Out (Bool × α)) (ser : α → List Byte)
    (hc : ∀ s v, elem s = .ok (true, v) → ser v = s)
    (bs : List Byte) (first : BitVec 32) (it : Nat) (last : BitVec 32) (acc r : List α)
    (hit : it ≤ first.toNat) (hf : first.toNat ≤ bs.length)
    (h : listVLoop elem bs first it last acc = .ok (true, r)) :
    ∃ y ys, r = acc ++ y :: ys ∧ first.toNat - it = ys.length * 4 ∧ last.toNat ≤ bs.length ∧
      (bs.drop it).take (first.toNat - it) =
        headsL (ys.map fun x => (true, ser x)) (last.toNat + (ser y).length) ∧
      bs.drop last.toNat = List.flatMap ser (y :: ys) := by
  fun_induction listVLoop elem bs first it last acc with
  | case1 last acc =>
    rw [Out.bind_eq_ok] at h
    obtain ⟨s, hs, h⟩ := h
    rw [Out.bind_eq_ok] at h
    obtain ⟨⟨b, v⟩, hv, h⟩ := h
    obtain ⟨⟨h1, h2⟩, h3, h4⟩ := slice_eq_ok hs
    cases b
    · simp at h
    · simp only [if_true, Out.ok.injEq, Prod.mk.injEq, true_and] at h
      refine ⟨v, [], h.symm, by simp, h1, by simp [headsL], ?_⟩
      rw [List.flatMap_cons, List.flatMap_nil, List.append_nil, hc s v hv, h3, List.take_of_length_le]
      rw [List.length_drop]
  | case2 => cases h
  | case3 it last acc hne hle ih =>
    simp only [BYTES_PER_LENGTH_OFFSET] at *
    rw [Out.bind_eq_ok] at h
    obtain ⟨cur, hcur, h⟩ := h
    obtain ⟨hr1, hr2⟩ := read32_eq_ok hcur
    by_cases h1 : cur < last
    · rw [if_pos h1] at h; cases h
    rw [if_neg h1] at h
    by_cases h2 : bs.length < cur.toNat
    · rw [if_pos h2] at h; cases h
    rw [if_neg h2, Out.bind_eq_ok] at h
    obtain ⟨s, hs, h⟩ := h
    rw [Out.bind_eq_ok] at h
    obtain ⟨⟨b, v⟩, hv, h⟩ := h
    obtain ⟨⟨h3, h4⟩, h5, h6⟩ := slice_eq_ok hs
    cases b
    · cases h
    · simp only [if_true] at h
      obtain ⟨y, ys, e1, e2, e3, e4, e5⟩ := ih cur (true, v) (by omega) h
      have hsv := hc s v hv
      have hlen : last.toNat + (ser v).length = cur.toNat := by rw [hsv, h6]; omega
      refine ⟨v, y :: ys, ?_, ?_, by omega, ?_, ?_⟩
      · rw [e1, List.append_assoc]; rfl
      · rw [List.length_cons]; omega
      · rw [show first.toNat - it = 4 + (first.toNat - (it + 4)) by omega, take_drop_add, hr2, e4, hlen]
        simp [headsL]
      · rw [List.flatMap_cons, ← e5, hsv, h5]
        exact drop_eq_take_append _ _ _ h3

theorem listVDeserialize_canonical {α : Type} (elem : List Byte → Out (Bool × α)) (ser : α → List Byte)
    (hc : ∀ s v, elem s = .ok (true, v) → ser v = s) (bs : List Byte) (r : List α)
    (h : listVDeserialize elem bs = .ok (true, r)) :
    headsL (r.map fun x => (true, ser x)) (r.length * 4) ++ List.flatMap ser r = bs := by
  rw [listVDeserialize] at h
  by_cases h0 : bs.isEmpty
  · rw [if_pos h0] at h
    cases h
    simp at h0
    simp [h0, headsL]
  rw [if_neg h0] at h
  simp only [BYTES_PER_LENGTH_OFFSET] at h
  by_cases h1 : bs.length < 4
  · rw [if_pos h1] at h; cases h
  rw [if_neg h1, Out.bind_eq_ok] at h
  obtain ⟨first, hfirst, h⟩ := h
  obtain ⟨hr1, hr2⟩ := read32_eq_ok hfirst
  by_cases h2 : first.toNat < 4
  · rw [if_pos h2] at h; cases h
  rw [if_neg h2] at h
  by_cases h3 : bs.length < first.toNat
  · rw [if_pos h3] at h; cases h
  rw [if_neg h3] at h
  obtain ⟨y, ys, e1, e2, e3, e4, e5⟩ := listVLoop_canonical elem ser hc bs first 4 first [] r (by omega) (by omega) h
  rw [e1, List.nil_append, List.map_cons, headsL, List.length_cons, ← e5]
  simp only [if_true]
  rw [show (ys.length + 1) * 4 = first.toNat by omega, ← e4, ← hr2]
  have := take_drop_add bs 0 4 (first.toNat - 4)
  simp only [List.drop_zero, Nat.zero_add] at this hr2 ⊢
  rw [← this, show 4 + (first.toNat - 4) = first.toNat by omega, List.take_append_drop]

mutual
theorem serializeBytes_deserialize : (t : Ty) → Spec.wf t = true → Spec.wholeBytes t = true → (old v : t.denote) →
    (bs : List Byte) → (t.sszSize ≠ 0 → bs.length = t.sszSize) → deserialize t old bs = .ok (true, v) →
    serializeBytes t v = bs
  | .uint64, _, _, old, v, bs, hl, h => by
    rw [deserialize] at h
    split at h
    · cases h
    · rename_i hlen
      simp only [Out.ok.injEq, Prod.mk.injEq, true_and] at h
      simp only [ne_eq, Decidable.not_not] at hlen
      subst h
      have h1 := fromLE_lt bs
      have h2 := leBytes_fromLE bs
      rw [hlen] at h1 h2
      rw [serializeBytes, BitVec.toNat_ofNat, Nat.mod_eq_of_lt (by simpa using h1), h2]
  | .boolean, _, _, old, v, bs, hl, h => by
    rw [deserialize] at h
    split at h
    · cases h
    · rename_i hlen
      split at h
      · cases h
      · rename_i hle
        simp only [Out.ok.injEq, Prod.mk.injEq, true_and] at h
        simp only [ne_eq, Decidable.not_not] at hlen
        subst h
        have h2 := leBytes_fromLE bs
        rw [hlen] at h2
        rw [serializeBytes]
        have : fromLE bs = 0 ∨ fromLE bs = 1 := by omega
        rcases this with h3 | h3 <;> rw [h3] at h2 ⊢ <;> exact h2
  | .bytes n, _, _, old, v, bs, hl, h => by
    rw [deserialize] at h
    split at h
    · simp only [Out.ok.injEq, Prod.mk.injEq, true_and] at h
      subst h; rw [serializeBytes]
    · cases h
  | .bitvector n, _, hb, old, v, bs, hl, h => by
    rw [deserialize, bitvectorDeserialize] at h
    split at h
    · cases h
    · rename_i hlen
      simp only [Out.ok.injEq, Prod.mk.injEq, true_and] at h
      simp only [ne_eq, Decidable.not_not, BITS_PER_BYTE] at hlen
      simp only [Spec.wholeBytes, decide_eq_true_eq] at hb
      subst h
      rw [serializeBytes]
      simp only
      rw [bitvectorStore_eq _ _ _ old.2 (by rw [hlen]; congr 1), bitvector_canonical n bs hb (by rw [hlen]; congr 1)]
  | .bitlist n, _, _, old, v, bs, hl, h => by
    rw [deserialize] at h
    by_cases hne : bs = []
    · rw [hne, bitlistDeserialize_nil] at h; cases h
    by_cases hlast : bs.getLast hne = 0#8
    · rw [bitlistDeserialize_last_zero bs hne hlast] at h; cases h
    rw [bitlistDeserialize_ok bs hne hlast] at h
    simp only [Out.ok.injEq, Prod.mk.injEq, true_and] at h
    subst h
    rw [serializeBytes, bitlist_canonical bs hne hlast]
  | .vector t n, hw, hb, old, v, bs, hl, h => by
    simp only [Spec.wf, Bool.and_eq_true, Bool.not_eq_true', decide_eq_true_eq] at hw
    simp only [Spec.wholeBytes] at hb
    rw [deserialize] at h
    split at h
    · cases h
    rename_i hlen
    simp only [ne_eq, Decidable.not_not] at hlen
    rw [Out.bind_eq_ok] at h
    obtain ⟨⟨b, r⟩, hr, h⟩ := h
    simp only [Out.ok.injEq, Prod.mk.injEq] at h
    obtain ⟨rfl, rfl⟩ := h
    have := vectorLoop_canonical _ (serializeBytes t) t.sszSize bs
      (fun o s x hs hx => serializeBytes_deserialize t hw.1.1 hb o x s (fun _ => hs) hx) _ _ _ hr
    rw [serializeBytes_vector]
    have hn : old.1.length * t.sszSize = bs.length := by rw [old.2, hlen]
    rw [hn] at this
    simpa using this
  | .listF t n, hw, hb, old, v, bs, hl, h => by
    simp only [Spec.wf, Bool.and_eq_true, Bool.not_eq_true', decide_eq_true_eq] at hw
    simp only [Spec.wholeBytes] at hb
    rw [deserialize] at h
    split at h
    · cases h
    split at h
    · cases h
    have := listFLoop_canonical _ (serializeBytes t) t.sszSize
      (fun s x hs hx => serializeBytes_deserialize t hw.1 hb t.dflt x s (fun _ => hs) hx) _ _ _ h
    rw [serializeBytes_listF]
    simpa using this
  | .listV t n, hw, hb, old, v, bs, hl, h => by
    simp only [Spec.wf, Bool.and_eq_true, Bool.not_eq_true', decide_eq_true_eq] at hw
    simp only [Spec.wholeBytes] at hb
    have h0 := (sszSize_eq_zero_iff hw.1).2 hw.2
    rw [deserialize] at h
    rw [serializeBytes_listV]
    exact listVDeserialize_canonical _ (serializeBytes t)
      (fun s x hx => serializeBytes_deserialize t hw.1 hb t.dflt x s (fun hn => absurd h0 hn) hx) _ _ h
  | .container s e ps, hw, hb, old, v, bs, hl, h => by
    rw [serializeBytes_container s e ps hw]
    simp only [Spec.wf, Bool.and_eq_true, decide_eq_true_eq] at hw
    obtain ⟨⟨⟨hw, h1⟩, h2⟩, h3⟩ := hw
    simp only [Spec.wholeBytes] at hb
    rw [deserialize, Out.bind_eq_ok] at h
    obtain ⟨⟨b, p, q⟩, hq, h⟩ := h
    simp only [Out.ok.injEq, Prod.mk.injEq] at h
    obtain ⟨rfl, rfl⟩ := h
    rw [computeFixedLength_eq ps hw, BitVec.zero_add] at hq
    obtain ⟨off, g1, g2, g3, _, g4⟩ := serializeParts_deserialize ps hw hb old q bs (Spec.fixedSizeParts ps) 0 0#32 _ _ _
      h1 h2 (by omega) (by simp) hq
    rw [g4 rfl] at g2 g3
    rw [fixedLenL_partsL ps hw] at g1 g2
    simp only [List.drop_zero, Nat.zero_add] at g1 g2
    rw [← g2]
    cases hv : Spec.anyVariable ps
    · have hs : s = Spec.fixedSizeParts ps := by rw [h3, hv]; rfl
      have := hl (by simp only [Ty.sszSize]; omega)
      simp only [Ty.sszSize] at this
      rw [tailsL_partsL_nil ps hw hv, List.append_nil, List.take_of_length_le (by omega)]
    · rw [← g3 (Or.inr hv), List.take_append_drop]

theorem serializeParts_deserialize : (ps : Parts) → Spec.wfParts ps = true → Spec.wholeBytesParts ps = true →
    (old v : ps.denote) → (bs : List Byte) → (fl it : Nat) → (last : BitVec 32) → {p : Ty} → (prev pv : p.denote) →
    (desPrev : List Byte → Out (Bool × p.denote)) → 0 < fl → fl < 2 ^ 32 → it ≤ bs.length → last.toNat ≤ bs.length →
    deserializeParts ps old bs (BitVec.ofNat 32 fl) it last prev desPrev = .ok (true, pv, v) →
    ∃ off, it + fixedLenL (partsL ps v) ≤ bs.length ∧
      (bs.drop it).take (fixedLenL (partsL ps v)) = headsL (partsL ps v) off ∧
      (last ≠ 0#32 ∨ Spec.anyVariable ps = true → bs.drop off = tailsL (partsL ps v)) ∧
      (last ≠ 0#32 → last.toNat ≤ off ∧ off ≤ bs.length ∧
        desPrev ((bs.drop last.toNat).take (off - last.toNat)) = .ok (true, pv)) ∧
      (last = 0#32 → off = fl)
  | .nil, _, _, old, v, bs, fl, it, last, p, prev, pv, desPrev, hfl, hfl2, hit, hlast, h => by
    rw [deserializeParts] at h
    simp only [partsL, fixedLenL, headsL, tailsL, Spec.anyVariable, List.take_zero, Nat.add_zero]
    by_cases h0 : last ≠ 0#32
    · rw [if_pos h0, Out.bind_eq_ok] at h
      obtain ⟨s, hs, h⟩ := h
      rw [Out.bind_eq_ok] at h
      obtain ⟨⟨b, r⟩, hr, h⟩ := h
      simp only [Out.ok.injEq, Prod.mk.injEq] at h
      obtain ⟨rfl, rfl, _⟩ := h
      obtain ⟨⟨e1, e2⟩, e3, e4⟩ := slice_eq_ok hs
      refine ⟨bs.length, hit, trivial, by simp, fun _ => ⟨e1, Nat.le_refl _, by rw [← e3]; exact hr⟩, fun h => absurd h h0⟩
    · refine ⟨fl, hit, trivial, by simp [h0], fun h => absurd h h0, fun _ => rfl⟩
  | .cons _ t ps, hw, hb, old, v, bs, fl, it, last, p, prev, pv, desPrev, hfl, hfl2, hit, hlast, h => by
    simp only [Spec.wfParts, Bool.and_eq_true] at hw
    simp only [Spec.wholeBytesParts, Bool.and_eq_true] at hb
    rw [deserializeParts] at h
    simp only [partsL, fixedLenL, headsL, tailsL, Spec.anyVariable, Bool.or_eq_true]
    by_cases ht : t.sszSize = 0
    · -- variable
      rw [if_neg (by simp [ht])] at h
      simp only [BYTES_PER_LENGTH_OFFSET] at h
      simp only [ht, decide_true, if_true]
      by_cases h1 : bs.length - it < 4
      · rw [if_pos h1] at h; cases h
      rw [if_neg h1, Out.bind_eq_ok] at h
      obtain ⟨cur, hcur, h⟩ := h
      obtain ⟨hr1, hr2⟩ := read32_eq_ok hcur
      by_cases h2 : bs.length < cur.toNat
      · rw [if_pos h2] at h; cases h
      rw [if_neg h2] at h
      have key : ∀ pv' : t.denote, cur ≠ 0#32 →
          deserializeParts ps old.2 bs (BitVec.ofNat 32 fl) (it + 4) cur old.1 (fun s => deserialize t old.1 s) =
            .ok (true, pv', v.2) → pv' = v.1 →
          it + (4 + fixedLenL (partsL ps v.2)) ≤ bs.length ∧
          (bs.drop it).take (4 + fixedLenL (partsL ps v.2)) =
            leBytes 4 cur.toNat ++ headsL (partsL ps v.2) (cur.toNat + (serializeBytes t v.1).length) ∧
          bs.drop cur.toNat = serializeBytes t v.1 ++ tailsL (partsL ps v.2) := by
        intro pv' hc0 hd he
        subst he
        obtain ⟨off, f1, f2, f3, f4, _⟩ := serializeParts_deserialize ps hw.2 hb.2 old.2 v.2 bs fl (it + 4) cur old.1 v.1
          (fun s => deserialize t old.1 s) hfl hfl2 hr1 (by omega) hd
        obtain ⟨f5, f6, f7⟩ := f4 hc0
        have hser := serializeBytes_deserialize t hw.1 hb.1 old.1 v.1 _ (fun hn => absurd ht hn) f7
        have hlen : cur.toNat + (serializeBytes t v.1).length = off := by
          rw [hser, List.length_take, List.length_drop]; omega
        refine ⟨by omega, ?_, ?_⟩
        · rw [take_drop_add, hr2, f2, hlen]
        · rw [← f3 (Or.inl hc0), hser]
          exact drop_eq_take_append _ _ _ f5
      by_cases h0 : last ≠ 0#32
      · rw [if_pos h0] at h
        by_cases h3 : cur < last
        · rw [if_pos h3] at h; cases h
        rw [if_neg h3, Out.bind_eq_ok] at h
        obtain ⟨s, hs, h⟩ := h
        rw [Out.bind_eq_ok] at h
        obtain ⟨⟨b, r⟩, hr, h⟩ := h
        obtain ⟨⟨e1, e2⟩, e3, e4⟩ := slice_eq_ok hs
        cases b
        · cases h
        simp only [if_true] at h
        rw [Out.bind_eq_ok] at h
        obtain ⟨⟨b, q1, q2⟩, hq, h⟩ := h
        simp only [Out.ok.injEq, Prod.mk.injEq] at h
        obtain ⟨rfl, rfl, hv⟩ := h
        subst hv
        have hc0 : cur ≠ 0#32 := by
          rintro rfl
          apply h0
          apply BitVec.eq_of_toNat_eq
          simp at e1
          simp [e1]
        obtain ⟨k1, k2, k3⟩ := key _ hc0 hq rfl
        exact ⟨cur.toNat, k1, k2, fun _ => k3, fun _ => ⟨e1, by omega, by rw [← e3]; exact hr⟩, fun h => absurd h h0⟩
      · rw [if_neg h0] at h
        split at h
        · cases h
        rename_i hcf
        simp only [ne_eq, Decidable.not_not] at hcf
        rw [Out.bind_eq_ok] at h
        obtain ⟨⟨b, q1, q2⟩, hq, h⟩ := h
        simp only [Out.ok.injEq, Prod.mk.injEq] at h
        obtain ⟨rfl, rfl, hv⟩ := h
        subst hv
        have hcn : cur.toNat = fl := by rw [hcf, BitVec.toNat_ofNat]; exact Nat.mod_eq_of_lt hfl2
        have hc0 : cur ≠ 0#32 := by
          rintro rfl
          simp at hcn; omega
        obtain ⟨k1, k2, k3⟩ := key _ hc0 hq rfl
        exact ⟨cur.toNat, k1, k2, fun _ => k3, fun h => absurd h h0, fun _ => hcn⟩
    · -- fixed
      have hvar : Spec.isVariable t = false := by
        cases hv : Spec.isVariable t
        · rfl
        · exact absurd ((sszSize_eq_zero_iff hw.1).2 hv) ht
      rw [if_pos ht] at h
      simp only [ht, decide_false, Bool.false_eq_true, if_false, hvar, false_or, List.nil_append]
      by_cases h1 : bs.length - it < t.sszSize
      · rw [if_pos h1] at h; cases h
      rw [if_neg h1, Out.bind_eq_ok] at h
      obtain ⟨s, hs, h⟩ := h
      rw [Out.bind_eq_ok] at h
      obtain ⟨⟨b, r⟩, hr, h⟩ := h
      obtain ⟨⟨e1, e2⟩, e3, e4⟩ := slice_eq_ok hs
      cases b
      · cases h
      simp only [if_true] at h
      rw [Out.bind_eq_ok] at h
      obtain ⟨⟨b, q1, q2⟩, hq, h⟩ := h
      simp only [Out.ok.injEq, Prod.mk.injEq] at h
      obtain ⟨rfl, rfl, hv⟩ := h
      subst hv
      have hslen : s.length = t.sszSize := by rw [e4]; omega
      have hser := serializeBytes_deserialize t hw.1 hb.1 old.1 r s (fun _ => hslen) hr
      obtain ⟨off, f1, f2, f3, f4, f5⟩ := serializeParts_deserialize ps hw.2 hb.2 old.2 q2 bs fl (it + t.sszSize) last
        prev q1 desPrev hfl hfl2 e2 hlast hq
      refine ⟨off, ?_, ?_, f3, f4, f5⟩
      · simp only [hser, hslen] at *; omega
      · rw [hser, hslen, take_drop_add, f2, e3]
        congr 2
        omega
end

end Mammon
