import Verif.Proofs.Decode
import Verif.Spec.Leftover
/-! # What a failed `deserialize` leaves behind is `Spec.leftover` -/

namespace Mammon

open Spec Spec.Verdict

/-- The three ways a `deserialize` that matches a verdict can end. -/
theorem Matches.cases {α : Type} {x : Out (Bool × α)} {d : Verdict α} (h : Matches x d) :
    (∃ a, d = accepted a ∧ x = .ok (true, a)) ∨ (∃ w, d = rejected ∧ x = .ok (false, w)) ∨ (d = undefined ∧ x = .ub) := by
  cases d with
  | accepted a => exact Or.inl ⟨a, rfl, h⟩
  | rejected => obtain ⟨w, hw⟩ := h; exact Or.inr (Or.inl ⟨w, rfl, hw⟩)
  | undefined => exact Or.inr (Or.inr ⟨rfl, h⟩)

theorem vectorLoop_left {α : Type} (elem : α → List Byte → Out (Bool × α)) (D : List Byte → Verdict α) (L : α → List Byte → α) (size : Nat)
    (bs : List Byte) (he : ∀ o s, Matches (elem o s) (D s)) (hL : ∀ o s w, elem o s = .ok (false, w) → w = L o s) (olds : List α) (i : Nat)
    (h : (i + olds.length) * size ≤ bs.length) (w : Vec α olds.length) (hw : vectorLoop elem size bs i olds = .ok (false, w)) :
    w.1 = overwritten (fun k => D (range bs ((i + k) * size) ((i + k + 1) * size)))
      (fun k o => L o (range bs ((i + k) * size) ((i + k + 1) * size))) olds := by
  induction olds generalizing i with
  | nil =>
    rw [vectorLoop] at hw
    simp at hw
  | cons o os ih =>
    rw [List.length_cons] at h
    have h1 : (i + 1) * size ≤ (i + (os.length + 1)) * size := Nat.mul_le_mul_right _ (by omega)
    rw [vectorLoop, slice_ok_of_le ⟨Nat.mul_le_mul_right _ (by omega), by omega⟩, Out.ok_bind] at hw
    rw [overwritten]
    simp only [Nat.add_zero]
    rcases (he o (range bs (i * size) ((i + 1) * size))).cases with ⟨a, ha, hx⟩ | ⟨a, ha, hx⟩ | ⟨ha, hx⟩
    · have hx' : elem o (List.take ((i + 1) * size - i * size) (List.drop (i * size) bs)) = .ok (true, a) := hx
      rw [hx', Out.ok_bind, if_pos rfl] at hw
      rw [ha]
      simp only
      have e1 : (fun k => D (range bs ((i + (k + 1)) * size) ((i + (k + 1) + 1) * size))) =
          fun k => D (range bs ((i + 1 + k) * size) ((i + 1 + k + 1) * size)) := by
        funext k; rw [show i + 1 + k = i + (k + 1) by omega]
      have e2 : (fun k o => L o (range bs ((i + (k + 1)) * size) ((i + (k + 1) + 1) * size))) =
          fun k o => L o (range bs ((i + 1 + k) * size) ((i + 1 + k + 1) * size)) := by
        funext k; rw [show i + 1 + k = i + (k + 1) by omega]
      rw [e1, e2]
      have hle : (i + 1 + os.length) * size ≤ bs.length := by rwa [show i + 1 + os.length = i + (os.length + 1) by omega]
      cases hq : vectorLoop elem size bs (i + 1) os with
      | ok q =>
        rw [hq, Out.ok_bind] at hw
        obtain ⟨b, q⟩ := q
        simp only [Out.ok.injEq, Prod.mk.injEq] at hw
        obtain ⟨rfl, rfl⟩ := hw
        simp only
        rw [← ih (i + 1) hle q hq]
      | throws e => rw [hq] at hw; cases hw
      | ub => rw [hq] at hw; cases hw
    · have hx' : elem o (List.take ((i + 1) * size - i * size) (List.drop (i * size) bs)) = .ok (false, a) := hx
      rw [hx', Out.ok_bind, if_neg (by simp)] at hw
      rw [ha]
      simp only [Out.ok.injEq, Prod.mk.injEq, true_and] at hw
      subst hw
      simp only
      rw [hL _ _ _ hx]
    · have hx' : elem o (List.take ((i + 1) * size - i * size) (List.drop (i * size) bs)) = .ub := hx
      rw [hx'] at hw
      cases hw

theorem listFLoop_left {α : Type} (elem : List Byte → Out (Bool × α)) (D : List Byte → Verdict α) (size : Nat)
    (he : ∀ s, Matches (elem s) (D s)) (hsz : 0 < size) (m : Nat) (acc : List α) (bs : List Byte) (h : bs.length = m * size) (w : List α)
    (hw : listFLoop elem size acc bs = .ok (false, w)) :
    w = acc ++ acceptedPrefix m fun k => D (range bs (k * size) ((k + 1) * size)) := by
  induction m generalizing acc bs with
  | zero =>
    rw [Nat.zero_mul, List.length_eq_zero_iff] at h
    subst h
    rw [listFLoop] at hw
    simp at hw
  | succ m ih =>
    rw [Nat.succ_mul] at h
    have hne : bs.isEmpty = false := by
      cases bs with
      | nil => simp at h; omega
      | cons => rfl
    rw [listFLoop, hne, if_neg (by decide), dif_neg (by omega)] at hw
    rw [acceptedPrefix]
    have e0 : range bs (0 * size) ((0 + 1) * size) = bs.take size := by simp [range]
    rw [e0]
    rcases (he (bs.take size)).cases with ⟨a, ha, hx⟩ | ⟨a, ha, hx⟩ | ⟨ha, hx⟩
    · rw [hx, Out.ok_bind, if_pos rfl] at hw
      have := ih (acc ++ [a]) (bs.drop size) (by rw [List.length_drop]; omega) hw
      have e : (fun k => D (range (bs.drop size) (k * size) ((k + 1) * size))) =
          fun k => D (range bs ((k + 1) * size) ((k + 1 + 1) * size)) := by
        funext k
        rw [range_drop]
        congr 2
        · rw [Nat.succ_mul]; omega
        · rw [Nat.succ_mul (k + 1)]; omega
      rw [e] at this
      rw [ha, this]
      simp
    · rw [hx, Out.ok_bind, if_neg (by simp)] at hw
      simp only [Out.ok.injEq, Prod.mk.injEq, true_and] at hw
      rw [ha, ← hw]
      simp
    · rw [hx] at hw; cases hw

theorem listVLoop_left {α : Type} (elem : List Byte → Out (Bool × α)) (D : List Byte → Verdict α) (bs : List Byte) (first : BitVec 32)
    (he : ∀ s, Matches (elem s) (D s)) (hf : first.toNat ≤ bs.length) (m j : Nat) (last : BitVec 32) (acc : List α)
    (hm : j + 1 + m = first.toNat / 4) (hlast : last.toNat = readOffset bs (4 * j)) (hl : last.toNat ≤ bs.length) (w : List α)
    (hw : listVLoop elem bs first (4 * (j + 1)) last acc = .ok (false, w)) :
    w = acc ++ acceptedPrefix (m + 1) fun k => listVElem D bs first.toNat (j + k) := by
  induction m generalizing j last acc with
  | zero =>
    rw [listVLoop] at hw
    rw [acceptedPrefix]
    simp only [acceptedPrefix, Nat.add_zero, listVElem]
    rw [if_neg (c := j + 1 < _) (by omega)]
    by_cases h0 : first.toNat % 4 = 0
    · rw [if_pos (by omega), slice_ok_of_le ⟨hl, Nat.le_refl _⟩, Out.ok_bind, hlast] at hw
      rw [if_pos h0]
      rcases (he (range bs (readOffset bs (4 * j)) bs.length)).cases with ⟨a, ha, hx⟩ | ⟨a, ha, hx⟩ | ⟨ha, hx⟩ <;>
        rw [show elem (List.take (bs.length - readOffset bs (4 * j)) (List.drop (readOffset bs (4 * j)) bs)) = _ from hx] at hw
      · rw [Out.ok_bind] at hw; simp at hw
      · rw [Out.ok_bind] at hw; simp at hw; rw [ha, ← hw]; simp
      · cases hw
    · rw [if_neg (by omega), dif_pos (by simp only [BYTES_PER_LENGTH_OFFSET]; omega)] at hw
      rw [if_neg h0]
      simp at hw ⊢
      exact hw.symm
  | succ m ih =>
    rw [listVLoop] at hw
    rw [acceptedPrefix]
    simp only [Nat.add_zero, BYTES_PER_LENGTH_OFFSET] at hw ⊢
    rw [if_neg (by omega), dif_neg (by omega)] at hw
    obtain ⟨cur, hcur⟩ := read32_isOk (bs := bs) (i := 4 * (j + 1)) (by omega)
    have hc := readOffset_eq hcur
    rw [hcur, Out.ok_bind] at hw
    have e : listVElem D bs first.toNat j =
        if last.toNat ≤ cur.toNat ∧ cur.toNat ≤ bs.length then D (range bs last.toNat cur.toNat) else rejected := by
      rw [listVElem, if_pos (by omega), hc, hlast]
    rw [e]
    by_cases h1 : cur < last
    · rw [if_pos h1] at hw
      rw [if_neg (by rw [BitVec.lt_def] at h1; omega)]
      simp at hw ⊢; exact hw.symm
    rw [if_neg h1] at hw
    rw [BitVec.lt_def] at h1
    by_cases h2 : bs.length < cur.toNat
    · rw [if_pos h2] at hw
      rw [if_neg (by omega)]
      simp at hw ⊢; exact hw.symm
    rw [if_neg h2, slice_ok_of_le ⟨by omega, by omega⟩, Out.ok_bind] at hw
    rw [if_pos (by omega)]
    rcases (he (range bs last.toNat cur.toNat)).cases with ⟨a, ha, hx⟩ | ⟨a, ha, hx⟩ | ⟨ha, hx⟩ <;>
      rw [show elem (List.take (cur.toNat - last.toNat) (List.drop last.toNat bs)) = _ from hx] at hw
    · rw [Out.ok_bind, if_pos rfl] at hw
      have := ih (j + 1) cur (acc ++ [a]) (by omega) hc.symm (by omega) hw
      have e3 : (fun k => listVElem D bs first.toNat (j + 1 + k)) = fun k => listVElem D bs first.toNat (j + (k + 1)) := by
        funext k; rw [show j + 1 + k = j + (k + 1) by omega]
      rw [e3] at this
      rw [ha, this]
      simp
    · rw [Out.ok_bind, if_neg (by simp)] at hw
      simp at hw
      rw [ha, ← hw]; simp
    · cases hw

theorem listVDeserialize_left {α : Type} (elem : List Byte → Out (Bool × α)) (D : List Byte → Verdict α) (bs : List Byte)
    (he : ∀ s, Matches (elem s) (D s)) (w : List α) (hw : listVDeserialize elem bs = .ok (false, w)) :
    w = if bs.length < 4 ∨ readOffset bs 0 < 4 ∨ bs.length < readOffset bs 0 then []
       else acceptedPrefix (readOffset bs 0 / 4) fun k => listVElem D bs (readOffset bs 0) k := by
  rw [listVDeserialize] at hw
  by_cases h0 : bs = []
  · subst h0; simp at hw
  rw [if_neg (by simpa using h0)] at hw
  simp only [BYTES_PER_LENGTH_OFFSET] at hw
  by_cases h1 : bs.length < 4
  · rw [if_pos h1] at hw
    rw [if_pos (Or.inl h1)]
    simp at hw; exact hw
  obtain ⟨first, hfirst⟩ := read32_isOk (bs := bs) (i := 0) (by omega)
  have hr := readOffset_eq hfirst
  rw [if_neg h1, hfirst, Out.ok_bind] at hw
  rw [hr]
  by_cases h2 : first.toNat < 4
  · rw [if_pos h2] at hw
    rw [if_pos (Or.inr (Or.inl h2))]
    simp at hw; exact hw
  rw [if_neg h2] at hw
  by_cases h3 : bs.length < first.toNat
  · rw [if_pos h3] at hw
    rw [if_pos (Or.inr (Or.inr h3))]
    simp at hw; exact hw
  rw [if_neg h3] at hw
  rw [if_neg (by omega)]
  have := listVLoop_left elem D bs first he (by omega) (first.toNat / 4 - 1) 0 first [] (by omega) hr.symm (by omega) w hw
  rw [show first.toNat / 4 - 1 + 1 = first.toNat / 4 by omega] at this
  simpa only [Nat.zero_add, List.nil_append, Nat.mul_one] using this

/-! ## steps -/

/-- A step before part `k` that is accepted. -/
theorem status_skip {k : Nat} {j : Option Nat} (hj : j ≠ some k) (E : List (Option Nat × Verdict Unit)) :
    status k ((j, accepted ()) :: E) = status k E := by rw [status]; simp only [if_neg hj]

/-- A step before part `k` that is not accepted. -/
theorem status_stop {k : Nat} {j : Option Nat} (hj : j ≠ some k) (E : List (Option Nat × Verdict Unit)) :
    status k ((j, rejected) :: E) = .untouched := by rw [status]; simp only [if_neg hj]

theorem leftoverParts_skip : (ps : Parts) → (old : ps.denote) → (bs : List Byte) → (i k : Nat) → (j : Option Nat) → (∀ m, j = some m → m < k) →
    (E : List (Option Nat × Verdict Unit)) → leftoverParts ps old bs i k ((j, accepted ()) :: E) = leftoverParts ps old bs i k E
  | .nil, _, _, _, _, _, _, _ => by simp [leftoverParts]
  | .cons _ t ps, old, bs, i, k, j, hj, E => by
    rw [leftoverParts, leftoverParts, status_skip (fun h => Nat.lt_irrefl _ (hj _ h)),
      leftoverParts_skip ps old.2 bs _ (k + 1) j (fun m hm => Nat.lt_succ_of_lt (hj m hm))]

theorem leftoverParts_stop : (ps : Parts) → (old : ps.denote) → (bs : List Byte) → (i k : Nat) → (j : Option Nat) → (∀ m, j = some m → m < k) →
    (E : List (Option Nat × Verdict Unit)) → leftoverParts ps old bs i k ((j, rejected) :: E) = old
  | .nil, _, _, _, _, _, _, _ => by simp [leftoverParts]
  | .cons _ t ps, old, bs, i, k, j, hj, E => by
    rw [leftoverParts, status_stop (fun h => Nat.lt_irrefl _ (hj _ h)),
      leftoverParts_stop ps old.2 bs _ (k + 1) j (fun m hm => Nat.lt_succ_of_lt (hj m hm))]

theorem void_accepted {α : Type} (a : α) : (accepted a : Verdict α).void = accepted () := rfl

theorem void_rejected {α : Type} : (rejected : Verdict α).void = rejected := rfl

/-- What the open part has become. -/
def openLeft {α : Type} (P L : Nat → α) (prev : α) (e : Nat) : Status → α
  | .decoded => P e
  | .stopped => L e
  | .untouched => prev

mutual
theorem deserialize_left : (t : Ty) → Spec.wf t = true → (old : t.denote) → (bs : List Byte) → (w : t.denote) →
    deserialize t old bs = .ok (false, w) → w = leftover t old bs
  | .uint64, _, old, bs, w, h => by
    rw [deserialize] at h
    rw [leftover]
    split at h <;> simp at h
    exact h.symm
  | .boolean, _, old, bs, w, h => by
    rw [deserialize] at h
    rw [leftover]
    split at h
    · simp at h; exact h.symm
    · split at h <;> simp at h
      exact h.symm
  | .bytes n, _, old, bs, w, h => by
    rw [deserialize] at h
    rw [leftover]
    split at h <;> simp at h
    exact h.symm
  | .bitvector n, _, old, bs, w, h => by
    rw [deserialize, bitvectorDeserialize] at h
    rw [leftover]
    split at h <;> simp at h
    exact h.symm
  | .bitlist n, hw, old, bs, w, h => by
    have := deserialize_decode (.bitlist n) hw old bs
    rw [h, decode] at this
    cases hl : bs.getLast? with
    | none => rw [hl] at this; cases (show Out.ok (false, w) = .ub from this)
    | some b =>
      rw [hl] at this
      simp only at this
      by_cases hb : b = 0#8
      · rw [if_pos hb] at this; cases (show Out.ok (false, w) = .ub from this)
      · rw [if_neg hb] at this; cases (show Out.ok (false, w) = .ok (true, _) from this)
  | .vector t n, hw, old, bs, w, h => by
    simp only [Spec.wf, Bool.and_eq_true, Bool.not_eq_true', decide_eq_true_eq] at hw
    have hsz := (sszSize_spec t hw.1.1).2 hw.1.2
    obtain ⟨old, hold⟩ := old
    subst hold
    rw [deserialize, hsz.1] at h
    rw [leftover]
    by_cases hl : bs.length = old.length * fixedSize t
    · rw [if_neg (by omega)] at h
      rw [if_pos hl]
      cases hq : vectorLoop (fun x s => deserialize t x s) (fixedSize t) bs 0 old with
      | ok q =>
        simp only [hq, Out.ok_bind, Out.ok.injEq, Prod.mk.injEq] at h
        obtain ⟨b, q⟩ := q
        simp only at h
        obtain ⟨rfl, rfl⟩ := h
        have := vectorLoop_left (fun x s => deserialize t x s) (decode t) (leftover t) (fixedSize t) bs
          (fun o s => deserialize_decode t hw.1.1 o s) (fun o s w h => deserialize_left t hw.1.1 o s w h) old 0 (by rw [hl, Nat.zero_add]) q hq
        simp only [Nat.zero_add] at this
        exact Subtype.ext this
      | throws e => simp only [hq] at h; cases h
      | ub => simp only [hq] at h; cases h
    · rw [if_pos hl] at h
      rw [if_neg hl]
      simp at h; exact h.symm
  | .listF t n, hw, old, bs, w, h => by
    simp only [Spec.wf, Bool.and_eq_true, Bool.not_eq_true', decide_eq_true_eq] at hw
    have hsz := (sszSize_spec t hw.1).2 hw.2
    rw [deserialize, if_neg (by omega)] at h
    rw [leftover, ← hsz.1]
    by_cases hl : bs.length % t.sszSize = 0
    · rw [if_neg (by omega)] at h
      rw [if_pos hl]
      have := listFLoop_left (fun s => deserialize t t.dflt s) (decode t) t.sszSize (fun s => deserialize_decode t hw.1 _ s) hsz.2
        (bs.length / t.sszSize) [] bs (Nat.div_mul_cancel (Nat.dvd_of_mod_eq_zero hl)).symm w h
      simpa only [List.nil_append] using this
    · rw [if_pos hl] at h
      rw [if_neg hl]
      simp at h; exact h
  | .listV t n, hw, old, bs, w, h => by
    simp only [Spec.wf, Bool.and_eq_true] at hw
    rw [deserialize] at h
    rw [leftover]
    exact listVDeserialize_left _ (decode t) bs (fun s => deserialize_decode t hw.1 _ s) w h
  | .container s e ps, hw, old, bs, w, h => by
    simp only [Spec.wf, Bool.and_eq_true, decide_eq_true_eq] at hw
    obtain ⟨⟨⟨hw, h1⟩, h2⟩, h3⟩ := hw
    rw [deserialize] at h
    rw [leftover]
    have hfl : (computeFixedLength ps 0#32).toNat = fixedSizeParts ps := by
      rw [computeFixedLength_eq ps hw, BitVec.zero_add, BitVec.toNat_ofNat, Nat.mod_eq_of_lt h2]
    cases hq : deserializeParts ps old bs (computeFixedLength ps 0#32) 0 0#32 (p := .boolean) false (fun _ => .ub) with
    | ok q =>
      rw [hq, Out.ok_bind] at h
      obtain ⟨b, pw, q⟩ := q
      simp only [Out.ok.injEq, Prod.mk.injEq] at h
      obtain ⟨rfl, rfl⟩ := h
      have := deserializeParts_left ps hw old bs (computeFixedLength ps 0#32) 0 0 0#32 (p := .boolean) false (fun _ => .ub) 0
        (fun _ => rejected) (fun _ => false) (by omega) (by simp) (by omega) (by simp) (by simp) (by simp) _ _ hq
      rw [if_pos rfl, hfl] at this
      exact this.2
    | throws e => rw [hq] at h; cases h
    | ub => rw [hq] at h; cases h

theorem deserializeParts_left : (ps : Parts) → Spec.wfParts ps = true → (old : ps.denote) → (bs : List Byte) →
    (fl : BitVec 32) → (it k : Nat) → (last : BitVec 32) → {p : Ty} → (prev : p.denote) →
    (desPrev : List Byte → Out (Bool × p.denote)) → (kp : Nat) → (P : Nat → Verdict p.denote) → (L : Nat → p.denote) → 0 < fl.toNat →
    last.toNat ≤ bs.length → it ≤ bs.length → (last ≠ 0#32 → kp < k) →
    (last ≠ 0#32 → ∀ e, Matches (desPrev (range bs last.toNat e)) (P e)) →
    (last ≠ 0#32 → ∀ e w, desPrev (range bs last.toNat e) = .ok (false, w) → w = L e) →
    (pw : p.denote) → (w : ps.denote) → deserializeParts ps old bs fl it last prev desPrev = .ok (false, pw, w) →
    (pw = if last = 0#32 then prev else openLeft (fun e => (P e).value p.dflt) L prev (endOf ps bs it)
        (status kp (steps ps bs fl.toNat it k (if last = 0#32 then none else some (kp, last.toNat, fun e => (P e).void))))) ∧
    w = leftoverParts ps old bs it k
      (steps ps bs fl.toNat it k (if last = 0#32 then none else some (kp, last.toNat, fun e => (P e).void)))
  | .nil, _, old, bs, fl, it, k, last, p, prev, desPrev, kp, P, L, hfl, hl, hit, hk, hp, hL, pw, w, h => by
    rw [deserializeParts] at h
    rw [steps.eq_def]
    simp only
    by_cases h0 : last = 0#32
    · rw [if_neg (by simpa using h0)] at h
      simp at h
    · rw [if_pos h0, slice_ok_of_le ⟨hl, Nat.le_refl _⟩, Out.ok_bind] at h
      rw [if_neg h0, if_neg h0]
      rcases (hp h0 bs.length).cases with ⟨a, ha, hx⟩ | ⟨a, ha, hx⟩ | ⟨ha, hx⟩ <;>
        rw [show desPrev (List.take (bs.length - last.toNat) (List.drop last.toNat bs)) = _ from hx] at h
      · rw [Out.ok_bind] at h; simp at h
      · rw [Out.ok_bind] at h
        simp only [Out.ok.injEq, Prod.mk.injEq, true_and] at h
        obtain ⟨rfl, -⟩ := h
        refine ⟨?_, trivial⟩
        simp only [ha, Verdict.void, andThen, status, if_true, openLeft]
        exact hL h0 _ _ hx
      · cases h
  | .cons _ t ps, hw, old, bs, fl, it, k, last, p, prev, desPrev, kp, P, L, hfl, hl, hit, hk, hp, hL, pw, w, h => by
    simp only [Spec.wfParts, Bool.and_eq_true] at hw
    have ih : ∀ o s, Matches (deserialize t o s) (decode t s) := fun o s => deserialize_decode t hw.1 o s
    have ihL : ∀ o s w, deserialize t o s = .ok (false, w) → w = leftover t o s := fun o s w h => deserialize_left t hw.1 o s w h
    rw [deserializeParts] at h
    rw [steps, leftoverParts]
    have hv := sszSize_eq_zero_iff hw.1
    cases hvt : isVariable t with
    | false =>
      have hsz := (sszSize_spec t hw.1).2 hvt
      have ee : endOf (.cons ‹_› t ps) bs it = endOf ps bs (it + t.sszSize) := by
        rw [endOf, endOf, offsetPositions, hvt, if_neg (by decide), hsz.1]
      rw [if_pos (by omega)] at h
      simp only [Bool.false_eq_true, if_false, ee, ← hsz.1]
      by_cases h1 : bs.length - it < t.sszSize
      · rw [if_pos h1] at h
        simp only [Out.ok.injEq, Prod.mk.injEq, true_and] at h
        obtain ⟨rfl, rfl⟩ := h
        have c : (if it + t.sszSize ≤ bs.length then accepted () else rejected : Verdict Unit) = rejected := if_neg (by omega)
        rw [c, status_stop (by simp), status_stop (by simp), leftoverParts_stop _ _ _ _ _ none (by simp)]
        refine ⟨?_, rfl⟩
        split <;> rfl
      have c : (if it + t.sszSize ≤ bs.length then accepted () else rejected : Verdict Unit) = accepted () := if_pos (by omega)
      rw [if_neg h1, slice_ok_of_le ⟨by omega, by omega⟩, Out.ok_bind] at h
      rw [c, status_skip (by simp), status_skip (by simp), leftoverParts_skip _ _ _ _ _ none (by simp)]
      have hx0 := (ih old.1 (range bs it (it + t.sszSize)))
      rcases hx0.cases with ⟨a, ha, hx⟩ | ⟨a, ha, hx⟩ | ⟨ha, hx⟩ <;>
        rw [show deserialize t old.1 (List.take (it + t.sszSize - it) (List.drop it bs)) = _ from hx] at h
      · rw [Out.ok_bind, if_pos rfl] at h
        rw [ha, void_accepted]
        cases hq : deserializeParts ps old.2 bs fl (it + t.sszSize) last prev desPrev with
        | ok q =>
          rw [hq, Out.ok_bind] at h
          obtain ⟨b, q1, q2⟩ := q
          simp only [Out.ok.injEq, Prod.mk.injEq] at h
          obtain ⟨rfl, rfl, rfl⟩ := h
          have := deserializeParts_left ps hw.2 old.2 bs fl (it + t.sszSize) (k + 1) last prev desPrev kp P L hfl hl (by omega)
            (fun h => Nat.lt_succ_of_lt (hk h)) hp hL _ _ hq
          rw [leftoverParts_skip _ _ _ _ _ (some k) (by simp), ← this.2]
          refine ⟨?_, ?_⟩
          · rw [this.1]
            by_cases h0 : last = 0#32
            · rw [if_pos h0, if_pos h0]
            · have hkk := hk h0
              simp only [if_neg h0]
              rw [status_skip (by simp; omega)]
          · simp [status, Verdict.value]
        | throws e => rw [hq] at h; cases h
        | ub => rw [hq] at h; cases h
      · rw [Out.ok_bind, if_neg (by simp)] at h
        simp only [Out.ok.injEq, Prod.mk.injEq, true_and] at h
        obtain ⟨rfl, rfl⟩ := h
        rw [ha, void_rejected]
        rw [leftoverParts_stop _ _ _ _ _ (some k) (by simp)]
        refine ⟨?_, ?_⟩
        · by_cases h0 : last = 0#32
          · rw [if_pos h0]
          · rw [if_neg h0, status_stop (by have := hk h0; simp; omega)]; rfl
        · simp only [status, if_true]
          rw [ihL _ _ _ hx]
      · cases h
    | true =>
      have hsz : t.sszSize = 0 := hv.2 hvt
      rw [if_neg (by omega)] at h
      simp only [BYTES_PER_LENGTH_OFFSET] at h
      simp only [if_true]
      by_cases h1 : bs.length - it < 4
      · rw [if_pos h1] at h
        simp only [Out.ok.injEq, Prod.mk.injEq, true_and] at h
        obtain ⟨rfl, rfl⟩ := h
        have c : ∀ (q : Prop) [Decidable q], (if it + 4 ≤ bs.length ∧ q then accepted () else rejected : Verdict Unit) = rejected :=
          fun q _ => if_neg (by omega)
        rw [c, status_stop (by simp), status_stop (by simp), leftoverParts_stop _ _ _ _ _ none (by simp)]
        refine ⟨?_, rfl⟩
        split <;> rfl
      obtain ⟨cur, hcur⟩ := read32_isOk (bs := bs) (i := it) (by omega)
      have hc := readOffset_eq hcur
      rw [if_neg h1, hcur, Out.ok_bind] at h
      simp only [hc]
      have ee : endOf (.cons ‹_› t ps) bs it = cur.toNat := by
        rw [endOf, offsetPositions, hvt, if_pos rfl]; exact hc
      rw [ee]
      by_cases h2 : bs.length < cur.toNat
      · rw [if_pos h2] at h
        simp only [Out.ok.injEq, Prod.mk.injEq, true_and] at h
        obtain ⟨rfl, rfl⟩ := h
        have c : ∀ (q : Prop) [Decidable q], (if it + 4 ≤ bs.length ∧ cur.toNat ≤ bs.length ∧ q then accepted () else rejected : Verdict Unit) =
          rejected := fun q _ => if_neg (by omega)
        rw [c, status_stop (by simp), status_stop (by simp), leftoverParts_stop _ _ _ _ _ none (by simp)]
        refine ⟨?_, rfl⟩
        split <;> rfl
      rw [if_neg h2] at h
      have key : cur ≠ 0#32 → ∀ q1 q2, deserializeParts ps old.2 bs fl (it + 4) cur old.1 (fun s => deserialize t old.1 s) = .ok (false, q1, q2) →
          (q1, q2) = (openLeft (fun e => (decode t (range bs cur.toNat e)).value t.dflt) (fun e => leftover t old.1 (range bs cur.toNat e)) old.1
              (endOf ps bs (it + 4)) (status k (steps ps bs fl.toNat (it + 4) (k + 1) (some (k, cur.toNat, fun e => (decode t (range bs cur.toNat e)).void)))),
            leftoverParts ps old.2 bs (it + 4) (k + 1)
              (steps ps bs fl.toNat (it + 4) (k + 1) (some (k, cur.toNat, fun e => (decode t (range bs cur.toNat e)).void)))) := by
        intro h0 q1 q2 hq
        have := deserializeParts_left ps hw.2 old.2 bs fl (it + 4) (k + 1) cur old.1 (fun s => deserialize t old.1 s) k
          (fun e => decode t (range bs cur.toNat e)) (fun e => leftover t old.1 (range bs cur.toNat e)) hfl (by omega) (by omega)
          (fun _ => Nat.lt_succ_self _) (fun _ e => ih _ _) (fun _ e w h => ihL _ _ _ h) q1 q2 hq
        rw [if_neg h0, if_neg h0] at this
        rw [this.1, this.2]
      by_cases hl0 : last = 0#32
      · simp only [hl0, ne_eq, not_true_eq_false, if_true, if_false, Option.map_none, offsetOk, beq_iff_eq] at h ⊢
        by_cases hcf : cur = fl
        · rw [if_neg (by simpa using hcf)] at h
          rw [if_pos ⟨by omega, by omega, by rw [hcf]⟩]
          have hc0 : cur ≠ 0#32 := by rintro rfl; rw [← hcf] at hfl; simp at hfl
          cases hq : deserializeParts ps old.2 bs fl (it + 4) cur old.1 (fun s => deserialize t old.1 s) with
          | ok q =>
            rw [hq, Out.ok_bind] at h
            obtain ⟨b, q1, q2⟩ := q
            simp only [Out.ok.injEq, Prod.mk.injEq] at h
            obtain ⟨rfl, rfl, rfl⟩ := h
            have := key hc0 _ _ hq
            rw [this, List.nil_append, status_skip (by simp), leftoverParts_skip _ _ _ _ _ none (by simp)]
            refine ⟨rfl, ?_⟩
            rw [openLeft.eq_def]
            rfl
          | throws e => rw [hq] at h; cases h
          | ub => rw [hq] at h; cases h
        · rw [if_pos hcf] at h
          simp only [Out.ok.injEq, Prod.mk.injEq, true_and] at h
          obtain ⟨rfl, rfl⟩ := h
          rw [if_neg (fun h => hcf (BitVec.eq_of_toNat_eq h.2.2)), status_stop (by simp), leftoverParts_stop _ _ _ _ _ none (by simp)]
          exact ⟨rfl, rfl⟩
      · simp only [hl0, ne_eq, not_false_eq_true, if_true, if_false, Option.map_some, offsetOk, decide_eq_true_eq] at h ⊢
        by_cases h3 : cur < last
        · rw [if_pos h3] at h
          simp only [Out.ok.injEq, Prod.mk.injEq, true_and] at h
          obtain ⟨rfl, rfl⟩ := h
          rw [if_neg (by rw [BitVec.lt_def] at h3; omega), status_stop (by simp), status_stop (by simp),
            leftoverParts_stop _ _ _ _ _ none (by simp)]
          exact ⟨rfl, rfl⟩
        rw [if_neg h3] at h
        rw [BitVec.lt_def] at h3
        have hc0 : cur ≠ 0#32 := by
          rintro rfl
          apply hl0
          apply BitVec.eq_of_toNat_eq
          simp at h3 ⊢; omega
        have hkk := hk hl0
        rw [slice_ok_of_le ⟨by omega, by omega⟩, Out.ok_bind] at h
        rw [if_pos ⟨by omega, by omega, by omega⟩, status_skip (by simp), status_skip (by simp), leftoverParts_skip _ _ _ _ _ none (by simp),
          List.singleton_append]
        rcases (hp hl0 cur.toNat).cases with ⟨a, ha, hx⟩ | ⟨a, ha, hx⟩ | ⟨ha, hx⟩ <;>
          rw [show desPrev (List.take (cur.toNat - last.toNat) (List.drop last.toNat bs)) = _ from hx] at h
        · rw [Out.ok_bind, if_pos rfl] at h
          cases hq : deserializeParts ps old.2 bs fl (it + 4) cur old.1 (fun s => deserialize t old.1 s) with
          | ok q =>
            rw [hq, Out.ok_bind] at h
            obtain ⟨b, q1, q2⟩ := q
            simp only [Out.ok.injEq, Prod.mk.injEq] at h
            obtain ⟨rfl, rfl, rfl⟩ := h
            have := key hc0 _ _ hq
            rw [this, ha, void_accepted, status_skip (k := k) (by simp; omega), leftoverParts_skip _ _ _ _ _ (some kp) (by simp; omega)]
            refine ⟨?_, ?_⟩
            · simp only [status, if_true, openLeft, ha, Verdict.value]
            · rw [openLeft.eq_def]; rfl
          | throws e => rw [hq] at h; cases h
          | ub => rw [hq] at h; cases h
        · rw [Out.ok_bind, if_neg (by simp)] at h
          simp only [Out.ok.injEq, Prod.mk.injEq, true_and] at h
          obtain ⟨rfl, rfl⟩ := h
          rw [ha, void_rejected, status_stop (k := k) (by simp; omega), leftoverParts_stop _ _ _ _ _ (some kp) (by simp; omega)]
          refine ⟨?_, rfl⟩
          simp only [status, if_true, openLeft]
          exact hL hl0 _ _ hx
        · cases h
end

end Mammon
