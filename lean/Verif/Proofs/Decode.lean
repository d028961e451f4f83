import Verif.Proofs.Safe
import Verif.Proofs.Offsets
import Verif.Proofs.Indep
import Verif.Spec.Decode
/-! # `deserialize` does what `Spec.decode` says -/

namespace Mammon

open Spec Spec.Verdict

/-- The outcome of a `deserialize` is the given verdict. -/
def Matches {α : Type} (x : Out (Bool × α)) (d : Verdict α) : Prop :=
  match d with
  | accepted v => x = .ok (true, v)
  | rejected => ∃ w, x = .ok (false, w)
  | undefined => x = .ub

theorem Matches.bind {α β : Type} {x : Out (Bool × α)} {d : Verdict α} {f : Bool × α → Out (Bool × β)} {g : α → Verdict β}
    (h : Matches x d) (hf : ∀ a, d = accepted a → Matches (f (true, a)) (g a)) (hr : ∀ a, ∃ w, f (false, a) = .ok (false, w)) :
    Matches (x >>= f) (d.andThen g) := by
  cases d with
  | accepted a => rw [show x = .ok (true, a) from h]; exact hf a rfl
  | rejected => obtain ⟨w, hw⟩ := h; rw [hw]; exact hr w
  | undefined => rw [show x = .ub from h]; exact rfl

theorem andThen_assoc {α β γ : Type} (d : Verdict α) (f : α → Verdict β) (g : β → Verdict γ) :
    (d.andThen f).andThen g = d.andThen fun a => (f a).andThen g := by cases d <;> rfl

theorem andThen_congr {α β : Type} {d : Verdict α} {f g : α → Verdict β} (h : ∀ a, d = accepted a → f a = g a) :
    d.andThen f = d.andThen g := by
  cases d with
  | accepted a => exact h a rfl
  | rejected => rfl
  | undefined => rfl

theorem inOrder_congr {α : Type} {n : Nat} {f g : Nat → Verdict α} (h : ∀ k, k < n → f k = g k) : inOrder n f = inOrder n g := by
  induction n generalizing f g with
  | zero => rfl
  | succ n ih => rw [inOrder, inOrder, h 0 (by omega), ih fun k hk => h (k + 1) (by omega)]

theorem vectorLoop_decode {α : Type} (elem : α → List Byte → Out (Bool × α)) (D : List Byte → Verdict α) (size : Nat) (bs : List Byte)
    (he : ∀ o s, Matches (elem o s) (D s)) (olds : List α) (i : Nat) (h : (i + olds.length) * size ≤ bs.length) :
    Matches (vectorLoop elem size bs i olds)
      (inOrder olds.length fun k => D (range bs ((i + k) * size) ((i + k + 1) * size))) := by
  induction olds generalizing i with
  | nil => exact rfl
  | cons o os ih =>
    rw [List.length_cons] at h
    have h1 : (i + 1) * size ≤ (i + (os.length + 1)) * size := Nat.mul_le_mul_right _ (by omega)
    rw [vectorLoop, slice_ok_of_le ⟨Nat.mul_le_mul_right _ (by omega), by omega⟩, Out.ok_bind]
    show Matches _ (inOrder (os.length + 1) _)
    rw [inOrder]
    refine Matches.bind (he _ _) (fun a _ => ?_) fun a => ⟨_, rfl⟩
    have := ih (i + 1) (by rwa [show i + 1 + os.length = i + (os.length + 1) by omega])
    rw [if_pos rfl]
    have e : (fun k => D (range bs ((i + 1 + k) * size) ((i + 1 + k + 1) * size))) =
        fun k => D (range bs ((i + (k + 1)) * size) ((i + (k + 1) + 1) * size)) := by
      funext k; rw [show i + 1 + k = i + (k + 1) by omega]
    rw [e] at this
    exact Matches.bind this (fun q _ => rfl) fun q => ⟨_, rfl⟩

theorem range_drop (bs : List Byte) (n a b : Nat) : range (bs.drop n) a b = range bs (n + a) (n + b) := by
  rw [range, range, List.drop_drop, show n + b - (n + a) = b - a by omega]

theorem listFLoop_decode {α : Type} (elem : List Byte → Out (Bool × α)) (D : List Byte → Verdict α) (size : Nat)
    (he : ∀ s, Matches (elem s) (D s)) (hsz : 0 < size) (m : Nat) (acc : List α) (bs : List Byte) (h : bs.length = m * size) :
    Matches (listFLoop elem size acc bs)
      ((inOrder m fun k => D (range bs (k * size) ((k + 1) * size))).andThen fun v => accepted (acc ++ v.1)) := by
  induction m generalizing acc bs with
  | zero =>
    rw [Nat.zero_mul, List.length_eq_zero_iff] at h
    subst h
    rw [listFLoop]
    show _ = _
    simp
  | succ m ih =>
    rw [Nat.succ_mul] at h
    have hne : bs.isEmpty = false := by
      cases bs with
      | nil => simp at h; omega
      | cons => rfl
    rw [listFLoop, hne, if_neg (by decide), dif_neg (by omega), inOrder, andThen_assoc]
    have e0 : range bs (0 * size) ((0 + 1) * size) = bs.take size := by simp [range]
    rw [e0]
    refine Matches.bind (he _) (fun a _ => ?_) fun a => ⟨_, rfl⟩
    rw [if_pos rfl]
    have := ih (acc ++ [a]) (bs.drop size) (by rw [List.length_drop]; omega)
    have e : (fun k => D (range (bs.drop size) (k * size) ((k + 1) * size))) =
        fun k => D (range bs ((k + 1) * size) ((k + 1 + 1) * size)) := by
      funext k
      rw [range_drop]
      congr 2
      · rw [Nat.succ_mul]; omega
      · rw [Nat.succ_mul (k + 1)]; omega
    rw [e] at this
    rw [andThen_assoc]
    have e2 : ∀ v : Vec α m, acc ++ [a] ++ v.1 = acc ++ (a :: v.1) := fun v => by simp
    simp only [e2] at this
    exact this

/-- What `Spec.decode` says of one element of a list of variable-size elements. -/
def listVElem {α : Type} (D : List Byte → Verdict α) (bs : List Byte) (first k : Nat) : Verdict α :=
  if k + 1 < first / 4 then
    if readOffset bs (4 * k) ≤ readOffset bs (4 * (k + 1)) ∧ readOffset bs (4 * (k + 1)) ≤ bs.length then
      D (range bs (readOffset bs (4 * k)) (readOffset bs (4 * (k + 1)))) else rejected
  else if first % 4 = 0 then D (range bs (readOffset bs (4 * k)) bs.length) else rejected

theorem listVLoop_decode {α : Type} (elem : List Byte → Out (Bool × α)) (D : List Byte → Verdict α) (bs : List Byte) (first : BitVec 32)
    (he : ∀ s, Matches (elem s) (D s)) (hf : first.toNat ≤ bs.length) (m j : Nat) (last : BitVec 32) (acc : List α)
    (hm : j + 1 + m = first.toNat / 4) (hlast : last.toNat = readOffset bs (4 * j)) (hl : last.toNat ≤ bs.length) :
    Matches (listVLoop elem bs first (4 * (j + 1)) last acc)
      ((inOrder (m + 1) fun k => listVElem D bs first.toNat (j + k)).andThen fun v => accepted (acc ++ v.1)) := by
  induction m generalizing j last acc with
  | zero =>
    rw [listVLoop, inOrder]
    simp only [inOrder, Nat.add_zero, listVElem, andThen_assoc]
    rw [if_neg (c := j + 1 < _) (by omega)]
    by_cases h0 : first.toNat % 4 = 0
    · rw [if_pos (by omega), if_pos h0, slice_ok_of_le ⟨hl, Nat.le_refl _⟩, Out.ok_bind, ← hlast]
      refine Matches.bind (he _) (fun a _ => rfl) fun a => ⟨_, rfl⟩
    · rw [if_neg (by omega), dif_pos (by simp only [BYTES_PER_LENGTH_OFFSET]; omega), if_neg h0]
      exact ⟨_, rfl⟩
  | succ m ih =>
    rw [listVLoop, inOrder]
    simp only [Nat.add_zero, BYTES_PER_LENGTH_OFFSET]
    rw [if_neg (by omega), dif_neg (by omega)]
    obtain ⟨cur, hcur⟩ := read32_isOk (bs := bs) (i := 4 * (j + 1)) (by omega)
    have hc := readOffset_eq hcur
    rw [hcur, Out.ok_bind, andThen_assoc]
    have e : listVElem D bs first.toNat j =
        if last.toNat ≤ cur.toNat ∧ cur.toNat ≤ bs.length then D (range bs last.toNat cur.toNat) else rejected := by
      rw [listVElem, if_pos (by omega), hc, hlast]
    rw [e]
    by_cases h1 : cur < last
    · rw [if_pos h1, if_neg (by rw [BitVec.lt_def] at h1; omega)]; exact ⟨_, rfl⟩
    rw [if_neg h1]
    rw [BitVec.lt_def] at h1
    by_cases h2 : bs.length < cur.toNat
    · rw [if_pos h2, if_neg (by omega)]; exact ⟨_, rfl⟩
    rw [if_neg h2, if_pos (by omega), slice_ok_of_le ⟨by omega, by omega⟩, Out.ok_bind]
    refine Matches.bind (he _) (fun a _ => ?_) fun a => ⟨_, rfl⟩
    rw [if_pos rfl]
    have := ih (j + 1) cur (acc ++ [a]) (by omega) hc.symm (by omega)
    have e2 : ∀ v : Vec α (m + 1), acc ++ [a] ++ v.1 = acc ++ (a :: v.1) := fun v => by simp
    simp only [e2] at this
    have e3 : (fun k => listVElem D bs first.toNat (j + 1 + k)) = fun k => listVElem D bs first.toNat (j + (k + 1)) := by
      funext k; rw [show j + 1 + k = j + (k + 1) by omega]
    rw [e3] at this
    rw [andThen_assoc]
    exact this

theorem listVDeserialize_decode {α : Type} (elem : List Byte → Out (Bool × α)) (D : List Byte → Verdict α) (bs : List Byte)
    (he : ∀ s, Matches (elem s) (D s)) :
    Matches (listVDeserialize elem bs)
      (if bs = [] then accepted []
       else if bs.length < 4 ∨ readOffset bs 0 < 4 ∨ bs.length < readOffset bs 0 then rejected
       else (inOrder (readOffset bs 0 / 4) fun k => listVElem D bs (readOffset bs 0) k).andThen fun v => accepted v.1) := by
  rw [listVDeserialize]
  by_cases h0 : bs = []
  · subst h0; exact rfl
  rw [if_neg (by simpa using h0), if_neg h0]
  simp only [BYTES_PER_LENGTH_OFFSET]
  by_cases h1 : bs.length < 4
  · rw [if_pos h1, if_pos (Or.inl h1)]; exact ⟨_, rfl⟩
  obtain ⟨first, hfirst⟩ := read32_isOk (bs := bs) (i := 0) (by omega)
  have hr := readOffset_eq hfirst
  rw [if_neg h1, hfirst, Out.ok_bind, hr]
  by_cases h2 : first.toNat < 4
  · rw [if_pos h2, if_pos (Or.inr (Or.inl h2))]; exact ⟨_, rfl⟩
  rw [if_neg h2]
  by_cases h3 : bs.length < first.toNat
  · rw [if_pos h3, if_pos (Or.inr (Or.inr h3))]; exact ⟨_, rfl⟩
  rw [if_neg h3, if_neg (by omega)]
  have := listVLoop_decode elem D bs first he (by omega) (first.toNat / 4 - 1) 0 first [] (by omega) hr.symm (by omega)
  rw [show first.toNat / 4 - 1 + 1 = first.toNat / 4 by omega] at this
  simpa only [Nat.zero_add, List.nil_append, Nat.mul_one] using this

theorem uintOf_eq (bs : List Byte) : uintOf bs = fromLE bs := by
  induction bs with
  | nil => rfl
  | cons b bs ih =>
    rw [fromLE, ← ih, uintOf, uintOf, List.length_cons, List.range_succ_eq_map, List.map_cons, List.sum_cons, List.map_map]
    congr 1
    · simp
    · have : ((fun i => ((b :: bs).getD i 0#8).toNat * 256 ^ i) ∘ Nat.succ) = fun i => 256 * ((bs.getD i 0#8).toNat * 256 ^ i) := by
        funext i
        simp only [Function.comp, Nat.succ_eq_add_one, List.getD_cons_succ, Nat.pow_succ]
        rw [Nat.mul_comm 256, Nat.mul_assoc]
      rw [this]
      generalize List.range bs.length = l
      induction l with
      | nil => rfl
      | cons x l ih => rw [List.map_cons, List.sum_cons, ih, List.map_cons, List.sum_cons, Nat.mul_add]

mutual
theorem deserialize_decode : (t : Ty) → Spec.wf t = true → (old : t.denote) → (bs : List Byte) →
    Matches (deserialize t old bs) (decode t bs)
  | .uint64, _, old, bs => by
    rw [deserialize, decode]
    by_cases h : bs.length = 8
    · rw [if_neg (by omega), if_pos h, uintOf_eq]; exact rfl
    · rw [if_pos h, if_neg h]; exact ⟨_, rfl⟩
  | .boolean, _, old, bs => by
    rw [deserialize, decode]
    by_cases h : bs.length = 1
    · obtain ⟨b, rfl⟩ := List.length_eq_one_iff.1 h
      rw [if_neg (by simp)]
      have hb : fromLE [b] = b.toNat := by simp [fromLE]
      rw [hb]
      by_cases h0 : b = 0#8
      · subst h0; exact rfl
      by_cases h1 : b = 1#8
      · subst h1; exact rfl
      have : 1 < b.toNat := by
        have a0 : b.toNat ≠ 0 := fun h => h0 (BitVec.eq_of_toNat_eq (by simpa using h))
        have a1 : b.toNat ≠ 1 := fun h => h1 (BitVec.eq_of_toNat_eq (by simpa using h))
        omega
      rw [if_pos this, if_neg (by simpa using h0), if_neg (by simpa using h1)]
      exact ⟨_, rfl⟩
    · rw [if_pos h, if_neg (by rintro rfl; simp at h), if_neg (by rintro rfl; simp at h)]; exact ⟨_, rfl⟩
  | .bytes n, _, old, bs => by
    rw [deserialize, decode]
    by_cases h : bs.length = n
    · rw [dif_pos h, dif_pos h]; exact rfl
    · rw [dif_neg h, dif_neg h]; exact ⟨_, rfl⟩
  | .bitvector n, _, old, bs => by
    rw [deserialize, decode, bitvectorDeserialize]
    simp only [BITS_PER_BYTE]
    by_cases h : bs.length = (n + 7) / 8
    · rw [if_neg (by omega), if_pos h]
      show _ = _
      congr 2
      exact Subtype.ext (bitvectorStore_eq n bs old.1 old.2 h)
    · rw [if_pos (by omega), if_neg h]; exact ⟨_, rfl⟩
  | .bitlist n, _, old, bs => by
    rw [deserialize, decode]
    by_cases hne : bs = []
    · subst hne; exact rfl
    rw [List.getLast?_eq_some_getLast hne]
    simp only
    by_cases h : bs.getLast hne = 0#8
    · rw [if_pos h]; exact bitlistDeserialize_last_zero bs hne h
    · rw [if_neg h]
      show _ = _
      rw [bitlistDeserialize_ok bs hne h, bitlistLen, List.getLastD_eq_getLast?, List.getLast?_eq_some_getLast hne]
      rfl
  | .vector t n, hw, old, bs => by
    simp only [Spec.wf, Bool.and_eq_true, Bool.not_eq_true', decide_eq_true_eq] at hw
    have hsz := (sszSize_spec t hw.1.1).2 hw.1.2
    obtain ⟨old, hold⟩ := old
    subst hold
    rw [deserialize, decode, ← hsz.1]
    by_cases h : bs.length = old.length * t.sszSize
    · rw [if_neg (by omega), if_pos h]
      have := vectorLoop_decode (fun x s => deserialize t x s) (decode t) t.sszSize bs (fun o s => deserialize_decode t hw.1.1 o s)
        old 0 (by rw [h, Nat.zero_add])
      simp only [Nat.zero_add] at this
      have e : ∀ d : Verdict (Vec t.denote old.length), d = d.andThen accepted := by intro d; cases d <;> rfl
      rw [e (inOrder _ _)]
      exact Matches.bind this (fun a _ => rfl) fun a => ⟨_, rfl⟩
    · rw [if_pos h, if_neg h]; exact ⟨_, rfl⟩
  | .listF t n, hw, old, bs => by
    simp only [Spec.wf, Bool.and_eq_true, Bool.not_eq_true', decide_eq_true_eq] at hw
    have hsz := (sszSize_spec t hw.1).2 hw.2
    rw [deserialize, decode, if_neg (by omega), ← hsz.1]
    by_cases h : bs.length % t.sszSize = 0
    · rw [if_neg (by omega), if_pos h]
      have := listFLoop_decode (fun s => deserialize t t.dflt s) (decode t) t.sszSize (fun s => deserialize_decode t hw.1 _ s) hsz.2
        (bs.length / t.sszSize) [] bs (Nat.div_mul_cancel (Nat.dvd_of_mod_eq_zero h)).symm
      simpa only [List.nil_append] using this
    · rw [if_pos h, if_neg h]; exact ⟨_, rfl⟩
  | .listV t n, hw, old, bs => by
    simp only [Spec.wf, Bool.and_eq_true] at hw
    rw [deserialize, decode]
    exact listVDeserialize_decode _ (decode t) bs (fun s => deserialize_decode t hw.1 _ s)
  | .container s e ps, hw, old, bs => by
    simp only [Spec.wf, Bool.and_eq_true, decide_eq_true_eq] at hw
    obtain ⟨⟨⟨hw, h1⟩, h2⟩, h3⟩ := hw
    rw [deserialize, decode]
    have hfl : (computeFixedLength ps 0#32).toNat = fixedSizeParts ps := by
      rw [computeFixedLength_eq ps hw, BitVec.zero_add, BitVec.toNat_ofNat, Nat.mod_eq_of_lt h2]
    have := deserializeParts_decode ps hw old bs (computeFixedLength ps 0#32) 0 0#32 (p := .boolean) false (fun _ => .ub)
      (fun _ => rejected) (by omega) (by simp) (by omega) (by simp)
    rw [if_pos rfl, hfl] at this
    have e : ∀ d : Verdict Unit, (d.andThen fun _ => accepted (contents ps bs 0)) =
        (d.andThen fun _ => accepted (if (0#32 : BitVec 32) = 0#32 then false else (Verdict.value (rejected : Verdict Bool) false),
          contents ps bs 0)).andThen fun x => accepted x.2 := by intro d; cases d <;> rfl
    rw [e]
    exact Matches.bind this (fun a _ => rfl) fun a => ⟨_, rfl⟩

theorem deserializeParts_decode : (ps : Parts) → Spec.wfParts ps = true → (old : ps.denote) → (bs : List Byte) →
    (fl : BitVec 32) → (it : Nat) → (last : BitVec 32) → {p : Ty} → (prev : p.denote) →
    (desPrev : List Byte → Out (Bool × p.denote)) → (P : Nat → Verdict p.denote) → 0 < fl.toNat → last.toNat ≤ bs.length →
    it ≤ bs.length →
    (last ≠ 0#32 → ∀ e, Matches (desPrev (range bs last.toNat e)) (P e)) →
    Matches (deserializeParts ps old bs fl it last prev desPrev)
      ((walk ps bs fl.toNat it (if last = 0#32 then none else some (last.toNat, fun e => (P e).void))).andThen fun _ =>
        accepted (if last = 0#32 then prev else (P (endOf ps bs it)).value p.dflt, contents ps bs it))
  | .nil, _, old, bs, fl, it, last, p, prev, desPrev, P, hfl, hl, hit, hp => by
    rw [deserializeParts, walk.eq_def]
    simp only
    by_cases h0 : last = 0#32
    · rw [if_neg (by simpa using h0), if_pos h0, if_pos h0]; exact rfl
    · rw [if_pos h0, if_neg h0, if_neg h0, slice_ok_of_le ⟨hl, Nat.le_refl _⟩, Out.ok_bind]
      have e : (fun _ : Unit => (accepted ((P (endOf .nil bs it)).value p.dflt, contents .nil bs it) : Verdict (p.denote × Unit))) =
          fun _ => accepted ((P bs.length).value p.dflt, ()) := rfl
      show Matches _ ((P bs.length).void.andThen _)
      rw [Verdict.void, andThen_assoc]
      refine Matches.bind (hp h0 bs.length) (fun a ha => ?_) fun a => ⟨_, rfl⟩
      show _ = _
      rw [show endOf .nil bs it = bs.length from rfl, ha]
      rfl
  | .cons _ t ps, hw, old, bs, fl, it, last, p, prev, desPrev, P, hfl, hl, hit, hp => by
    simp only [Spec.wfParts, Bool.and_eq_true] at hw
    have ih : ∀ o s, Matches (deserialize t o s) (decode t s) := fun o s => deserialize_decode t hw.1 o s
    rw [deserializeParts, walk, contents]
    have hv := sszSize_eq_zero_iff hw.1
    cases hvt : isVariable t with
    | false =>
      have hsz := (sszSize_spec t hw.1).2 hvt
      rw [if_pos (by omega), if_neg (c := false = true) (by simp), if_neg (c := false = true) (by simp), ← hsz.1]
      by_cases h1 : bs.length - it < t.sszSize
      · rw [if_pos h1, if_neg (by omega)]; exact ⟨_, rfl⟩
      rw [if_neg h1, if_pos (by omega), slice_ok_of_le ⟨by omega, by omega⟩, Out.ok_bind, andThen_assoc]
      refine Matches.bind (ih _ _) (fun a ha => ?_) fun a => ⟨_, rfl⟩
      rw [if_pos rfl]
      have := deserializeParts_decode ps hw.2 old.2 bs fl (it + t.sszSize) last prev desPrev P hfl hl (by omega) hp
      have ee : endOf (.cons ‹_› t ps) bs it = endOf ps bs (it + t.sszSize) := by
        rw [endOf, endOf, offsetPositions, hvt, if_neg (by decide), hsz.1]
      rw [ee]
      have e : ∀ (d : Verdict Unit) (x : p.denote), (d.andThen fun _ => (accepted (x, ((decode t (range bs it (it + t.sszSize))).value t.dflt,
            contents ps bs (it + t.sszSize))) : Verdict (p.denote × t.denote × ps.denote))) =
          (d.andThen fun _ => accepted (x, contents ps bs (it + t.sszSize))).andThen fun q => accepted (q.1, (a, q.2)) := by
        intro d x; cases d <;> simp only [andThen, ha, Verdict.value]
      show Matches _ (andThen _ fun _ => accepted (_, ((decode t (range bs it (it + t.sszSize))).value t.dflt, contents ps bs (it + t.sszSize))))
      rw [e]
      exact Matches.bind this (fun q _ => rfl) fun q => ⟨_, rfl⟩
    | true =>
      have hsz : t.sszSize = 0 := hv.2 hvt
      rw [if_neg (by omega), if_pos rfl, if_pos rfl]
      simp only [BYTES_PER_LENGTH_OFFSET]
      by_cases h1 : bs.length - it < 4
      · rw [if_pos h1, if_neg (by omega)]; exact ⟨_, rfl⟩
      obtain ⟨cur, hcur⟩ := read32_isOk (bs := bs) (i := it) (by omega)
      have hc := readOffset_eq hcur
      rw [if_neg h1, hcur, Out.ok_bind, hc]
      by_cases h2 : bs.length < cur.toNat
      · rw [if_pos h2, if_neg (by omega)]; exact ⟨_, rfl⟩
      rw [if_neg h2]
      have ee : endOf (.cons ‹_› t ps) bs it = cur.toNat := by
        rw [endOf, offsetPositions, hvt, if_pos rfl]; exact hc
      rw [ee]
      have key : cur ≠ 0#32 → Matches (deserializeParts ps old.2 bs fl (it + 4) cur old.1 fun s => deserialize t old.1 s)
          ((walk ps bs fl.toNat (it + 4) (some (cur.toNat, fun e => (decode t (range bs cur.toNat e)).void))).andThen fun _ =>
            accepted ((decode t (range bs cur.toNat (endOf ps bs (it + 4)))).value t.dflt, contents ps bs (it + 4))) := by
        intro h
        have := deserializeParts_decode ps hw.2 old.2 bs fl (it + 4) cur old.1 (fun s => deserialize t old.1 s)
          (fun e => decode t (range bs cur.toNat e)) hfl (by omega) (by omega) fun _ e => ih _ _
        rwa [if_neg h, if_neg h] at this
      by_cases hl0 : last = 0#32
      · simp only [hl0, ne_eq, not_true_eq_false, if_true, if_false, Option.map_none, offsetOk, beq_iff_eq]
        by_cases hcf : cur = fl
        · rw [if_neg (by simpa using hcf), if_pos ⟨by omega, by omega, by rw [hcf]⟩]
          have hc0 : cur ≠ 0#32 := by rintro rfl; rw [← hcf] at hfl; simp at hfl
          have e : ∀ (d : Verdict Unit) (x : t.denote × ps.denote), (d.andThen fun _ => accepted (prev, x)) =
              (d.andThen fun _ => accepted x).andThen fun q => accepted (prev, q.1, q.2) := by intro d x; cases d <;> rfl
          show Matches _ (andThen (walk _ _ _ _ _) _)
          rw [e]
          exact Matches.bind (key hc0) (fun q _ => rfl) fun q => ⟨_, rfl⟩
        · rw [if_pos hcf, if_neg (fun h => hcf (BitVec.eq_of_toNat_eq h.2.2))]; exact ⟨_, rfl⟩
      · simp only [hl0, ne_eq, not_false_eq_true, if_true, if_false, Option.map_some, offsetOk, decide_eq_true_eq]
        by_cases h3 : cur < last
        · rw [if_pos h3, if_neg (by rw [BitVec.lt_def] at h3; omega)]; exact ⟨_, rfl⟩
        rw [if_neg h3]
        rw [BitVec.lt_def] at h3
        have hc0 : cur ≠ 0#32 := by
          rintro rfl
          apply hl0
          apply BitVec.eq_of_toNat_eq
          simp at h3 ⊢; omega
        rw [if_pos ⟨by omega, by omega, by omega⟩, slice_ok_of_le ⟨by omega, by omega⟩, Out.ok_bind, Verdict.void, andThen_assoc,
          andThen_assoc]
        refine Matches.bind (hp hl0 cur.toNat) (fun a ha => ?_) fun a => ⟨_, rfl⟩
        rw [ha]
        have e : ∀ (d : Verdict Unit) (x : t.denote × ps.denote), (d.andThen fun _ => accepted (a, x)) =
            (d.andThen fun _ => accepted x).andThen fun q => accepted (a, q.1, q.2) := by intro d x; cases d <;> rfl
        show Matches _ (andThen (walk _ _ _ _ _) fun _ => accepted (a, _))
        rw [e]
        exact Matches.bind (key hc0) (fun q _ => rfl) fun q => ⟨_, rfl⟩
end

/-! ## types that accept every byte string of the right length -/

mutual
/-- No Boolean and no variable-size part inside. -/
def anyBytes : Ty → Bool
  | .uint64 => true
  | .boolean => false
  | .bytes _ => true
  | .bitvector _ => true
  | .bitlist _ => false
  | .vector t _ => anyBytes t
  | .listF _ _ => false
  | .listV _ _ => false
  | .container _ _ ps => anyBytesParts ps

/-- `anyBytes` for all parts. -/
def anyBytesParts : Parts → Bool
  | .nil => true
  | .cons _ t ps => anyBytes t && anyBytesParts ps
end

mutual
theorem isVariable_of_anyBytes : (t : Ty) → anyBytes t = true → isVariable t = false
  | .uint64, _ => rfl
  | .boolean, h => by cases h
  | .bytes _, _ => rfl
  | .bitvector _, _ => rfl
  | .bitlist _, h => by cases h
  | .vector t _, h => by rw [anyBytes] at h; rw [isVariable]; exact isVariable_of_anyBytes t h
  | .listF _ _, h => by cases h
  | .listV _ _, h => by cases h
  | .container _ _ ps, h => by rw [anyBytes] at h; rw [isVariable]; exact anyVariable_of_anyBytes ps h
theorem anyVariable_of_anyBytes : (ps : Parts) → anyBytesParts ps = true → anyVariable ps = false
  | .nil, _ => rfl
  | .cons _ t ps, h => by
    rw [anyBytesParts, Bool.and_eq_true] at h
    rw [anyVariable, isVariable_of_anyBytes t h.1, anyVariable_of_anyBytes ps h.2]; rfl
end

theorem length_range {bs : List Byte} {a b : Nat} (h : b ≤ bs.length) : (range bs a b).length = b - a := by
  rw [range, List.length_take, List.length_drop]; omega

theorem inOrder_accepted {α : Type} (n : Nat) (f : Nat → Verdict α) (h : ∀ k, k < n → ∃ v, f k = accepted v) :
    ∃ v, inOrder n f = accepted v := by
  induction n generalizing f with
  | zero => exact ⟨_, rfl⟩
  | succ n ih =>
    obtain ⟨a, ha⟩ := h 0 (by omega)
    obtain ⟨v, hv⟩ := ih (fun k => f (k + 1)) fun k hk => h (k + 1) (by omega)
    rw [inOrder, ha, hv]
    exact ⟨_, rfl⟩

mutual
theorem decode_anyBytes : (t : Ty) → anyBytes t = true → (bs : List Byte) → bs.length = fixedSize t → ∃ v, decode t bs = accepted v
  | .uint64, _, bs, hl => by rw [fixedSize] at hl; rw [decode, if_pos hl]; exact ⟨_, rfl⟩
  | .boolean, h, _, _ => by cases h
  | .bytes n, _, bs, hl => by rw [fixedSize] at hl; rw [decode, dif_pos hl]; exact ⟨_, rfl⟩
  | .bitvector n, _, bs, hl => by rw [fixedSize] at hl; rw [decode, if_pos hl]; exact ⟨_, rfl⟩
  | .bitlist _, h, _, _ => by cases h
  | .vector t n, h, bs, hl => by
    rw [anyBytes] at h
    rw [fixedSize] at hl
    rw [decode, if_pos hl]
    refine inOrder_accepted _ _ fun k hk => decode_anyBytes t h _ ?_
    have : (k + 1) * fixedSize t ≤ n * fixedSize t := Nat.mul_le_mul_right _ hk
    rw [length_range (by omega), Nat.succ_mul]; omega
  | .listF _ _, h, _, _ => by cases h
  | .listV _ _, h, _, _ => by cases h
  | .container _ _ ps, h, bs, hl => by
    rw [anyBytes] at h
    rw [fixedSize] at hl
    rw [decode, walk_anyBytes ps h _ _ _ _ (by omega), if_pos (by omega)]
    exact ⟨_, rfl⟩

theorem walk_anyBytes : (ps : Parts) → anyBytesParts ps = true → (bs : List Byte) → (fl i : Nat) →
    (before : Option (Nat × (Nat → Verdict Unit))) → i ≤ bs.length →
    walk ps bs fl i before = if i + fixedSizeParts ps ≤ bs.length then
      (match before with
        | none => accepted ()
        | some x => x.2 bs.length) else rejected
  | .nil, _, bs, fl, i, before, hi => by
    rw [walk.eq_def, if_pos (by simpa [fixedSizeParts] using hi)]
    cases before <;> rfl
  | .cons n t ps, h, bs, fl, i, before, hi => by
    rw [anyBytesParts, Bool.and_eq_true] at h
    have hv := isVariable_of_anyBytes t h.1
    rw [walk, hv, if_neg (c := false = true) (by simp), fixedSizeParts.eq_def]
    simp only [hv, Bool.false_eq_true, if_false]
    by_cases h1 : i + fixedSize t ≤ bs.length
    · obtain ⟨v, hd⟩ := decode_anyBytes t h.1 (range bs i (i + fixedSize t)) (by rw [length_range h1]; omega)
      rw [if_pos h1, hd, Verdict.andThen, walk_anyBytes ps h.2 _ _ _ _ h1, Nat.add_assoc]
    · rw [if_neg h1, if_neg (by omega)]
end

/-- A container that begins with a bit list and is otherwise indifferent to the contents of its parts. -/
theorem decode_bitlist_first (s : Nat) (e : Bool) (n : String) (limit : Nat) (ps : Parts) (hps : anyBytesParts ps = true) (bs : List Byte) :
    let fl := 4 + fixedSizeParts ps
    (decode (.container s e (.cons n (.bitlist limit) ps)) bs = undefined ↔
      readOffset bs 0 = fl ∧ fl ≤ bs.length ∧ (bs.length = fl ∨ bs.getLast? = some 0#8)) ∧
    ((∃ v, decode (.container s e (.cons n (.bitlist limit) ps)) bs = accepted v) ↔
      readOffset bs 0 = fl ∧ fl < bs.length ∧ bs.getLast? ≠ some 0#8) := by
  intro fl
  have hfl : fixedSizeParts (.cons n (.bitlist limit) ps) = fl := by simp [fixedSizeParts, isVariable, fl]
  rw [decode, walk, hfl, if_pos (show isVariable (.bitlist limit) = true from rfl)]
  simp only [Option.map_none, offsetOk, beq_iff_eq]
  by_cases h1 : readOffset bs 0 = fl ∧ fl ≤ bs.length
  · obtain ⟨h1, h2⟩ := h1
    rw [if_pos ⟨by omega, by omega, h1⟩, walk_anyBytes ps hps _ _ _ _ (by omega), if_pos (by omega), h1]
    have hr : range bs fl bs.length = bs.drop fl := by
      rw [range]; exact List.take_of_length_le (by rw [List.length_drop])
    simp only [hr, decode]
    by_cases h3 : bs.length = fl
    · rw [List.drop_eq_nil_of_le (by omega)]
      simp [Verdict.andThen, Verdict.void, h3]
    · have hlast : (bs.drop fl).getLast? = bs.getLast? := by rw [List.getLast?_drop, if_neg (by omega)]
      rw [hlast]
      have hne : bs ≠ [] := by rintro rfl; simp at h2; omega
      rw [List.getLast?_eq_some_getLast hne]
      by_cases h4 : bs.getLast hne = 0#8
      · simp [h4, Verdict.andThen, Verdict.void]; omega
      · simp [h4, Verdict.andThen, Verdict.void]; omega
  · rw [if_neg (by rintro ⟨_, h2, h3⟩; exact h1 ⟨h3, by omega⟩)]
    simp only [Verdict.andThen]
    constructor
    · simp only [reduceCtorEq, false_iff]; rintro ⟨h2, h3, _⟩; exact h1 ⟨h2, h3⟩
    · simp only [reduceCtorEq, exists_false, false_iff]; rintro ⟨h2, h3, _⟩; exact h1 ⟨h2, by omega⟩

end Mammon
