import Verif.Proofs.Encode
import Verif.Spec.Classes
/-! # `deserialize` terminates without exceptions, and without undefined behaviour if there is no bit list -/

namespace Mammon

/-- Either a value, or undefined behaviour in a place where `b` is false. -/
def OkOr {α : Type} (b : Bool) (x : Out α) : Prop := (∃ r, x = .ok r) ∨ (x = .ub ∧ b = false)

theorem OkOr.bind {α β : Type} {b : Bool} {x : Out α} {f : α → Out β} (h : OkOr b x) (hf : ∀ a, OkOr b (f a)) :
    OkOr b (x >>= f) := by
  rcases h with ⟨r, rfl⟩ | ⟨rfl, hb⟩
  · exact hf r
  · exact Or.inr ⟨rfl, hb⟩

theorem OkOr.ok {α : Type} {b : Bool} (a : α) : OkOr b (.ok a) := Or.inl ⟨a, rfl⟩

theorem OkOr.mono {α : Type} {b c : Bool} {x : Out α} (h : OkOr b x) (hbc : b = false → c = false) : OkOr c x := by
  rcases h with h | ⟨h, hb⟩
  · exact Or.inl h
  · exact Or.inr ⟨h, hbc hb⟩

theorem vectorLoop_ok {α : Type} {b : Bool} (elem : α → List Byte → Out (Bool × α)) (size : Nat) (bs : List Byte)
    (he : ∀ o s, OkOr b (elem o s)) (olds : List α) (i : Nat) (h : (i + olds.length) * size ≤ bs.length) :
    OkOr b (vectorLoop elem size bs i olds) := by
  induction olds generalizing i with
  | nil => exact .ok _
  | cons o os ih =>
    rw [List.length_cons] at h
    have h1 : (i + 1) * size ≤ (i + (os.length + 1)) * size := Nat.mul_le_mul_right _ (by omega)
    rw [vectorLoop, slice_ok_of_le ⟨Nat.mul_le_mul_right _ (by omega), by omega⟩]
    refine OkOr.bind (.ok _) fun s => OkOr.bind (he _ _) fun r => ?_
    split
    · exact OkOr.bind (ih (i + 1) (by rwa [show i + 1 + os.length = i + (os.length + 1) by omega])) fun q => .ok _
    · exact .ok _

theorem listFLoop_ok {α : Type} {b : Bool} (elem : List Byte → Out (Bool × α)) (size : Nat)
    (he : ∀ s, OkOr b (elem s)) (hsz : 0 < size) (acc : List α) (bs : List Byte) (h : bs.length % size = 0) :
    OkOr b (listFLoop elem size acc bs) := by
  fun_induction listFLoop elem size acc bs with
  | case1 => exact .ok _
  | case2 acc bs hne hlt =>
    exfalso
    simp at hne
    have := List.length_pos_iff.2 hne
    rcases hlt with h1 | h1
    · omega
    · rw [Nat.mod_eq_of_lt h1] at h; omega
  | case3 acc bs hne hlt ih =>
    refine OkOr.bind (he _) fun r => ?_
    split
    · apply ih
      rw [List.length_drop]
      have hle : size ≤ bs.length := by omega
      rw [← Nat.mod_eq_sub_mod hle]; exact h
    · exact .ok _

theorem listVLoop_ok {α : Type} {b : Bool} (elem : List Byte → Out (Bool × α)) (bs : List Byte) (first : BitVec 32)
    (he : ∀ s, OkOr b (elem s)) (hf : first.toNat ≤ bs.length) (it : Nat) (last : BitVec 32) (acc : List α)
    (hl : last.toNat ≤ bs.length) : OkOr b (listVLoop elem bs first it last acc) := by
  fun_induction listVLoop elem bs first it last acc with
  | case1 last acc =>
    rw [slice_ok_of_le ⟨hl, Nat.le_refl _⟩]
    exact OkOr.bind (.ok _) fun s => OkOr.bind (he _) fun r => .ok _
  | case2 => exact .ok _
  | case3 it last acc hne hle ih =>
    simp only [BYTES_PER_LENGTH_OFFSET] at *
    obtain ⟨cur, hcur⟩ := read32_isOk (bs := bs) (i := it) (by omega)
    rw [hcur, Out.ok_bind]
    split
    · exact .ok _
    split
    · exact .ok _
    rename_i h1 h2
    rw [BitVec.lt_def] at h1
    rw [slice_ok_of_le ⟨by omega, by omega⟩]
    refine OkOr.bind (.ok _) fun s => OkOr.bind (he _) fun r => ?_
    split
    · exact ih cur r (by omega)
    · exact .ok _

theorem listVDeserialize_ok {α : Type} {b : Bool} (elem : List Byte → Out (Bool × α)) (bs : List Byte)
    (he : ∀ s, OkOr b (elem s)) : OkOr b (listVDeserialize elem bs) := by
  rw [listVDeserialize]
  split
  · exact .ok _
  split
  · exact .ok _
  rename_i h
  simp only [BYTES_PER_LENGTH_OFFSET] at *
  obtain ⟨first, hfirst⟩ := read32_isOk (bs := bs) (i := 0) (by omega)
  rw [hfirst, Out.ok_bind]
  split
  · exact .ok _
  split
  · exact .ok _
  exact listVLoop_ok _ _ _ he (by omega) _ _ _ (by omega)

mutual
theorem deserialize_okOr : (t : Ty) → Spec.wf t = true → (old : t.denote) → (bs : List Byte) →
    OkOr (Spec.noBitlist t) (deserialize t old bs)
  | .uint64, _, old, bs => by rw [deserialize]; split <;> exact .ok _
  | .boolean, _, old, bs => by
    rw [deserialize]; split
    · exact .ok _
    · split <;> exact .ok _
  | .bytes n, _, old, bs => by rw [deserialize]; split <;> exact .ok _
  | .bitvector n, _, old, bs => by rw [deserialize, bitvectorDeserialize]; split <;> exact .ok _
  | .bitlist n, _, old, bs => by
    rw [deserialize, bitlistDeserialize]
    split
    · exact Or.inr ⟨rfl, rfl⟩
    · simp only
      split
      · exact Or.inr ⟨rfl, rfl⟩
      · exact .ok _
  | .vector t n, hw, old, bs => by
    simp only [Spec.wf, Bool.and_eq_true, Bool.not_eq_true', decide_eq_true_eq] at hw
    rw [deserialize, Spec.noBitlist]
    split
    · exact .ok _
    rename_i h
    refine OkOr.bind (vectorLoop_ok _ _ _ (fun o s => deserialize_okOr t hw.1.1 o s) _ _ ?_) fun r => .ok _
    rw [old.2]
    simp only [ne_eq, Decidable.not_not] at h
    simp [h]
  | .listF t n, hw, old, bs => by
    simp only [Spec.wf, Bool.and_eq_true, Bool.not_eq_true', decide_eq_true_eq] at hw
    have hsz := (sszSize_spec t hw.1).2 hw.2
    rw [deserialize, Spec.noBitlist, if_neg (by omega)]
    split
    · exact .ok _
    rename_i h
    exact listFLoop_ok _ _ (fun s => deserialize_okOr t hw.1 _ s) hsz.2 _ _ (by omega)
  | .listV t n, hw, old, bs => by
    simp only [Spec.wf, Bool.and_eq_true] at hw
    rw [deserialize, Spec.noBitlist]
    exact listVDeserialize_ok _ _ (fun s => deserialize_okOr t hw.1 _ s)
  | .container s e ps, hw, old, bs => by
    simp only [Spec.wf, Bool.and_eq_true, decide_eq_true_eq] at hw
    obtain ⟨⟨⟨hw, h1⟩, h2⟩, h3⟩ := hw
    rw [deserialize, Spec.noBitlist]
    refine OkOr.bind (deserializeParts_okOr ps hw old bs _ 0 0#32 _ _ ?_ (by simp) (by simp) (fun h => h)) fun r => .ok _
    rw [computeFixedLength_eq ps hw, BitVec.zero_add, BitVec.toNat_ofNat, Nat.mod_eq_of_lt h2]
    exact h1

theorem deserializeParts_okOr : (ps : Parts) → Spec.wfParts ps = true → (old : ps.denote) → (bs : List Byte) →
    (fl : BitVec 32) → (it : Nat) → (last : BitVec 32) → {p : Ty} → (prev : p.denote) →
    (desPrev : List Byte → Out (Bool × p.denote)) → {b : Bool} → 0 < fl.toNat → last.toNat ≤ bs.length →
    (last ≠ 0#32 → ∀ s, OkOr b (desPrev s)) → (Spec.noBitlistParts ps = false → b = false) →
    OkOr b (deserializeParts ps old bs fl it last prev desPrev)
  | .nil, _, old, bs, fl, it, last, p, prev, desPrev, b, hfl, hl, hp, hb => by
    rw [deserializeParts]
    split
    · rename_i h0
      rw [slice_ok_of_le ⟨hl, Nat.le_refl _⟩]
      exact OkOr.bind (.ok _) fun s => OkOr.bind (hp h0 _) fun r => .ok _
    · exact .ok _
  | .cons _ t ps, hw, old, bs, fl, it, last, p, prev, desPrev, b, hfl, hl, hp, hb => by
    simp only [Spec.wfParts, Bool.and_eq_true] at hw
    simp only [Spec.noBitlistParts, Bool.and_eq_false_iff] at hb
    have ih : ∀ o s, OkOr b (deserialize t o s) := fun o s =>
      (deserialize_okOr t hw.1 o s).mono fun h => hb (Or.inl h)
    rw [deserializeParts]
    simp only [BYTES_PER_LENGTH_OFFSET] at *
    split
    · split
      · exact .ok _
      rename_i h0 h1
      rw [slice_ok_of_le ⟨by omega, by omega⟩]
      refine OkOr.bind (.ok _) fun s => OkOr.bind (ih _ _) fun r => ?_
      split
      · exact OkOr.bind (deserializeParts_okOr ps hw.2 _ _ _ _ _ _ _ hfl hl hp fun h => hb (Or.inr h)) fun q => .ok _
      · exact .ok _
    · split
      · exact .ok _
      rename_i h0 h1
      obtain ⟨cur, hcur⟩ := read32_isOk (bs := bs) (i := it) (by omega)
      rw [hcur, Out.ok_bind]
      split
      · exact .ok _
      rename_i h2
      have key : cur ≠ 0#32 → OkOr b (deserializeParts ps old.2 bs fl (it + 4) cur old.1 fun s => deserialize t old.1 s) :=
        fun _ => deserializeParts_okOr ps hw.2 _ _ _ _ _ _ _ hfl (by omega) (fun _ s => ih _ s) fun h => hb (Or.inr h)
      split
      · rename_i hl0
        split
        · exact .ok _
        rename_i h3
        rw [BitVec.lt_def] at h3
        have hc0 : cur ≠ 0#32 := by
          rintro rfl
          apply hl0
          apply BitVec.eq_of_toNat_eq
          simp at h3 ⊢; omega
        rw [slice_ok_of_le ⟨by omega, by omega⟩]
        refine OkOr.bind (.ok _) fun s => OkOr.bind (hp hl0 _) fun r => ?_
        split
        · exact OkOr.bind (key hc0) fun q => .ok _
        · exact .ok _
      · split
        · exact .ok _
        · rename_i hcf
          refine OkOr.bind (key ?_) fun q => .ok _
          rintro rfl
          simp only [ne_eq, Decidable.not_not] at hcf
          rw [← hcf] at hfl
          simp at hfl
end

end Mammon
