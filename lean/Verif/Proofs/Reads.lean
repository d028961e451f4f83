import Verif.Spec.Reads
import Verif.Proofs.Encode
/-! # The decoder with a record of its reads -/

namespace Mammon

open Traced

theorem Traced.out_bind {α β : Type} (x : Traced α) (f : α → Traced β) : (x >>= f).out = x.out >>= fun a => (f a).out := by
  show (Traced.bind x f).out = Out.bind x.out _
  rw [Traced.bind]
  cases x.out <;> rfl

theorem Traced.out_of {α : Type} (x : Out α) : (of x).out = x := rfl
theorem Traced.out_reading {α : Type} (r : Read) (x : Out α) : (reading r x).out = x := rfl
theorem read32R_out (base : Nat) (bs : List Byte) (i : Nat) : (read32R base bs i).out = read32 bs i := rfl
theorem Traced.out_ite {α : Type} (c : Prop) [Decidable c] (x y : Traced α) : (if c then x else y).out = if c then x.out else y.out := by
  split <;> rfl
theorem Traced.out_dite {α : Type} (c : Prop) [Decidable c] (x : c → Traced α) (y : ¬c → Traced α) :
    (if h : c then x h else y h).out = if h : c then (x h).out else (y h).out := by
  split <;> rfl

theorem vectorLoopR_out {α : Type} {elemR : α → Nat → List Byte → Traced (Bool × α)} {elem : α → List Byte → Out (Bool × α)}
    (h : ∀ x b s, (elemR x b s).out = elem x s) (size base : Nat) (bs : List Byte) : ∀ (i : Nat) (old : List α),
    (vectorLoopR elemR size base bs i old).out = vectorLoop elem size bs i old
  | _, [] => rfl
  | i, x :: xs => by
    rw [vectorLoopR, vectorLoop]
    simp only [out_bind, out_of, out_ite, h, vectorLoopR_out h]

theorem listFLoopR_out {α : Type} {elemR : Nat → List Byte → Traced (Bool × α)} {elem : List Byte → Out (Bool × α)}
    (h : ∀ b s, (elemR b s).out = elem s) (size : Nat) (acc : List α) (base : Nat) (bs : List Byte) :
    (listFLoopR elemR size acc base bs).out = listFLoop elem size acc bs := by
  rw [listFLoopR, listFLoop]
  split
  · rfl
  · split
    · rfl
    · simp only [out_bind, out_of, out_ite, h]
      refine congrArg _ (funext fun r => ?_)
      split
      · exact listFLoopR_out h size _ _ _
      · rfl
termination_by bs.length
decreasing_by simp only [List.length_drop]; omega

theorem listVLoopR_out {α : Type} {elemR : Nat → List Byte → Traced (Bool × α)} {elem : List Byte → Out (Bool × α)}
    (h : ∀ b s, (elemR b s).out = elem s) (base : Nat) (bs : List Byte) (first : BitVec 32) (it : Nat) (last : BitVec 32) (acc : List α) :
    (listVLoopR elemR base bs first it last acc).out = listVLoop elem bs first it last acc := by
  rw [listVLoopR, listVLoop]
  split
  · simp only [out_bind, out_of, h]
  · split
    · rfl
    · simp only [out_bind, out_of, out_ite, h, read32R_out]
      refine congrArg _ (funext fun cur => ?_)
      split
      · rfl
      · split
        · rfl
        · refine congrArg _ (funext fun s => congrArg _ (funext fun r => ?_))
          split
          · exact listVLoopR_out h base bs first _ _ _
          · rfl
termination_by first.toNat - it
decreasing_by simp only [BYTES_PER_LENGTH_OFFSET] at *; omega

theorem listVDeserializeR_out {α : Type} {elemR : Nat → List Byte → Traced (Bool × α)} {elem : List Byte → Out (Bool × α)}
    (h : ∀ b s, (elemR b s).out = elem s) (base : Nat) (bs : List Byte) :
    (listVDeserializeR elemR base bs).out = listVDeserialize elem bs := by
  rw [listVDeserializeR, listVDeserialize]
  simp only [out_bind, out_of, out_ite, read32R_out, listVLoopR_out h]

mutual
theorem deserializeR_out : (t : Ty) → (old : t.denote) → (base : Nat) → (bs : List Byte) →
    (deserializeR t old base bs).out = deserialize t old bs
  | .uint64, old, base, bs => by rw [deserializeR, deserialize]; split <;> rfl
  | .boolean, old, base, bs => by rw [deserializeR, deserialize]; split <;> rfl
  | .bytes n, old, base, bs => by rw [deserializeR, deserialize]; split <;> rfl
  | .bitvector n, old, base, bs => by
    rw [deserializeR, deserialize]
    split
    · rw [bitvectorDeserialize, if_pos (by assumption)]; rfl
    · rfl
  | .bitlist _, old, base, bs => by rw [deserializeR, deserialize, bitlistDeserializeR]; split <;> rfl
  | .vector t n, old, base, bs => by
    rw [deserializeR, deserialize]
    simp only [out_bind, out_of, out_ite, vectorLoopR_out (fun x b s => deserializeR_out t x b s)]
  | .listF t _, old, base, bs => by
    rw [deserializeR, deserialize]
    simp only [out_of, out_ite, listFLoopR_out (fun b s => deserializeR_out t t.dflt b s)]
  | .listV t _, old, base, bs => by
    rw [deserializeR, deserialize]
    exact listVDeserializeR_out (fun b s => deserializeR_out t t.dflt b s) base bs
  | .container _ _ ps, old, base, bs => by
    rw [deserializeR, deserialize]
    simp only [out_bind, out_of]
    rw [deserializePartsR_out ps old base bs _ 0 0#32 (p := .boolean) false (fun _ _ => of .ub) (fun _ => .ub) (fun _ _ => rfl)]

theorem deserializePartsR_out : (ps : Parts) → (old : ps.denote) → (base : Nat) → (bs : List Byte) → (fl : BitVec 32) → (it : Nat) →
    (last : BitVec 32) → {p : Ty} → (prev : p.denote) → (dR : Nat → List Byte → Traced (Bool × p.denote)) → (d : List Byte → Out (Bool × p.denote)) →
    (∀ b s, (dR b s).out = d s) →
    (deserializePartsR ps old base bs fl it last prev dR).out = deserializeParts ps old bs fl it last prev d
  | .nil, old, base, bs, fl, it, last, _, prev, dR, d, h => by
    rw [deserializePartsR, deserializeParts]
    simp only [out_bind, out_of, out_ite, h]
  | .cons _ t ps, old, base, bs, fl, it, last, _, prev, dR, d, h => by
    rw [deserializePartsR, deserializeParts]
    simp only [out_bind, out_of, out_ite, h, read32R_out, deserializeR_out t]
    simp only [deserializePartsR_out ps _ base bs _ _ _ _ dR d h,
      deserializePartsR_out ps _ base bs _ _ _ _ _ (fun s => deserialize t old.1 s) (fun b s => deserializeR_out t old.1 b s)]
end


/-! ## Every byte is read at most once, and only bytes of the buffer -/

/-- Unless the outcome is undefined, each address `a` is read at most `f a` times. -/
def AtMost {α : Type} (x : Traced α) (f : Nat → Nat) : Prop := x.out ≠ .ub → ∀ a, Spec.timesRead x.reads a ≤ f a

/-- One if the address is in the range from `lo` to `hi`, zero otherwise. -/
def within (lo hi : Nat) (a : Nat) : Nat := if lo ≤ a ∧ a < hi then 1 else 0

theorem AtMost.mono {α : Type} {x : Traced α} {f g : Nat → Nat} (h : AtMost x f) (hfg : ∀ a, f a ≤ g a) : AtMost x g :=
  fun hx a => Nat.le_trans (h hx a) (hfg a)

theorem AtMost.of {α : Type} (x : Out α) (f : Nat → Nat) : AtMost (of x) f := fun _ a => by simp [Spec.timesRead, Traced.of]

theorem AtMost.reading {α : Type} (r : Read) (x : Out α) : AtMost (reading r x) (within r.addr (r.addr + r.bytes)) := fun _ a => by
  simp only [Spec.timesRead, Traced.reading, List.countP_cons, List.countP_nil, within, decide_eq_true_eq]
  split <;> simp

theorem AtMost.bind {α β : Type} {x : Traced α} {g : α → Traced β} {f h : Nat → Nat} (hx : AtMost x f) (hg : ∀ v, x.out = .ok v → AtMost (g v) h) :
    AtMost (x >>= g) (fun a => f a + h a) := by
  intro ho a
  have ho' : (Traced.bind x g).out ≠ .ub := ho
  show Spec.timesRead (Traced.bind x g).reads a ≤ _
  rw [Traced.bind] at ho' ⊢
  cases hx' : x.out with
  | ok v =>
    rw [hx'] at ho'
    have h1 := hx (by rw [hx']; exact fun h => by cases h) a
    have h2 := hg v hx' ho' a
    simp only [Spec.timesRead, List.countP_append] at h1 h2 ⊢
    omega
  | throws e =>
    have h1 := hx (by rw [hx']; exact fun h => by cases h) a
    exact Nat.le_trans h1 (Nat.le_add_right _ _)
  | ub =>
    rw [hx'] at ho'
    exact absurd rfl ho'

theorem AtMost.of_bind {α β : Type} {x : Out α} {g : α → Traced β} {h : Nat → Nat} (hg : ∀ v, x = .ok v → AtMost (g v) h) :
    AtMost (Traced.of x >>= g) h :=
  (AtMost.bind (AtMost.of x fun _ => 0) hg).mono fun a => by simp

theorem AtMost.bind_of {α β : Type} {x : Traced α} {g : α → Out β} {h : Nat → Nat} (hx : AtMost x h) : AtMost (x >>= fun v => Traced.of (g v)) h :=
  (AtMost.bind hx fun v _ => AtMost.of (g v) fun _ => 0).mono fun a => by simp

theorem AtMost.ite {α : Type} {c : Prop} [Decidable c] {x y : Traced α} {f : Nat → Nat} (hx : c → AtMost x f) (hy : ¬c → AtMost y f) :
    AtMost (if c then x else y) f := by
  split
  · exact hx (by assumption)
  · exact hy (by assumption)

theorem slice_ok {bs s : List Byte} {a b : Nat} (h : slice bs a b = .ok s) : a ≤ b ∧ b ≤ bs.length ∧ s.length = b - a := by
  rw [slice] at h
  split at h
  · rename_i hc
    cases h
    refine ⟨hc.1, hc.2, ?_⟩
    simp only [List.length_take, List.length_drop]
    omega
  · cases h

theorem vectorLoopR_atMost {α : Type} {elem : α → Nat → List Byte → Traced (Bool × α)}
    (h : ∀ x b s, AtMost (elem x b s) (within b (b + s.length))) (size base : Nat) (bs : List Byte) : ∀ (i : Nat) (old : List α),
    AtMost (vectorLoopR elem size base bs i old) (within (base + i * size) (base + bs.length))
  | _, [] => AtMost.of _ _
  | i, x :: xs => by
    rw [vectorLoopR]
    refine AtMost.of_bind fun s hs => ?_
    obtain ⟨h1, h2, h3⟩ := slice_ok hs
    have hi : (i + 1) * size = i * size + size := by rw [Nat.add_mul, Nat.one_mul]
    refine (AtMost.bind (h x _ s) (h := within (base + (i + 1) * size) (base + bs.length)) fun r _ => ?_).mono fun a => ?_
    · exact AtMost.ite (fun _ => AtMost.bind_of (vectorLoopR_atMost h size base bs (i + 1) xs)) fun _ => AtMost.of _ _
    · simp only [within]
      split <;> split <;> split <;> omega

theorem listFLoopR_atMost {α : Type} {elem : Nat → List Byte → Traced (Bool × α)}
    (h : ∀ b s, AtMost (elem b s) (within b (b + s.length))) (size : Nat) (acc : List α) (base : Nat) (bs : List Byte) :
    AtMost (listFLoopR elem size acc base bs) (within base (base + bs.length)) := by
  rw [listFLoopR]
  split
  · exact AtMost.of _ _
  · split
    · exact AtMost.of _ _
    · rename_i hc
      refine (AtMost.bind (h base _) (h := within (base + size) (base + size + (bs.drop size).length)) fun r _ => ?_).mono fun a => ?_
      · exact AtMost.ite (fun _ => listFLoopR_atMost h size _ _ _) fun _ => AtMost.of _ _
      · simp only [within, List.length_take, List.length_drop]
        split <;> split <;> split <;> omega
termination_by bs.length
decreasing_by simp only [List.length_drop]; omega

theorem listVLoopR_atMost {α : Type} {elem : Nat → List Byte → Traced (Bool × α)}
    (h : ∀ b s, AtMost (elem b s) (within b (b + s.length))) (base : Nat) (bs : List Byte) (first : BitVec 32) (it : Nat) (last : BitVec 32)
    (acc : List α) (hf : first.toNat ≤ last.toNat) :
    AtMost (listVLoopR elem base bs first it last acc)
      (fun a => within (base + it) (base + first.toNat) a + within (base + last.toNat) (base + bs.length) a) := by
  rw [listVLoopR]
  split
  · refine AtMost.of_bind fun s hs => ?_
    obtain ⟨h1, h2, h3⟩ := slice_ok hs
    refine (AtMost.bind_of (h _ s)).mono fun a => ?_
    simp only [within]
    split <;> split <;> split <;> omega
  · split
    · exact AtMost.of _ _
    · rename_i hn hc
      simp only [BYTES_PER_LENGTH_OFFSET] at hc
      refine (AtMost.bind (h := fun a => within (base + (it + 4)) (base + first.toNat) a + within (base + last.toNat) (base + bs.length) a)
        (AtMost.reading _ _) fun cur _ => ?_).mono fun a => ?_
      · refine AtMost.ite (fun _ => AtMost.of _ _) fun hcl => AtMost.ite (fun _ => AtMost.of _ _) fun hcb => ?_
        have hcl' : last.toNat ≤ cur.toNat := by
          have : ¬cur.toNat < last.toNat := hcl
          omega
        refine AtMost.of_bind fun s hs => ?_
        obtain ⟨h1, h2, h3⟩ := slice_ok hs
        refine (AtMost.bind (h _ s) (h := fun a => within (base + (it + 4)) (base + first.toNat) a + within (base + cur.toNat) (base + bs.length) a)
          fun r _ => ?_).mono fun a => ?_
        · exact AtMost.ite (fun _ => listVLoopR_atMost h base bs first _ cur _ (by omega)) fun _ => AtMost.of _ _
        · simp only [within]
          split <;> split <;> split <;> split <;> omega
      · simp only [within]
        split <;> split <;> split <;> split <;> omega
termination_by first.toNat - it
decreasing_by simp only [BYTES_PER_LENGTH_OFFSET] at *; omega

theorem listVDeserializeR_atMost {α : Type} {elem : Nat → List Byte → Traced (Bool × α)}
    (h : ∀ b s, AtMost (elem b s) (within b (b + s.length))) (base : Nat) (bs : List Byte) :
    AtMost (listVDeserializeR elem base bs) (within base (base + bs.length)) := by
  rw [listVDeserializeR]
  refine AtMost.ite (fun _ => AtMost.of _ _) fun _ => AtMost.ite (fun _ => AtMost.of _ _) fun hl => ?_
  simp only [BYTES_PER_LENGTH_OFFSET] at hl
  refine (AtMost.bind (h := within (base + 4) (base + bs.length)) (AtMost.reading _ _) fun first _ => ?_).mono fun a => ?_
  · refine AtMost.ite (fun _ => AtMost.of _ _) fun h1 => AtMost.ite (fun _ => AtMost.of _ _) fun h2 => ?_
    simp only [BYTES_PER_LENGTH_OFFSET] at h1
    refine (listVLoopR_atMost h base bs first 4 first [] (Nat.le_refl _)).mono fun a => ?_
    simp only [within]
    split <;> split <;> split <;> omega
  · simp only [within]
    split <;> split <;> split <;> omega

mutual
theorem deserializeR_atMost : (t : Ty) → Spec.wf t = true → (old : t.denote) → (base : Nat) → (bs : List Byte) →
    AtMost (deserializeR t old base bs) (within base (base + bs.length))
  | .uint64, _, old, base, bs => by
    rw [deserializeR]
    refine AtMost.ite (fun _ => AtMost.of _ _) fun h => ?_
    rw [show bs.length = 8 by simpa using h]
    exact AtMost.reading _ _
  | .boolean, _, old, base, bs => by
    rw [deserializeR]
    refine AtMost.ite (fun _ => AtMost.of _ _) fun h => ?_
    rw [show bs.length = 1 by simpa using h]
    exact AtMost.reading _ _
  | .bytes n, _, old, base, bs => by
    rw [deserializeR]
    split
    · rename_i h; rw [h]; exact AtMost.reading _ _
    · exact AtMost.of _ _
  | .bitvector n, _, old, base, bs => by
    rw [deserializeR]
    exact AtMost.ite (fun _ => AtMost.of _ _) fun h => AtMost.reading _ _
  | .bitlist _, _, old, base, bs => by
    rw [deserializeR, bitlistDeserializeR]
    refine AtMost.ite (fun h hu => ?_) fun h => AtMost.reading _ _
    subst h
    exact absurd rfl hu
  | .vector t n, hw, old, base, bs => by
    simp only [Spec.wf, Bool.and_eq_true] at hw
    rw [deserializeR]
    refine AtMost.ite (fun _ => AtMost.of _ _) fun h => AtMost.bind_of ?_
    have := vectorLoopR_atMost (fun x b s => deserializeR_atMost t hw.1.1 x b s) t.sszSize base bs 0 old.1
    simpa using this
  | .listF t _, hw, old, base, bs => by
    simp only [Spec.wf, Bool.and_eq_true] at hw
    rw [deserializeR]
    exact AtMost.ite (fun _ => AtMost.of _ _) fun _ => AtMost.ite (fun _ => AtMost.of _ _) fun _ =>
      listFLoopR_atMost (fun b s => deserializeR_atMost t hw.1 t.dflt b s) _ _ base bs
  | .listV t _, hw, old, base, bs => by
    simp only [Spec.wf, Bool.and_eq_true] at hw
    rw [deserializeR]
    exact listVDeserializeR_atMost (fun b s => deserializeR_atMost t hw.1 t.dflt b s) base bs
  | .container _ _ ps, hw, old, base, bs => by
    simp only [Spec.wf, Bool.and_eq_true, decide_eq_true_eq] at hw
    obtain ⟨⟨⟨hw, h1⟩, h2⟩, -⟩ := hw
    rw [deserializeR]
    have hfl : (computeFixedLength ps 0#32).toNat = Spec.fixedSizeParts ps := by
      rw [computeFixedLength_eq ps hw, BitVec.zero_add, BitVec.toNat_ofNat, Nat.mod_eq_of_lt h2]
    refine (AtMost.bind_of (deserializePartsR_atMost ps hw old base bs _ 0 0#32 (p := .boolean) false (fun _ _ => of .ub)
      (fun _ _ => AtMost.of _ _) (by omega) (Or.inl rfl))).mono fun a => ?_
    simp only [within]
    split <;> split <;> split <;> omega

theorem deserializePartsR_atMost : (ps : Parts) → Spec.wfParts ps = true → (old : ps.denote) → (base : Nat) → (bs : List Byte) → (fl : BitVec 32) →
    (it : Nat) → (last : BitVec 32) → {p : Ty} → (prev : p.denote) → (dR : Nat → List Byte → Traced (Bool × p.denote)) →
    (∀ b s, AtMost (dR b s) (within b (b + s.length))) → it + Spec.fixedSizeParts ps = fl.toNat → last = 0#32 ∨ fl.toNat ≤ last.toNat →
    AtMost (deserializePartsR ps old base bs fl it last prev dR)
      (fun a => within (base + it) (base + min fl.toNat bs.length) a + within (base + max fl.toNat last.toNat) (base + bs.length) a)
  | .nil, _, old, base, bs, fl, it, last, _, prev, dR, h, hit, hl => by
    rw [deserializePartsR]
    refine AtMost.ite (fun hl0 => ?_) fun _ => AtMost.of _ _
    have hl' := hl.resolve_left hl0
    refine AtMost.of_bind fun s hs => (AtMost.bind_of (h _ s)).mono fun a => ?_
    obtain ⟨h1, h2, h3⟩ := slice_ok hs
    simp only [within]
    split <;> split <;> split <;> omega
  | .cons _ t ps, hw, old, base, bs, fl, it, last, _, prev, dR, h, hit, hl => by
    simp only [Spec.wfParts, Bool.and_eq_true] at hw
    obtain ⟨z1, z2⟩ := sszSize_spec t hw.1
    rw [Spec.fixedSizeParts] at hit
    rw [deserializePartsR]
    refine AtMost.ite (fun hs0 => ?_) fun hs0 => ?_
    · have hv : Spec.isVariable t = false := by
        cases hv : Spec.isVariable t
        · rfl
        · exact absurd (z1 hv) hs0
      rw [hv] at hit
      have hz := z2 hv
      simp only [Bool.false_eq_true, if_false] at hit
      refine AtMost.ite (fun _ => AtMost.of _ _) fun hb => ?_
      refine AtMost.of_bind fun s hs => ?_
      obtain ⟨h1, h2, h3⟩ := slice_ok hs
      refine (AtMost.bind (deserializeR_atMost t hw.1 old.1 (base + it) s)
        (h := fun a => within (base + (it + t.sszSize)) (base + min fl.toNat bs.length) a + within (base + max fl.toNat last.toNat) (base + bs.length) a)
        fun r _ => ?_).mono fun a => ?_
      · exact AtMost.ite (fun _ => AtMost.bind_of (deserializePartsR_atMost ps hw.2 old.2 base bs fl _ last prev dR h (by omega) hl))
          fun _ => AtMost.of _ _
      · simp only [within]
        split <;> split <;> split <;> split <;> omega
    · have hv : Spec.isVariable t = true := by
        cases hv : Spec.isVariable t
        · have := z2 hv; omega
        · rfl
      rw [hv] at hit
      simp only [if_true] at hit
      refine AtMost.ite (fun _ => AtMost.of _ _) fun hb => ?_
      simp only [BYTES_PER_LENGTH_OFFSET] at hb
      refine (AtMost.bind (h := fun a => within (base + (it + 4)) (base + min fl.toNat bs.length) a +
        within (base + max fl.toNat last.toNat) (base + bs.length) a) (AtMost.reading _ _) fun cur _ => ?_).mono fun a => ?_
      · refine AtMost.ite (fun _ => AtMost.of _ _) fun hcb => AtMost.ite (fun hl0 => ?_) fun hl0 => ?_
        · have hl' := hl.resolve_left hl0
          refine AtMost.ite (fun _ => AtMost.of _ _) fun hcl => ?_
          have hcl' : last.toNat ≤ cur.toNat := by
            have : ¬cur.toNat < last.toNat := hcl
            omega
          refine AtMost.of_bind fun s hs => ?_
          obtain ⟨h1, h2, h3⟩ := slice_ok hs
          refine (AtMost.bind (h _ s) (h := fun a => within (base + (it + 4)) (base + min fl.toNat bs.length) a +
            within (base + max fl.toNat cur.toNat) (base + bs.length) a) fun r _ => ?_).mono fun a => ?_
          · exact AtMost.ite (fun _ => AtMost.bind_of (deserializePartsR_atMost ps hw.2 old.2 base bs fl _ cur old.1 _
              (fun b s => deserializeR_atMost t hw.1 old.1 b s) (by simp only [BYTES_PER_LENGTH_OFFSET]; omega) (Or.inr (by omega)))) fun _ => AtMost.of _ _
          · simp only [within]
            split <;> split <;> split <;> split <;> omega
        · refine AtMost.ite (fun _ => AtMost.of _ _) fun hcf => ?_
          have hcf' : cur = fl := Classical.byContradiction hcf
          subst hcf'
          have hl0' : last = 0#32 := Classical.byContradiction hl0
          subst hl0'
          refine (AtMost.bind_of (deserializePartsR_atMost ps hw.2 old.2 base bs cur _ cur old.1 _
              (fun b s => deserializeR_atMost t hw.1 old.1 b s) (by simp only [BYTES_PER_LENGTH_OFFSET]; omega) (Or.inr (Nat.le_refl _)))).mono fun a => ?_
          simp only [within, BYTES_PER_LENGTH_OFFSET]
          simp
      · simp only [within]
        split <;> split <;> split <;> split <;> omega
end


/-! ## The integers at fixed positions are read -/

theorem Traced.bind_ok {α β : Type} {x : Traced α} {g : α → Traced β} {v : β} (h : (x >>= g).out = .ok v) :
    ∃ u, x.out = .ok u ∧ (g u).out = .ok v ∧ (x >>= g).reads = x.reads ++ (g u).reads := by
  have h' : (Traced.bind x g).out = .ok v := h
  show ∃ u, x.out = .ok u ∧ (g u).out = .ok v ∧ (Traced.bind x g).reads = x.reads ++ (g u).reads
  rw [Traced.bind] at h' ⊢
  cases hx : x.out with
  | ok u => rw [hx] at h'; exact ⟨u, rfl, h', rfl⟩
  | throws e => rw [hx] at h'; cases h'
  | ub => rw [hx] at h'; cases h'

/-- If the range is accepted, the reads `L` are among those made. -/
def AtLeast {α : Type} (x : Traced (Bool × α)) (L : List Read) : Prop := ∀ v, x.out = .ok (true, v) → ∀ r ∈ L, r ∈ x.reads

theorem AtLeast.nil {α : Type} (x : Traced (Bool × α)) : AtLeast x [] := fun _ _ r h => absurd h (by simp)

theorem AtLeast.refused {α : Type} (v : α) (L : List Read) : AtLeast (of (.ok (false, v))) L := fun w h => by cases h

theorem AtLeast.ite {α : Type} {c : Prop} [Decidable c] {x y : Traced (Bool × α)} {L : List Read} (hx : c → AtLeast x L) (hy : ¬c → AtLeast y L) :
    AtLeast (if c then x else y) L := by
  split
  · exact hx (by assumption)
  · exact hy (by assumption)

theorem AtLeast.of_bind {α β : Type} {x : Out α} {g : α → Traced (Bool × β)} {L : List Read} (hg : ∀ v, x = .ok v → AtLeast (g v) L) :
    AtLeast (of x >>= g) L := by
  intro v h r hr
  obtain ⟨u, h1, h2, h3⟩ := bind_ok h
  rw [h3]
  exact List.mem_append_right _ (hg u h1 v h2 r hr)

theorem AtLeast.bind {α β : Type} {x : Traced α} {g : α → Traced (Bool × β)} {L M : List Read}
    (h : ∀ u v, x.out = .ok u → (g u).out = .ok (true, v) → (∀ r ∈ L, r ∈ x.reads) ∧ ∀ r ∈ M, r ∈ (g u).reads) : AtLeast (x >>= g) (L ++ M) := by
  intro v hv r hr
  obtain ⟨u, h1, h2, h3⟩ := bind_ok hv
  rw [h3]
  obtain ⟨hL, hM⟩ := h u v h1 h2
  rcases List.mem_append.1 hr with hr | hr
  · exact List.mem_append_left _ (hL r hr)
  · exact List.mem_append_right _ (hM r hr)

theorem AtLeast.bind_of {α β : Type} {x : Traced (Bool × α)} {f : Bool × α → β} {L : List Read} (hx : AtLeast x L) :
    AtLeast (x >>= fun v => of (.ok (v.1, f v))) L := by
  intro v hv r hr
  obtain ⟨⟨b, u⟩, h1, h2, h3⟩ := bind_ok hv
  rw [h3]
  cases b with
  | false => cases h2
  | true => exact List.mem_append_left _ (hx u h1 r hr)

theorem vectorLoopR_atLeast {α : Type} {elem : α → Nat → List Byte → Traced (Bool × α)} {L : Nat → List Read}
    (h : ∀ x b s, AtLeast (elem x b s) (L b)) (size base : Nat) (bs : List Byte) : ∀ (i : Nat) (old : List α) (j : Nat), i ≤ j → j < i + old.length →
    AtLeast (vectorLoopR elem size base bs i old) (L (base + j * size))
  | i, [], j, h1, h2 => absurd h2 (by simp; omega)
  | i, x :: xs, j, h1, h2 => by
    rw [vectorLoopR]
    refine AtLeast.of_bind fun s hs => ?_
    intro v hv r hr
    obtain ⟨⟨b, u⟩, g1, g2, g3⟩ := bind_ok hv
    rw [g3]
    cases b with
    | false => cases g2
    | true =>
      simp only [if_true] at g2 ⊢
      by_cases hj : j = i
      · subst hj
        exact List.mem_append_left _ (h x _ s u g1 r hr)
      · refine List.mem_append_right _ ?_
        have := AtLeast.bind_of (f := fun q : Bool × Vec α xs.length => (⟨u :: q.2.1, congrArg (· + 1) q.2.2⟩ : Vec α (xs.length + 1)))
          (vectorLoopR_atLeast h size base bs (i + 1) xs j (by omega) (by simp at h2; omega))
        exact this v g2 r hr

mutual
theorem deserializeR_atLeast : (t : Ty) → Spec.wf t = true → (old : t.denote) → (base : Nat) → (bs : List Byte) →
    AtLeast (deserializeR t old base bs) (Spec.integersAt t base)
  | .uint64, _, old, base, bs => by
    rw [deserializeR]
    exact AtLeast.ite (fun _ => AtLeast.refused _ _) fun _ _ _ r hr => hr
  | .boolean, _, old, base, bs => AtLeast.nil _
  | .bytes n, _, old, base, bs => AtLeast.nil _
  | .bitvector n, _, old, base, bs => AtLeast.nil _
  | .bitlist _, _, old, base, bs => AtLeast.nil _
  | .vector t n, hw, old, base, bs => by
    simp only [Spec.wf, Bool.and_eq_true, Bool.not_eq_true'] at hw
    have hz := (sszSize_spec t hw.1.1).2 hw.1.2
    rw [deserializeR]
    refine AtLeast.ite (fun _ => AtLeast.refused _ _) fun _ => AtLeast.bind_of ?_
    intro v hv r hr
    rw [Spec.integersAt, List.mem_flatMap] at hr
    obtain ⟨i, hi, hr⟩ := hr
    rw [List.mem_range] at hi
    refine vectorLoopR_atLeast (fun x b s => deserializeR_atLeast t hw.1.1 x b s) t.sszSize base bs 0 old.1 i (Nat.zero_le _)
      (by rw [old.2]; omega) v hv r ?_
    rw [hz.1]; exact hr
  | .listF t _, hw, old, base, bs => AtLeast.nil _
  | .listV t _, hw, old, base, bs => AtLeast.nil _
  | .container _ _ ps, hw, old, base, bs => by
    simp only [Spec.wf, Bool.and_eq_true, decide_eq_true_eq] at hw
    obtain ⟨⟨⟨hw, h1⟩, h2⟩, -⟩ := hw
    rw [deserializeR]
    have hfl : (computeFixedLength ps 0#32).toNat = Spec.fixedSizeParts ps := by
      rw [computeFixedLength_eq ps hw, BitVec.zero_add, BitVec.toNat_ofNat, Nat.mod_eq_of_lt h2]
    have h := deserializePartsR_atLeast ps hw old base bs (computeFixedLength ps 0#32) 0 0#32 (p := .boolean) false (fun _ _ => of .ub) []
      (fun _ => AtLeast.nil _) (by omega)
    rw [hfl, Nat.add_zero] at h
    refine AtLeast.bind_of (f := fun q : Bool × Bool × ps.denote => q.2.2) fun v hv r hr => h v hv r ?_
    exact List.mem_append_right _ hr

theorem deserializePartsR_atLeast : (ps : Parts) → Spec.wfParts ps = true → (old : ps.denote) → (base : Nat) → (bs : List Byte) → (fl : BitVec 32) →
    (it : Nat) → (last : BitVec 32) → {p : Ty} → (prev : p.denote) → (dR : Nat → List Byte → Traced (Bool × p.denote)) → (P : List Read) →
    (∀ s, AtLeast (dR (base + last.toNat) s) P) → it + Spec.fixedSizeParts ps = fl.toNat →
    AtLeast (deserializePartsR ps old base bs fl it last prev dR)
      ((if last = 0#32 then [] else P) ++ Spec.integersAtParts ps (base + it) (base + fl.toNat) (last == 0#32))
  | .nil, _, old, base, bs, fl, it, last, _, prev, dR, P, h, hit => by
    rw [deserializePartsR, Spec.integersAtParts, List.append_nil]
    by_cases hl : last = 0#32
    · rw [if_pos hl]; exact AtLeast.nil _
    · rw [if_neg hl, if_pos hl]
      exact AtLeast.of_bind fun s _ => AtLeast.bind_of (f := fun r : Bool × _ => (r.2, old)) (h s)
  | .cons _ t ps, hw, old, base, bs, fl, it, last, _, prev, dR, P, h, hit => by
    simp only [Spec.wfParts, Bool.and_eq_true] at hw
    obtain ⟨z1, z2⟩ := sszSize_spec t hw.1
    rw [Spec.fixedSizeParts] at hit
    rw [deserializePartsR, Spec.integersAtParts]
    refine AtLeast.ite (fun hs0 => ?_) fun hs0 => ?_
    · have hv : Spec.isVariable t = false := by
        cases hv : Spec.isVariable t
        · rfl
        · exact absurd (z1 hv) hs0
      have hz := z2 hv
      rw [hv] at hit ⊢
      simp only [Bool.false_eq_true, if_false] at hit ⊢
      refine AtLeast.ite (fun _ => AtLeast.refused _ _) fun hb => AtLeast.of_bind fun s hs => ?_
      intro v hv r hr
      obtain ⟨⟨b, u⟩, g1, g2, g3⟩ := bind_ok hv
      rw [g3]
      cases b with
      | false => cases g2
      | true =>
        simp only [if_true] at g2 ⊢
        rw [List.mem_append, List.mem_append] at hr
        rw [List.mem_append]
        have ih := AtLeast.bind_of (f := fun q : Bool × _ × ps.denote => (q.2.1, (u, q.2.2)))
          (deserializePartsR_atLeast ps hw.2 old.2 base bs fl (it + t.sszSize) last prev dR P h (by omega)) v g2
        rcases hr with hr | hr | hr
        · exact Or.inr (ih r (List.mem_append_left _ hr))
        · exact Or.inl (deserializeR_atLeast t hw.1 old.1 (base + it) s u g1 r hr)
        · refine Or.inr (ih r (List.mem_append_right _ ?_))
          rw [hz.1, ← Nat.add_assoc]; exact hr
    · have hv : Spec.isVariable t = true := by
        cases hv : Spec.isVariable t
        · have := z2 hv; omega
        · rfl
      rw [hv] at hit ⊢
      simp only [if_true] at hit ⊢
      refine AtLeast.ite (fun _ => AtLeast.refused _ _) fun hb => ?_
      intro v hv r hr
      obtain ⟨cur, g1, g2, g3⟩ := bind_ok hv
      rw [g3]
      simp only [BYTES_PER_LENGTH_OFFSET] at g2 ⊢
      by_cases hcb : bs.length < cur.toNat
      · rw [if_pos hcb] at g2; cases g2
      rw [if_neg hcb] at g2 ⊢
      by_cases hl : last = 0#32
      · subst hl
        simp only [ne_eq, not_true_eq_false, if_false] at g2 ⊢
        by_cases hcf : cur = fl
        · subst hcf
          simp only [not_true_eq_false, if_false] at g2 ⊢
          have ih := AtLeast.bind_of (f := fun q : Bool × t.denote × ps.denote => (prev, (q.2.1, q.2.2)))
            (deserializePartsR_atLeast ps hw.2 old.2 base bs cur (it + 4) cur old.1 (fun b s => deserializeR t old.1 b s)
              (Spec.integersAt t (base + cur.toNat)) (fun s => deserializeR_atLeast t hw.1 old.1 _ s) (by omega)) v g2
          have hc0 : cur ≠ 0#32 := fun hc => by rw [hc] at hit; simp at hit
          have hc1 : (cur == 0#32) = false := by simp [hc0]
          rw [if_neg hc0, hc1] at ih
          simp only [if_true, BEq.rfl, List.nil_append, List.mem_cons, List.mem_append] at hr
          rw [List.mem_append]
          rcases hr with hr | hr | hr
          · exact Or.inl (by rw [hr]; exact List.mem_singleton.2 rfl)
          · exact Or.inr (ih r (List.mem_append_left _ hr))
          · exact Or.inr (ih r (List.mem_append_right _ (by rw [← Nat.add_assoc]; exact hr)))
        · rw [if_pos hcf] at g2; cases g2
      · have hl1 : (last == 0#32) = false := by simp [hl]
        rw [if_pos hl] at g2 ⊢
        rw [if_neg hl, hl1] at hr
        by_cases hcl : cur < last
        · rw [if_pos hcl] at g2; cases g2
        rw [if_neg hcl] at g2 ⊢
        obtain ⟨s, k1, k2, k3⟩ := bind_ok g2
        rw [k3]
        obtain ⟨⟨b, u⟩, m1, m2, m3⟩ := bind_ok k2
        rw [m3]
        cases b with
        | false => cases m2
        | true =>
          simp only [if_true] at m2 ⊢
          have hc0 : cur ≠ 0#32 := fun hc => by
            subst hc
            have h1 : ¬((0#32).toNat < last.toNat) := hcl
            exact hl (BitVec.eq_of_toNat_eq (by simp at h1 ⊢; omega))
          have ih := AtLeast.bind_of (f := fun q : Bool × t.denote × ps.denote => (u, (q.2.1, q.2.2)))
            (deserializePartsR_atLeast ps hw.2 old.2 base bs fl (it + 4) cur old.1 (fun b s => deserializeR t old.1 b s)
              [] (fun s => AtLeast.nil _) (by omega)) v m2
          have hc1 : (cur == 0#32) = false := by simp [hc0]
          rw [if_neg hc0, hc1] at ih
          simp only [Bool.false_eq_true, if_false, List.nil_append, List.mem_append, List.mem_cons] at hr
          simp only [List.mem_append]
          rcases hr with hr | hr | hr
          · exact Or.inr (Or.inr (Or.inl (h s u m1 r hr)))
          · exact Or.inl (by rw [hr]; exact List.mem_singleton.2 rfl)
          · exact Or.inr (Or.inr (Or.inr (ih r (by rw [List.nil_append, ← Nat.add_assoc]; exact hr))))
end


/-! ## Fixed-size types: no other integers are read -/

/-- All reads that require alignment are among `L`. -/
def Only {α : Type} (x : Traced α) (L : List Read) : Prop := ∀ r ∈ x.reads, r.align = 1 ∨ r ∈ L

theorem Only.of {α : Type} (x : Out α) (L : List Read) : Only (of x) L := fun r h => absurd h (by simp [Traced.of])

theorem Only.byte {α : Type} (x : Out α) (p n : Nat) (L : List Read) : Only (reading ⟨p, n, 1⟩ x) L := fun r h => Or.inl (by
  simp only [Traced.reading, List.mem_singleton] at h
  rw [h])

theorem Only.ite {α : Type} {c : Prop} [Decidable c] {x y : Traced α} {L : List Read} (hx : c → Only x L) (hy : ¬c → Only y L) :
    Only (if c then x else y) L := by
  split
  · exact hx (by assumption)
  · exact hy (by assumption)

theorem Only.bind {α β : Type} {x : Traced α} {g : α → Traced β} {L : List Read} (hx : Only x L) (hg : ∀ v, x.out = .ok v → Only (g v) L) :
    Only (x >>= g) L := by
  intro r hr
  have hr' : r ∈ (Traced.bind x g).reads := hr
  rw [Traced.bind] at hr'
  cases hx' : x.out with
  | ok v =>
    rw [hx'] at hr'
    rcases List.mem_append.1 hr' with hr' | hr'
    · exact hx r hr'
    · exact hg v hx' r hr'
  | throws e => rw [hx'] at hr'; exact hx r hr'
  | ub => rw [hx'] at hr'; exact hx r hr'

theorem Only.mono {α : Type} {x : Traced α} {L M : List Read} (hx : Only x L) (h : ∀ r ∈ L, r ∈ M) : Only x M :=
  fun r hr => (hx r hr).imp_right (h r)

theorem vectorLoopR_only {α : Type} {elem : α → Nat → List Byte → Traced (Bool × α)} {L : Nat → List Read}
    (h : ∀ x b s, Only (elem x b s) (L b)) (size base : Nat) (bs : List Byte) (M : List Read) (n : Nat)
    (hM : ∀ j, j < n → ∀ r ∈ L (base + j * size), r ∈ M) : ∀ (i : Nat) (old : List α), i + old.length = n →
    Only (vectorLoopR elem size base bs i old) M
  | i, [], _ => Only.of _ _
  | i, x :: xs, hn => by
    rw [vectorLoopR]
    simp only [List.length_cons] at hn
    refine Only.bind (Only.of _ _) fun s _ => Only.bind ((h x _ s).mono (hM i (by omega))) fun r _ => Only.ite (fun _ => ?_) fun _ => Only.of _ _
    exact Only.bind (vectorLoopR_only h size base bs M n hM (i + 1) xs (by omega)) fun q _ => Only.of _ _

mutual
theorem deserializeR_only : (t : Ty) → Spec.wf t = true → Spec.isVariable t = false → (old : t.denote) → (base : Nat) → (bs : List Byte) →
    Only (deserializeR t old base bs) (Spec.integersAt t base)
  | .uint64, _, _, old, base, bs => by
    rw [deserializeR]
    exact Only.ite (fun _ => Only.of _ _) fun _ r hr => Or.inr hr
  | .boolean, _, _, old, base, bs => by
    rw [deserializeR]
    exact Only.ite (fun _ => Only.of _ _) fun _ => Only.byte _ _ _ _
  | .bytes n, _, _, old, base, bs => by
    rw [deserializeR]
    split
    · exact Only.byte _ _ _ _
    · exact Only.of _ _
  | .bitvector n, _, _, old, base, bs => by
    rw [deserializeR]
    exact Only.ite (fun _ => Only.of _ _) fun _ => Only.byte _ _ _ _
  | .bitlist _, _, hv, old, base, bs => by cases hv
  | .vector t n, hw, hv, old, base, bs => by
    simp only [Spec.wf, Bool.and_eq_true, Bool.not_eq_true'] at hw
    have hz := (sszSize_spec t hw.1.1).2 hw.1.2
    rw [deserializeR]
    refine Only.ite (fun _ => Only.of _ _) fun _ => Only.bind ?_ fun _ _ => Only.of _ _
    refine vectorLoopR_only (fun x b s => deserializeR_only t hw.1.1 hw.1.2 x b s) t.sszSize base bs _ n (fun j hj r hr => ?_) 0 old.1 (by rw [old.2]; omega)
    rw [Spec.integersAt, List.mem_flatMap]
    exact ⟨j, List.mem_range.2 hj, by rw [← hz.1]; exact hr⟩
  | .listF t _, _, hv, old, base, bs => by cases hv
  | .listV t _, _, hv, old, base, bs => by cases hv
  | .container _ _ ps, hw, hv, old, base, bs => by
    simp only [Spec.wf, Bool.and_eq_true, decide_eq_true_eq] at hw
    rw [deserializeR]
    refine Only.bind ?_ fun _ _ => Only.of _ _
    have := deserializePartsR_only ps hw.1.1.1 hv old base bs (computeFixedLength ps 0#32) 0 (p := .boolean) false (fun _ _ => of .ub)
      (base + Spec.fixedSizeParts ps)
    exact this

theorem deserializePartsR_only : (ps : Parts) → Spec.wfParts ps = true → Spec.anyVariable ps = false → (old : ps.denote) → (base : Nat) →
    (bs : List Byte) → (fl : BitVec 32) → (it : Nat) → {p : Ty} → (prev : p.denote) → (dR : Nat → List Byte → Traced (Bool × p.denote)) →
    (q : Nat) → Only (deserializePartsR ps old base bs fl it 0#32 prev dR) (Spec.integersAtParts ps (base + it) q true)
  | .nil, _, _, old, base, bs, fl, it, _, prev, dR, q => by
    rw [deserializePartsR]
    exact Only.ite (fun h => absurd rfl h) fun _ => Only.of _ _
  | .cons _ t ps, hw, hv, old, base, bs, fl, it, _, prev, dR, q => by
    simp only [Spec.wfParts, Bool.and_eq_true] at hw
    simp only [Spec.anyVariable, Bool.or_eq_false_iff] at hv
    have hz := (sszSize_spec t hw.1).2 hv.1
    rw [deserializePartsR, Spec.integersAtParts, hv.1]
    simp only [Bool.false_eq_true, if_false]
    refine Only.ite (fun _ => Only.ite (fun _ => Only.of _ _) fun _ => ?_) fun h => absurd h (by omega)
    refine Only.bind (Only.of _ _) fun s _ => Only.bind ((deserializeR_only t hw.1 hv.1 old.1 (base + it) s).mono fun r hr => List.mem_append_left _ hr) ?_
    refine fun u _ => Only.ite (fun _ => Only.bind ?_ fun _ _ => Only.of _ _) fun _ => Only.of _ _
    refine (deserializePartsR_only ps hw.2 hv.2 old.2 base bs fl (it + t.sszSize) prev dR q).mono fun r hr => List.mem_append_right _ ?_
    rw [hz.1, ← Nat.add_assoc] at hr
    exact hr
end

end Mammon
