import Verif.Proofs.Spare
import Verif.Props.Whole
import Verif.Props.Classes
/-!
# How many encodings of an object are accepted: C72
-/

namespace Mammon

/-- An encoding of `v` that `deserialize` accepts, of the declared size if the type has one. -/
def Accepted (t : Ty) (old v : t.denote) (bs : List Byte) : Prop :=
  (t.sszSize ≠ 0 → bs.length = t.sszSize) ∧ deserialize t old bs = .ok (true, v)

/-- **C72** Every object has exactly as many accepted encodings as there are contents of the padding bits of its bit vectors. -/
theorem C72_count (t : Ty) (hw : Spec.wf t = true) (old v : t.denote) (hs : (Spec.encode t v).length < 2 ^ 32) :
    Nat.card {bs // Accepted t old v bs} = 2 ^ Spec.spare t v := by
  rw [← Spec.card_forget t v]
  have hlen : ∀ w, Spec.forget t w = v → (Spec.encode (Spec.whole t) w).length = (Spec.encode t v).length := by
    rintro w rfl
    exact (Spec.length_encode_forget t w).symm
  have hsz : t.sszSize ≠ 0 → (Spec.encode t v).length = t.sszSize := fun h => by
    obtain ⟨bs, hb, hl⟩ := C03_fixed_sizes t hw h v
    rw [serialize] at hb
    split at hb
    · cases hb
    · rw [← serializeBytes_eq_encode t hw, Out.ok.inj hb, hl]
  refine (Nat.card_eq_of_bijective (fun w : {w // Spec.forget t w = v} =>
    (⟨Spec.encode (Spec.whole t) w.1, fun h => (hlen _ w.2).trans (hsz h),
      (C06_exact t hw old v _ (fun h => (hlen _ w.2).trans (hsz h)) (by rw [hlen _ w.2]; exact hs)).2 ⟨w.1, rfl, w.2⟩⟩ :
      {bs // Accepted t old v bs})) ⟨?_, ?_⟩).symm
  · rintro ⟨a, ha⟩ ⟨b, hb⟩ h
    have h' : Spec.encode (Spec.whole t) a = Spec.encode (Spec.whole t) b := congrArg Subtype.val h
    have h1 := (C60_inverse (Spec.whole t) (Spec.wf_whole t hw) _ a (by rw [hlen a ha]; exact hs)).1 rfl
    have h2 := (C60_inverse (Spec.whole t) (Spec.wf_whole t hw) _ b (by rw [hlen b hb]; exact hs)).1 rfl
    rw [h', h2] at h1
    cases h1
    rfl
  · rintro ⟨bs, hl, h⟩
    obtain ⟨w, rfl, hf⟩ := exists_whole hw hl h
    exact ⟨⟨w, hf⟩, rfl⟩

example : Spec.wf (.bitvector 4) = true ∧ (Spec.encode (.bitvector 4) ⟨[true, false, true, false], rfl⟩).length < 2 ^ 32 ∧
    Spec.spare (.bitvector 4) ⟨[true, false, true, false], rfl⟩ = 4 := by decide +kernel

/-- **C72** Objects without bit vectors of broken bytes have exactly one accepted encoding. -/
theorem C72_one (t : Ty) (hw : Spec.wf t = true) (hb : Spec.wholeBytes t = true) (old v : t.denote)
    (hs : (Spec.encode t v).length < 2 ^ 32) : Nat.card {bs // Accepted t old v bs} = 1 := by
  rw [C72_count t hw old v hs, Spec.spare_wholeBytes t v hb, Nat.pow_zero]

example : Spec.wf Objects.fork = true ∧ Spec.wholeBytes Objects.fork = true ∧ (Spec.encode Objects.fork Samples.fork).length < 2 ^ 32 := by
  decide +kernel

/-- **C72** The classes of the repository: a beacon state has 16 accepted encodings, an object of any other class has one. -/
theorem C72_classes (p : Preset) (hp : p ∈ [mainnet, minimal]) (x : String × Ty) (hx : x ∈ Objects.all p) (old v : x.2.denote)
    (hs : (Spec.encode x.2 v).length < 2 ^ 32) :
    Nat.card {bs // Accepted x.2 old v bs} = if x.1 = "BeaconState" then 16 else 1 := by
  have hw : Spec.wf x.2 = true := InRepo.wf ⟨p, hp, x, hx, rfl⟩
  have hk : ∀ p ∈ [mainnet, minimal], ∀ x ∈ Objects.all p,
      (Spec.listsWhole x.2 && decide (Spec.spareTy x.2 = if x.1 = "BeaconState" then 4 else 0)) = true := by decide +kernel
  have h := hk p hp x hx
  rw [Bool.and_eq_true, decide_eq_true_eq] at h
  rw [C72_count x.2 hw old v hs, Spec.spare_eq_spareTy x.2 v h.1, h.2]
  split <;> rfl

example : mainnet ∈ [mainnet, minimal] ∧ ("Fork", Objects.fork) ∈ Objects.all mainnet ∧
    (Spec.encode Objects.fork Samples.fork).length < 2 ^ 32 :=
  ⟨by simp, by simp [Objects.all], by decide +kernel⟩

end Mammon
