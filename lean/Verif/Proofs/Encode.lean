import Verif.Proofs.LE
import Verif.Proofs.Bits
import Verif.Model.Codec
/-! # Normal form of `serialize`, lengths, and agreement with the SSZ specification -/

namespace Mammon

/-- The fixed section of a list of flagged parts, with offsets counted from `off`. -/
def headsL : List (Bool × List Byte) → Nat → List Byte
  | [], _ => []
  | p :: ps, off => if p.1 then leBytes 4 off ++ headsL ps (off + p.2.length) else p.2 ++ headsL ps off

/-- The variable section. -/
def tailsL : List (Bool × List Byte) → List Byte
  | [] => []
  | p :: ps => (if p.1 then p.2 else []) ++ tailsL ps

/-- The length of the fixed section. -/
def fixedLenL : List (Bool × List Byte) → Nat
  | [] => 0
  | p :: ps => (if p.1 then 4 else p.2.length) + fixedLenL ps

theorem length_headsL (ps : List (Bool × List Byte)) (off : Nat) : (headsL ps off).length = fixedLenL ps := by
  induction ps generalizing off with
  | nil => rfl
  | cons p ps ih =>
    simp only [headsL, fixedLenL]
    split <;> simp [ih, length_leBytes]

/-! ## the specification's `assemble` in recursive form -/

theorem assemble_heads (ps : List (Bool × List Byte)) (pre : List (Bool × List Byte)) (fl : Nat) :
    ((ps.zipIdx pre.length).map fun p => if p.1.1 then Spec.uintLE 4 (fl +
      (((pre ++ ps).take p.2).map fun p => if p.1 then p.2.length else 0).sum) else p.1.2).flatten =
    headsL ps (fl + (pre.map fun p => if p.1 then p.2.length else 0).sum) := by
  induction ps generalizing pre with
  | nil => rfl
  | cons p ps ih =>
    rw [List.zipIdx_cons, List.map_cons, List.flatten_cons, headsL]
    have h := ih (pre ++ [p])
    rw [List.length_append, List.length_singleton, List.append_assoc, List.singleton_append, List.map_append,
      List.sum_append] at h
    rw [h, List.take_left, leBytes_eq_uintLE]
    by_cases hp : p.1 = true
    · simp only [hp, if_true, List.map_cons, List.map_nil, List.sum_cons, List.sum_nil, Nat.add_zero]
      rw [Nat.add_assoc]
    · simp only [hp, Bool.false_eq_true, if_false, List.map_cons, List.map_nil, List.sum_cons, List.sum_nil, Nat.add_zero]

theorem assemble_eq (ps : List (Bool × List Byte)) :
    Spec.assemble ps = headsL ps (fixedLenL ps) ++ tailsL ps := by
  have h := assemble_heads ps [] (fixedLenL ps)
  have hf : ∀ ps : List (Bool × List Byte), (ps.map fun p => if p.1 then 4 else p.2.length).sum = fixedLenL ps := by
    intro ps
    induction ps with
    | nil => rfl
    | cons p ps ih => rw [List.map_cons, List.sum_cons, ih, fixedLenL]
  have ht : ∀ ps : List (Bool × List Byte), (ps.map fun p => if p.1 then p.2 else []).flatten = tailsL ps := by
    intro ps
    induction ps with
    | nil => rfl
    | cons p ps ih => rw [List.map_cons, List.flatten_cons, ih, tailsL]
  simp only [List.length_nil, List.nil_append, List.map_nil, List.sum_nil, Nat.add_zero] at h
  simp only [Spec.assemble, hf, ht, h]

/-! ## sizes declared by well-formed types -/

mutual
theorem sszSize_spec : (t : Ty) → Spec.wf t = true →
    (Spec.isVariable t = true → t.sszSize = 0) ∧
    (Spec.isVariable t = false → t.sszSize = Spec.fixedSize t ∧ 0 < t.sszSize)
  | .uint64, _ => by simp [Spec.isVariable, Ty.sszSize, Spec.fixedSize]
  | .boolean, _ => by simp [Spec.isVariable, Ty.sszSize, Spec.fixedSize]
  | .bytes n, h => by
    simp only [Spec.wf, decide_eq_true_eq] at h
    simp [Spec.isVariable, Ty.sszSize, Spec.fixedSize, h]
  | .bitvector n, h => by
    simp only [Spec.wf, decide_eq_true_eq] at h
    simp only [Spec.isVariable, Ty.sszSize, Spec.fixedSize, BITS_PER_BYTE]
    refine ⟨by simp, fun _ => ⟨by omega, by omega⟩⟩
  | .bitlist _, _ => by simp [Spec.isVariable, Ty.sszSize]
  | .vector t n, h => by
    simp only [Spec.wf, Bool.and_eq_true, Bool.not_eq_true', decide_eq_true_eq] at h
    have ih := (sszSize_spec t h.1.1).2 h.1.2
    simp only [Spec.isVariable, Ty.sszSize, Spec.fixedSize, h.1.2, Bool.false_eq_true, false_implies, true_and,
      forall_true_left, ← ih.1]
    exact Nat.mul_pos h.2 ih.2
  | .listF _ _, _ => by simp [Spec.isVariable, Ty.sszSize]
  | .listV _ _, _ => by simp [Spec.isVariable, Ty.sszSize]
  | .container s e ps, h => by
    simp only [Spec.wf, Bool.and_eq_true, decide_eq_true_eq] at h
    simp only [Spec.isVariable, Ty.sszSize, Spec.fixedSize]
    obtain ⟨⟨⟨_, h1⟩, _⟩, h2⟩ := h
    constructor
    · intro hv; rw [h2, if_pos hv]
    · intro hv; rw [h2, hv]; simp [h1]
end

theorem sszSize_eq_zero_iff {t : Ty} (h : Spec.wf t = true) : t.sszSize = 0 ↔ Spec.isVariable t = true := by
  obtain ⟨h1, h2⟩ := sszSize_spec t h
  cases hv : Spec.isVariable t
  · have := h2 hv; simp; omega
  · simp [h1 hv]

theorem computeFixedLength_eq (ps : Parts) (hwf : Spec.wfParts ps = true) (r : BitVec 32) :
    computeFixedLength ps r = r + BitVec.ofNat 32 (Spec.fixedSizeParts ps) := by
  match ps with
  | .nil => simp [computeFixedLength, Spec.fixedSizeParts]
  | .cons _ t ps =>
    simp only [Spec.wfParts, Bool.and_eq_true] at hwf
    rw [computeFixedLength, computeFixedLength_eq ps hwf.2, Spec.fixedSizeParts]
    obtain ⟨h1, h2⟩ := sszSize_spec t hwf.1
    cases hv : Spec.isVariable t
    · have := h2 hv
      rw [if_neg (by omega), this.1]
      simp [BitVec.ofNat_add, BitVec.add_assoc]
    · rw [if_pos (h1 hv)]
      simp [BitVec.ofNat_add, BitVec.add_assoc]

/-! ## normal form of serialization -/

/-- The parts of a container, serialized and flagged. -/
def partsL : (ps : Parts) → ps.denote → List (Bool × List Byte)
  | .nil, _ => []
  | .cons _ t ps, v => (decide (t.sszSize = 0), serializeBytes t v.1) :: partsL ps v.2

theorem serializeParts_eq (ps : Parts) (v : ps.denote) (off : Nat) (ret var : List Byte) :
    serializeParts ps v (BitVec.ofNat 32 off) ret var =
      ret ++ (headsL (partsL ps v) off ++ (var ++ tailsL (partsL ps v))) := by
  match ps with
  | .nil => simp [serializeParts, partsL, headsL, tailsL]
  | .cons _ t ps =>
    rw [serializeParts]
    simp only [partsL, headsL, tailsL]
    by_cases ht : t.sszSize = 0
    · rw [if_pos ht, ← BitVec.ofNat_add, serializeParts_eq ps, bytes4_ofNat]
      simp [ht]
    · rw [if_neg ht, serializeParts_eq ps]
      simp [ht]

theorem foldl_append_eq {α : Type} (f : α → List Byte) (l : List α) (acc : List Byte) :
    l.foldl (fun ret p => ret ++ f p) acc = acc ++ l.flatMap f := by
  induction l generalizing acc with
  | nil => simp
  | cons a l ih => simp [ih, List.append_assoc]

theorem foldl_listV_eq {α : Type} (f : α → List Byte) (l : List α) (o r : List Byte) (off : Nat) :
    let s := l.foldl
      (fun (s : List Byte × List Byte × BitVec 32) p =>
        (s.1 ++ bytes4 s.2.2, s.2.1 ++ f p, s.2.2 + BitVec.ofNat 32 (f p).length)) (o, r, BitVec.ofNat 32 off)
    s.1 = o ++ headsL (l.map fun x => (true, f x)) off ∧ s.2.1 = r ++ tailsL (l.map fun x => (true, f x)) := by
  induction l generalizing o r off with
  | nil => simp [headsL, tailsL]
  | cons a l ih =>
    simp only [List.foldl_cons, List.map_cons, headsL, tailsL, if_true]
    rw [← BitVec.ofNat_add, bytes4_ofNat]
    obtain ⟨h1, h2⟩ := ih (o ++ leBytes 4 off) (r ++ f a) (off + (f a).length)
    rw [h1, h2]
    simp

theorem fixedLenL_map_true {α : Type} (f : α → List Byte) (l : List α) :
    fixedLenL (l.map fun x => (true, f x)) = l.length * 4 := by
  induction l with
  | nil => rfl
  | cons a l ih => simp only [List.map_cons, fixedLenL, if_true, ih, List.length_cons]; omega

theorem headsL_map_false {α : Type} (f : α → List Byte) (l : List α) (off : Nat) :
    headsL (l.map fun x => (false, f x)) off = l.flatMap f := by
  induction l generalizing off with
  | nil => rfl
  | cons a l ih => simp only [List.map_cons, headsL, Bool.false_eq_true, if_false, ih, List.flatMap_cons]

theorem tailsL_map_false {α : Type} (f : α → List Byte) (l : List α) :
    tailsL (l.map fun x => (false, f x)) = [] := by
  induction l with
  | nil => rfl
  | cons a l ih => simp [tailsL, ih]

theorem tailsL_map_true {α : Type} (f : α → List Byte) (l : List α) :
    tailsL (l.map fun x => (true, f x)) = l.flatMap f := by
  induction l with
  | nil => rfl
  | cons a l ih => simp [tailsL, ih]

theorem serializeBytes_vector (t : Ty) (n : Nat) (v : (Ty.vector t n).denote) :
    serializeBytes (.vector t n) v = v.1.flatMap (serializeBytes t) := by
  rw [serializeBytes, foldl_append_eq, List.nil_append]

theorem serializeBytes_listF (t : Ty) (n : Nat) (v : (Ty.listF t n).denote) :
    serializeBytes (.listF t n) v = List.flatMap (serializeBytes t) v := by
  rw [serializeBytes, foldl_append_eq, List.nil_append]

theorem serializeBytes_listV (t : Ty) (n : Nat) (v : (Ty.listV t n).denote) :
    serializeBytes (.listV t n) v =
      headsL (List.map (fun x => (true, serializeBytes t x)) v) (List.length v * 4) ++ List.flatMap (serializeBytes t) v := by
  rw [serializeBytes]
  obtain ⟨h1, h2⟩ := foldl_listV_eq (serializeBytes t) v [] [] (List.length v * 4)
  simp only at h1 h2 ⊢
  rw [h1, h2, tailsL_map_true]
  simp

/-! ## lengths -/

mutual
theorem length_serializeBytes : (t : Ty) → Spec.wf t = true → Spec.isVariable t = false → (v : t.denote) →
    (serializeBytes t v).length = Spec.fixedSize t
  | .uint64, _, _, v => by simp [serializeBytes, length_leBytes, Spec.fixedSize]
  | .boolean, _, _, v => by simp [serializeBytes, length_leBytes, Spec.fixedSize]
  | .bytes n, _, _, v => by simpa [serializeBytes, Spec.fixedSize] using v.2
  | .bitvector n, _, _, v => by rw [serializeBytes, length_bitvectorSerialize, Spec.fixedSize]
  | .bitlist _, _, h, v => by simp [Spec.isVariable] at h
  | .vector t n, hw, hv, v => by
    simp only [Spec.wf, Bool.and_eq_true, Bool.not_eq_true', decide_eq_true_eq] at hw
    have ih := length_serializeBytes t hw.1.1 hw.1.2
    rw [serializeBytes_vector, Spec.fixedSize]
    obtain ⟨l, hl⟩ := v
    simp only [List.length_flatMap]
    rw [List.map_congr_left (fun x _ => ih x), List.map_const', List.sum_replicate_nat, hl]
  | .listF _ _, _, h, v => by simp [Spec.isVariable] at h
  | .listV _ _, _, h, v => by simp [Spec.isVariable] at h
  | .container s e ps, hw, hv, v => by
    simp only [Spec.wf, Bool.and_eq_true, decide_eq_true_eq] at hw
    simp only [Spec.isVariable] at hv
    obtain ⟨⟨⟨hw, h1⟩, _⟩, h2⟩ := hw
    rw [serializeBytes, computeFixedLength_eq ps hw, BitVec.zero_add, serializeParts_eq, Spec.fixedSize]
    simp only [List.nil_append, List.length_append, length_headsL]
    have := fixedLenL_partsL ps hw v
    have ht := tailsL_partsL_nil ps hw hv v
    rw [this, ht]; rfl

theorem fixedLenL_partsL : (ps : Parts) → Spec.wfParts ps = true → (v : ps.denote) →
    fixedLenL (partsL ps v) = Spec.fixedSizeParts ps
  | .nil, _, _ => rfl
  | .cons _ t ps, hw, v => by
    simp only [Spec.wfParts, Bool.and_eq_true] at hw
    rw [partsL, fixedLenL, Spec.fixedSizeParts, fixedLenL_partsL ps hw.2]
    congr 1
    obtain ⟨h1, h2⟩ := sszSize_spec t hw.1
    cases hv : Spec.isVariable t
    · have := h2 hv
      have hne : ¬ t.sszSize = 0 := by omega
      simp [hne, length_serializeBytes t hw.1 hv]
    · simp [h1 hv]

theorem tailsL_partsL_nil : (ps : Parts) → Spec.wfParts ps = true → Spec.anyVariable ps = false → (v : ps.denote) →
    tailsL (partsL ps v) = []
  | .nil, _, _, _ => rfl
  | .cons _ t ps, hw, hv, v => by
    simp only [Spec.wfParts, Bool.and_eq_true] at hw
    simp only [Spec.anyVariable, Bool.or_eq_false_iff] at hv
    have h2 := (sszSize_spec t hw.1).2 hv.1
    have hne : ¬ t.sszSize = 0 := by omega
    simp [partsL, tailsL, hne, tailsL_partsL_nil ps hw.2 hv.2]
end

theorem serializeBytes_container (s : Nat) (e : Bool) (ps : Parts) (hw : Spec.wf (.container s e ps) = true)
    (v : (Ty.container s e ps).denote) :
    serializeBytes (.container s e ps) v = headsL (partsL ps v) (Spec.fixedSizeParts ps) ++ tailsL (partsL ps v) := by
  simp only [Spec.wf, Bool.and_eq_true, decide_eq_true_eq] at hw
  obtain ⟨⟨⟨hw, h1⟩, _⟩, h2⟩ := hw
  rw [serializeBytes, computeFixedLength_eq ps hw, BitVec.zero_add, serializeParts_eq]
  simp

/-! ## agreement with the specification -/

mutual
theorem serializeBytes_eq_encode : (t : Ty) → Spec.wf t = true → (v : t.denote) →
    serializeBytes t v = Spec.encode t v
  | .uint64, _, v => by rw [serializeBytes, leBytes_eq_uintLE, Spec.encode]
  | .boolean, _, v => by cases v <;> rfl
  | .bytes n, _, v => by rw [serializeBytes, Spec.encode]
  | .bitvector n, _, v => by rw [serializeBytes, bitvectorSerialize_eq_spec n v.1 v.2, Spec.encode]
  | .bitlist _, _, v => by rw [serializeBytes, bitlistSerialize_eq_spec, Spec.encode]
  | .vector t n, hw, v => by
    simp only [Spec.wf, Bool.and_eq_true, Bool.not_eq_true', decide_eq_true_eq] at hw
    have ih : serializeBytes t = Spec.encode t := funext (serializeBytes_eq_encode t hw.1.1)
    rw [serializeBytes_vector, Spec.encode, assemble_eq, hw.1.2, headsL_map_false, tailsL_map_false, List.append_nil, ih]
  | .listF t n, hw, v => by
    simp only [Spec.wf, Bool.and_eq_true, Bool.not_eq_true', decide_eq_true_eq] at hw
    have ih : serializeBytes t = Spec.encode t := funext (serializeBytes_eq_encode t hw.1)
    rw [serializeBytes_listF, Spec.encode, assemble_eq, hw.2, headsL_map_false, tailsL_map_false, List.append_nil, ih]
  | .listV t n, hw, v => by
    simp only [Spec.wf, Bool.and_eq_true, Bool.not_eq_true', decide_eq_true_eq] at hw
    have ih : serializeBytes t = Spec.encode t := funext (serializeBytes_eq_encode t hw.1)
    rw [serializeBytes_listV, Spec.encode, assemble_eq, hw.2, fixedLenL_map_true, tailsL_map_true, ih]
  | .container s e ps, hw, v => by
    rw [serializeBytes_container s e ps hw, Spec.encode, assemble_eq]
    simp only [Spec.wf, Bool.and_eq_true, decide_eq_true_eq] at hw
    rw [← partsL_eq_encodeParts ps hw.1.1.1, fixedLenL_partsL ps hw.1.1.1]

theorem partsL_eq_encodeParts : (ps : Parts) → Spec.wfParts ps = true → (v : ps.denote) →
    partsL ps v = Spec.encodeParts ps v
  | .nil, _, _ => rfl
  | .cons _ t ps, hw, v => by
    simp only [Spec.wfParts, Bool.and_eq_true] at hw
    rw [partsL, Spec.encodeParts, partsL_eq_encodeParts ps hw.2, serializeBytes_eq_encode t hw.1]
    congr 2
    rw [Bool.eq_iff_iff, decide_eq_true_eq, sszSize_eq_zero_iff hw.1]
end

end Mammon
