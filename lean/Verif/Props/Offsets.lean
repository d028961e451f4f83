import Verif.Proofs.Starts
import Verif.Props.Encoding
/-!
# Properties of the offsets of encodings of any size: C42
-/

namespace Mammon

/-- **C42**, for containers of any size: the variable-size parts lie one behind the other behind the fixed section, and the offsets written are
their positions modulo 2^32. Missing: that the offsets are the positions, which holds exactly under the condition of `C42_container_iff_partial`. -/
theorem C42_container_partial (s : Nat) (e : Bool) (ps : Parts) (hw : Spec.wf (.container s e ps) = true)
    (v : ps.denote) (bs : List Byte) (h : serialize (.container s e ps) v = .ok bs) :
    List.Forall₂ (fun o b => (bs.drop o).take b.length = b)
        (Spec.starts (Spec.fixedSizeParts ps) (Spec.variableEncodings ps v)) (Spec.variableEncodings ps v) ∧
      Spec.offsets ps bs = (Spec.starts (Spec.fixedSizeParts ps) (Spec.variableEncodings ps v)).map (· % 2 ^ 32) ∧
      bs.length = Spec.fixedSizeParts ps + (Spec.variableEncodings ps v).flatten.length := by
  rw [serialize] at h
  split at h
  · cases h
  have h := Out.ok.inj h
  subst h
  have hw' := hw
  simp only [Spec.wf, Bool.and_eq_true] at hw'
  have hfl := fixedLenL_partsL ps hw'.1.1.1 v
  rw [serializeBytes_container s e ps hw, Spec.offsets, Spec.variableEncodings, ← partsL_eq_encodeParts ps hw'.1.1.1]
  refine ⟨?_, ?_, ?_⟩
  · have := starts_slices (headsL (partsL ps v) (Spec.fixedSizeParts ps)) (((partsL ps v).filter (·.1)).map (·.2)) [] []
      (Spec.fixedSizeParts ps) (by rw [length_headsL, hfl]; simp)
    rw [tailsL_filter]
    simpa only [List.nil_append, List.append_nil] using this
  · have := offsets_mod ps hw'.1.1.1 v [] (tailsL (partsL ps v)) (Spec.fixedSizeParts ps)
    simpa only [List.nil_append, List.length_nil] using this
  · rw [List.length_append, length_headsL, hfl, tailsL_filter]

/-- **C42**, for containers of any size: the offsets written are the positions of the parts exactly when every part starts below 2^32. -/
theorem C42_container_iff_partial (s : Nat) (e : Bool) (ps : Parts) (hw : Spec.wf (.container s e ps) = true)
    (v : ps.denote) (bs : List Byte) (h : serialize (.container s e ps) v = .ok bs) :
    Spec.offsets ps bs = Spec.starts (Spec.fixedSizeParts ps) (Spec.variableEncodings ps v) ↔
      ∀ o ∈ Spec.starts (Spec.fixedSizeParts ps) (Spec.variableEncodings ps v), o < 2 ^ 32 := by
  rw [(C42_container_partial s e ps hw v bs h).2.1, map_mod_eq_iff]

example : ∃ bs, serialize (.container 0 false slashingParts) (longSlashing (2 ^ 29)) = .ok bs ∧
    Spec.wf (.container 0 false slashingParts) = true :=
  ⟨_, serialize_of_short (longSlashing_short _), by decide +kernel⟩

example : ∃ bs, serialize (.container 0 false slashingParts) (longSlashing 1) = .ok bs ∧
    Spec.offsets slashingParts bs = [8, 244] ∧
    Spec.starts (Spec.fixedSizeParts slashingParts) (Spec.variableEncodings slashingParts (longSlashing 1)) = [8, 244] :=
  ⟨_, rfl, by decide +kernel, by decide +kernel⟩

/-- **C42**, for lists of variable-size elements of any size: the elements lie one behind the other behind as many 4-byte words as there are
elements, and these words are their positions modulo 2^32. Missing: that the words are the positions, see `C42_list_iff_partial`. -/
theorem C42_list_partial (t : Ty) (n : Nat) (hw : Spec.wf (.listV t n) = true)
    (v : List t.denote) (bs : List Byte) (h : serialize (.listV t n) v = .ok bs) :
    List.Forall₂ (fun o b => (bs.drop o).take b.length = b)
        (Spec.starts (4 * v.length) (v.map (Spec.encode t))) (v.map (Spec.encode t)) ∧
      Spec.leadingOffsets v.length bs = (Spec.starts (4 * v.length) (v.map (Spec.encode t))).map (· % 2 ^ 32) ∧
      bs.length = 4 * v.length + (v.map (Spec.encode t)).flatten.length := by
  rw [serialize] at h
  split at h
  · cases h
  have h := Out.ok.inj h
  subst h
  simp only [Spec.wf, Bool.and_eq_true] at hw
  have he : (fun x => Spec.encode t x) = serializeBytes t := funext fun x => (serializeBytes_eq_encode t hw.1 x).symm
  have he : Spec.encode t = serializeBytes t := he
  rw [serializeBytes_listV, he, Nat.mul_comm 4, Spec.leadingOffsets, List.flatMap_def]
  have hl : (headsL (List.map (fun x => (true, serializeBytes t x)) v) (v.length * 4)).length = v.length * 4 := by
    rw [length_headsL, fixedLenL_map_true]
  refine ⟨?_, ?_, ?_⟩
  · have := starts_slices (headsL (List.map (fun x => (true, serializeBytes t x)) v) (v.length * 4)) (v.map (serializeBytes t)) [] []
      (v.length * 4) (by rw [hl]; rfl)
    simpa only [List.nil_append, List.append_nil] using this
  · have := leading_mod (serializeBytes t) v [] (v.map (serializeBytes t)).flatten (v.length * 4)
    simpa only [List.nil_append, List.length_nil, Nat.zero_add] using this
  · rw [List.length_append, hl]

/-- **C42**, for lists of any size: the words are the positions of the elements exactly when every element starts below 2^32. -/
theorem C42_list_iff_partial (t : Ty) (n : Nat) (hw : Spec.wf (.listV t n) = true)
    (v : List t.denote) (bs : List Byte) (h : serialize (.listV t n) v = .ok bs) :
    Spec.leadingOffsets v.length bs = Spec.starts (4 * v.length) (v.map (Spec.encode t)) ↔
      ∀ o ∈ Spec.starts (4 * v.length) (v.map (Spec.encode t)), o < 2 ^ 32 := by
  rw [(C42_list_partial t n hw v bs h).2.1, map_mod_eq_iff]

example : Spec.wf (.listV (.bitlist 16) 4) = true ∧
    serialize (.listV (.bitlist 16) 4) [[true, false, true], [], List.replicate 9 true] =
      .ok [12#8, 0#8, 0#8, 0#8, 13#8, 0#8, 0#8, 0#8, 14#8, 0#8, 0#8, 0#8, 13#8, 1#8, 255#8, 3#8] ∧
    Spec.starts 12 (([[true, false, true], [], List.replicate 9 true] : List (List Bool)).map (Spec.encode (.bitlist 16))) = [12, 13, 14] := by
  decide +kernel

end Mammon
