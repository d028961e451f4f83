import Verif.Proofs.Leftover
import Verif.Props.Decode
/-!
# What a failed decode leaves in the object: the rest of C45
-/

namespace Mammon

/-- **C45**, exactly what happens instead: for every type, every byte string and every previous contents, `deserialize` returns true with the value of the
decoder over unbounded numbers, or false and the object then has the contents `Spec.leftover` says (the parts looked at before the first error have their new
values, the others the old ones; a list has the elements before the first error), or is undefined. Missing: the object should be unchanged, see `C45_modified`. -/
theorem C45_leftover_partial (t : Ty) (hw : Spec.wf t = true) (old : t.denote) (bs : List Byte) :
    deserialize t old bs =
      match Spec.decode t bs with
      | .accepted v => .ok (true, v)
      | .rejected => .ok (false, Spec.leftover t old bs)
      | .undefined => .ub := by
  have h := deserialize_decode t hw old bs
  cases hd : Spec.decode t bs with
  | accepted v => rw [hd] at h; exact h
  | rejected =>
    rw [hd] at h
    obtain ⟨w, hw'⟩ := h
    rw [hw', deserialize_left t hw old bs w hw']
  | undefined => rw [hd] at h; exact h

set_option maxRecDepth 100000 in
-- eight of the sixteen bytes of a fork: the two versions are new, the epoch is old
example : Spec.wf Objects.fork = true ∧ Spec.decode Objects.fork [9#8, 9#8, 9#8, 9#8, 8#8, 8#8, 8#8, 8#8] = .rejected ∧
    Spec.leftover Objects.fork Samples.fork [9#8, 9#8, 9#8, 9#8, 8#8, 8#8, 8#8, 8#8] =
      (⟨[9#8, 9#8, 9#8, 9#8], rfl⟩, ⟨[8#8, 8#8, 8#8, 8#8], rfl⟩, Samples.fork.2.2) := ⟨by decide +kernel, rfl, rfl⟩

set_option maxRecDepth 100000 in
-- a list of Booleans: the elements before the bad one
example : Spec.leftover (.listF .boolean 8) [true, true, true, true, true] [1#8, 0#8, 2#8, 1#8] = [true, false] := rfl

set_option maxRecDepth 100000 in
-- two lists in a container: the second offset is too small, found after the list in front was opened but before it was decoded
example : Spec.leftover (.container 8 true (.cons "a" (.listF .boolean 8) (.cons "b" (.listF .boolean 8) .nil))) ([true], [false], ())
    [8#8, 0#8, 0#8, 0#8, 7#8, 0#8, 0#8, 0#8, 1#8] = ([true], [false], ()) := rfl

set_option maxRecDepth 100000 in
-- the second list is bad: the first one is new
example : Spec.leftover (.container 8 true (.cons "a" (.listF .boolean 8) (.cons "b" (.listF .boolean 8) .nil))) ([true], [false], ())
    [8#8, 0#8, 0#8, 0#8, 9#8, 0#8, 0#8, 0#8, 0#8, 1#8, 2#8] = ([false], [true], ()) := rfl

/-- **C45**, for every class of the repository. Missing: as in `C45_leftover_partial`. -/
theorem C45_classes_partial (t : Ty) (ht : InRepo t) (old : t.denote) (bs : List Byte) :
    deserialize t old bs =
      match Spec.decode t bs with
      | .accepted v => .ok (true, v)
      | .rejected => .ok (false, Spec.leftover t old bs)
      | .undefined => .ub := C45_leftover_partial t ht.wf old bs

example : InRepo (Objects.attestation mainnet) := inRepo_attestation

/-- What is left of the parts of a container if the decoder stops at the first thing it looks at. -/
theorem leftoverParts_first : (ps : Parts) → (old : ps.denote) → (bs : List Byte) → (i k : Nat) → (d : Spec.Verdict Unit) → d ≠ .accepted () →
    (E : List (Option Nat × Spec.Verdict Unit)) → Spec.leftoverParts ps old bs i k ((none, d) :: E) = old
  | .nil, _, _, _, _, _, _, _ => by simp [Spec.leftoverParts]
  | .cons _ t ps, old, bs, i, k, d, hd, E => by
    rw [Spec.leftoverParts, leftoverParts_first ps old.2 bs _ (k + 1) d hd]
    cases d with
    | accepted u => exact absurd rfl hd
    | rejected => simp [Spec.status]
    | undefined => simp [Spec.status]

/-- **C45**, what else holds: a container is unchanged if the input is too short for its first part or, the first part being of variable size, its first offset
is not the length of the fixed section. Missing: other errors, see `C45_modified`. -/
theorem C45_first_partial (s : Nat) (e : Bool) (n : String) (t : Ty) (ps : Parts) (hw : Spec.wf (.container s e (.cons n t ps)) = true)
    (old : (Ty.container s e (.cons n t ps)).denote) (bs : List Byte)
    (h : if Spec.isVariable t then bs.length < 4 ∨ Spec.readOffset bs 0 ≠ Spec.fixedSizeParts (.cons n t ps) else bs.length < Spec.fixedSize t) :
    deserialize (.container s e (.cons n t ps)) old bs = .ok (false, old) := by
  rw [C45_leftover_partial _ hw, Spec.decode, Spec.leftover, Spec.walk, Spec.steps]
  cases hv : Spec.isVariable t with
  | true =>
    simp only [hv, if_true] at h
    have hc : ¬(0 + 4 ≤ bs.length ∧ Spec.readOffset bs 0 ≤ bs.length ∧
        Spec.offsetOk (Spec.fixedSizeParts (.cons n t ps)) none (Spec.readOffset bs 0) = true) := by
      simp only [Spec.offsetOk, beq_iff_eq]
      omega
    simp only [if_true, Option.map_none, if_neg hc, Spec.Verdict.andThen]
    rw [leftoverParts_first _ _ _ _ _ _ (by simp)]
  | false =>
    simp only [hv, Bool.false_eq_true, if_false] at h
    have hc : ¬(0 + Spec.fixedSize t ≤ bs.length) := by omega
    simp only [Bool.false_eq_true, if_false, if_neg hc, Spec.Verdict.andThen]
    rw [leftoverParts_first _ _ _ _ _ _ (by simp)]

-- an attestation with a wrong offset, and three bytes of a fork
example : Spec.wf (Objects.attestation mainnet) = true ∧ Spec.readOffset [227#8, 0#8, 0#8, 0#8] 0 ≠ 228 ∧ Spec.wf Objects.fork = true := by decide +kernel

end Mammon
