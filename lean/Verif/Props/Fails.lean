import Verif.Proofs.Fails
import Verif.Props.Accepts
/-!
# Trees that are not decoded: C69
-/

namespace Mammon

open Yaml (Node)
open Spec (Fails Failure)

/-- **C69** Decoding any tree returns false, throws a certain exception or is undefined if and only if `Spec.Fails` says so. No assumption on the tree. -/
theorem C69_fails (t : Ty) (ht : Spec.noEmpty t = true) (old : t.denote) (node : Node) :
    ((∃ w, Yaml.decode t old (some node) = .ok (false, w)) ↔ Fails t node .returnsFalse) ∧
    (∀ e, Yaml.decode t old (some node) = .throws e ↔ Fails t node (.throws e)) ∧
    (Yaml.decode t old (some node) = .ub ↔ Fails t node .undefined) := by
  have h := Yaml.decode_fails t ht old node
  rcases hd : Yaml.decode t old (some node) with ⟨_ | _, w⟩ | e | _ <;> rw [hd] at h
  all_goals
    refine ⟨(?_ : _ ↔ _).trans (h _), fun e => (?_ : _ ↔ _).trans (h _), (?_ : _ ↔ _).trans (h _)⟩ <;> simp [Yaml.failure]

/-- **C69** for the classes of the repository. -/
theorem C69_classes (t : Ty) (ht : InRepo t) (old : t.denote) (node : Node) :
    ((∃ w, Yaml.decode t old (some node) = .ok (false, w)) ↔ Fails t node .returnsFalse) ∧
    (∀ e, Yaml.decode t old (some node) = .throws e ↔ Fails t node (.throws e)) ∧
    (Yaml.decode t old (some node) = .ub ↔ Fails t node .undefined) := C69_fails t ht.noEmpty old node

/-- **C69** A tree fails in one way at most, and if it fails in none it is decoded to a value. -/
theorem C69_complete (t : Ty) (ht : Spec.noEmpty t = true) (node : Node) :
    (∀ f g, Fails t node f → Fails t node g → f = g) ∧
    ((∀ f, ¬ Fails t node f) ↔ ∃ v, ∀ old, Yaml.decode t old (some node) = .ok (true, v)) := by
  have h := Yaml.decode_fails t ht t.dflt node
  refine ⟨fun f g hf hg => ?_, fun hno => ?_, fun ⟨v, hv⟩ f hf => ?_⟩
  · have h1 := (h f).2 hf
    rw [(h g).2 hg] at h1
    cases h1; rfl
  · rcases hd : Yaml.decode t t.dflt (some node) with ⟨_ | _, v⟩ | e | _
    · exact absurd ((h _).1 (by rw [hd]; rfl)) (hno .returnsFalse)
    · exact ⟨v, fun old => ((C47_independent t t.dflt old (some node)).1 v).1 hd⟩
    · exact absurd ((h _).1 (by rw [hd]; rfl)) (hno (.throws e))
    · exact absurd ((h _).1 (by rw [hd]; rfl)) (hno .undefined)
  · have h1 := (h f).2 hf
    rw [hv] at h1
    cases h1

-- a checkpoint without a root; with a number for the root; with a word for the epoch; with a high character in the root
example : Spec.noEmpty Objects.checkpoint = true ∧
    Fails Objects.checkpoint (.map [(.scalar (Yaml.chars "epoch"), .scalar (Yaml.chars "7"))]) (.throws .yamlInvalidNode) ∧
    Fails Objects.checkpoint (.map [(.scalar (Yaml.chars "epoch"), .scalar (Yaml.chars "7")), (.scalar (Yaml.chars "root"), .scalar (Yaml.chars "7"))])
      (.throws .invalidArgument) ∧
    Fails Objects.checkpoint (.map [(.scalar (Yaml.chars "epoch"), .scalar (Yaml.chars "x"))]) .returnsFalse ∧
    Fails Objects.checkpoint (.map [(.scalar (Yaml.chars "epoch"), .scalar (Yaml.chars "7")), (.scalar (Yaml.chars "root"), .scalar [0x30#8, 0x78#8, 0x80#8])])
      .undefined ∧
    Fails (.listF Objects.checkpoint 3) (.seq [.map [(.scalar (Yaml.chars "epoch"), .scalar (Yaml.chars "x"))]]) (.throws .yamlBadConversion) := by
  have h : Spec.noEmpty Objects.checkpoint = true := by decide
  refine ⟨h, (Yaml.decode_fails _ h Objects.checkpoint.dflt _ _).1 ?_, (Yaml.decode_fails _ h Objects.checkpoint.dflt _ _).1 ?_,
    (Yaml.decode_fails _ h Objects.checkpoint.dflt _ _).1 ?_, (Yaml.decode_fails _ h Objects.checkpoint.dflt _ _).1 ?_,
    (Yaml.decode_fails (.listF Objects.checkpoint 3) h [] _ _).1 ?_⟩ <;> decide +kernel

end Mammon
