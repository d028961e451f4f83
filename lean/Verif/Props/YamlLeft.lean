import Verif.Proofs.YamlLeft
import Verif.Props.Fails
/-!
# What an object holds after decoding a tree returned false: C71
-/

namespace Mammon

open Yaml (Node)
open Spec (Left Fails)

/-- **C71** Decoding a tree returns false and leaves certain contents exactly as specified. -/
theorem C71_left (t : Ty) (ht : Spec.noEmpty t = true) (old w : t.denote) (node : Node) :
    Yaml.decode t old (some node) = .ok (false, w) ↔ Left t old node w := Yaml.decode_left t ht old w node

/-- **C71** for the classes of the repository. -/
theorem C71_classes (t : Ty) (ht : InRepo t) (old w : t.denote) (node : Node) :
    Yaml.decode t old (some node) = .ok (false, w) ↔ Left t old node w := C71_left t ht.noEmpty old w node

/-- **C71** For the trees that make `decode` return false the contents afterwards are determined, for the others there are none. -/
theorem C71_unique (t : Ty) (ht : Spec.noEmpty t = true) (old : t.denote) (node : Node) :
    ((∃ w, Left t old node w) ↔ Fails t node .returnsFalse) ∧ ∀ w w', Left t old node w → Left t old node w' → w = w' := by
  constructor
  · rw [← (C69_fails t ht old node).1]
    simp only [C71_left t ht]
  · intro w w' h h'
    have h1 := (C71_left t ht old w node).2 h
    rw [(C71_left t ht old w' node).2 h'] at h1
    cases h1; rfl

/-- **C71** Only integers are changed by their own failure: an object that is neither an integer nor a container is as before. -/
theorem C71_unchanged (t : Ty) (hu : t ≠ .uint64) (hc : ∀ s e ps, t ≠ .container s e ps) (ht : Spec.noEmpty t = true) (old w : t.denote) (node : Node)
    (h : Yaml.decode t old (some node) = .ok (false, w)) : w = old := by
  have h := (C71_left t ht old w node).1 h
  cases t with
  | uint64 => exact absurd rfl hu
  | container s e ps => exact absurd rfl (hc s e ps)
  | _ => rw [Left] at h; exact h.2

/-- **C71** An object can be changed by a decode that returns false: a number with a unit is stored, a number that is too large becomes the greatest
integer, any other word becomes 0; only a negative number changes nothing. -/
theorem C71_overwrites (old : BitVec 64) :
    Yaml.decode .uint64 old (some (.scalar (Yaml.chars "32 Gwei"))) = .ok (false, 32#64) ∧
    Yaml.decode .uint64 old (some (.scalar (Yaml.chars "18446744073709551616"))) = .ok (false, 0xffffffffffffffff#64) ∧
    Yaml.decode .uint64 old (some (.scalar (Yaml.chars "many"))) = .ok (false, 0#64) ∧
    Yaml.decode .uint64 old (some (.scalar (Yaml.chars "-1"))) = .ok (false, old) := by
  refine ⟨?_, ?_, ?_, ?_⟩
  · show Out.ok (Yaml.readU64 (Yaml.chars "32 Gwei") old) = _
    rw [Yaml.readU64_unsigned, if_neg (by decide)]
    exact congrArg Out.ok (by decide +kernel)
  · show Out.ok (Yaml.readU64 (Yaml.chars "18446744073709551616") old) = _
    rw [Yaml.readU64_unsigned, if_neg (by decide)]
    exact congrArg Out.ok (by decide +kernel)
  · show Out.ok (Yaml.readU64 (Yaml.chars "many") old) = _
    rw [Yaml.readU64_unsigned, if_neg (by decide)]
    exact congrArg Out.ok (by decide +kernel)
  · show Out.ok (Yaml.readU64 (Yaml.chars "-1") old) = _
    rw [Yaml.readU64_unsigned, if_pos (by decide)]

/- A checkpoint whose root is a sequence: the epoch is the new one, the root the old one. -/
example : Spec.noEmpty Objects.checkpoint = true ∧
    Left Objects.checkpoint (Samples.checkpoint 3)
      (.map [(.scalar (Yaml.chars "epoch"), .scalar (Yaml.chars "7")), (.scalar (Yaml.chars "root"), .seq [])]) (7#64, Samples.root 3, ()) := by
  have h : Spec.noEmpty Objects.checkpoint = true := by decide
  exact ⟨h, (C71_left _ h _ _ _).1 rfl⟩

/- A list that is given as a scalar keeps its elements. -/
example : Spec.noEmpty (.listF Objects.checkpoint 3) = true ∧
    Yaml.decode (.listF Objects.checkpoint 3) [Samples.checkpoint 3] (some (.scalar [])) = .ok (false, [Samples.checkpoint 3]) := ⟨by decide, rfl⟩

end Mammon
