import Verif.Model.Source
import Verif.Spec.Members
/-!
# The lists of members of the classes: C50, C54
-/

namespace Mammon

open Source

deriving instance DecidableEq for Ty, Parts

/-- **C50** Whichever operation looks at a class - serialization, deserialization, hashing, the two YAML conversions, a defaulted comparison - through its
own list of members, and through those of the classes of the members: it sees the type the other theorems are about. -/
theorem C50_same_type : ∀ op ∈ [Op.serialize, .deserialize, .hashTree, .encode, .decode, .equality], ∀ p ∈ [mainnet, minimal],
    ∀ x ∈ Objects.all p, classOf op p x.1 = some x.2 := by decide +kernel

example : Op.deserialize ∈ [Op.serialize, .deserialize, .hashTree, .encode, .decode, .equality] ∧
    ("BeaconState", Objects.beaconState minimal) ∈ Objects.all minimal := by decide +kernel

/-- **C50** Every class is covered. -/
theorem C50_all_classes (p : Preset) : (Objects.all p).map (·.1) ⊆ Source.all.map (·.name) ∧
    Source.all.map (·.name) ⊆ (Objects.all p).map (·.1) := by
  have h : (Objects.all p).map (·.1) = (Objects.all mainnet).map (·.1) := rfl
  rw [h]
  decide +kernel

/-- **C50** In every class each of the five lists names all data members, in the order of their declaration, and no member is declared
twice: no operation leaves out, repeats or exchanges a member. -/
theorem C50_all_members : ∀ c ∈ Source.all, (c.members.map (·.1)).Nodup ∧ c.serialize = c.members.map (·.1) ∧
    c.deserialize = c.members.map (·.1) ∧ c.hashTree = c.members.map (·.1) ∧ c.encode.map (·.2) = c.members.map (·.1) ∧
    c.decode.map (·.2) = c.members.map (·.1) := by decide +kernel

/-- **C50** The key of a member in YAML is its name, without the underscore at the end of the names of private members; `encode_` and `decode_`
use the same keys, and no key twice. -/
theorem C50_keys : ∀ c ∈ Source.all, c.encode = c.decode ∧ (c.encode.map (·.1)).Nodup ∧
    ∀ x ∈ c.encode, x.2 = x.1 ∨ x.2.toList = x.1.toList ++ ['_'] := by decide +kernel

example : Source.beaconBlock ∈ Source.all ∧ ("body", "body_") ∈ Source.beaconBlock.encode := by decide +kernel

/-- The part at the first place of a name is the member of this name. -/
theorem nthPart_member : (ps : Parts) → (n : String) → (v : ps.denote) →
    ((partNames ps).findIdx? (· == n)).bind (fun i => nthPart ps i v) = Spec.memberOfParts ps n v
  | .nil, _, _ => rfl
  | .cons m t ps, n, v => by
    by_cases h : m = n
    · simp [partNames, List.findIdx?_cons, h, nthPart, Spec.memberOfParts]
    · have ih := nthPart_member ps n v.2
      simp only [partNames, List.findIdx?_cons, beq_iff_eq, h, if_false, Spec.memberOfParts, ← ih]
      cases (partNames ps).findIdx? (· == n) <;> rfl

/-- A name among the names of the parts has a member. -/
theorem member_isSome : (ps : Parts) → (n : String) → (v : ps.denote) → ((partNames ps).findIdx? (· == n)).isSome →
    (Spec.memberOfParts ps n v).isSome
  | .nil, _, _, h => by simp [partNames] at h
  | .cons m t ps, n, v, h => by
    by_cases e : m = n
    · simp [Spec.memberOfParts, e]
    · simp only [Spec.memberOfParts, e, if_false]
      refine member_isSome ps n v.2 ?_
      simpa [partNames, List.findIdx?_cons, e] using h

/-- The names of the members of an object. -/
def memberNames : Ty → List String
  | .container _ _ ps => partNames ps
  | _ => []

/-- **C54** Every accessor of every class returns the member it is named after, of every object: `x.slot()` is the slot of `x`, not
another member of the same type. -/
theorem C54_getters (p : Preset) : ∀ x ∈ Objects.all p, ∀ c ∈ Source.all, c.name = x.1 → ∀ g ∈ c.getters, ∀ v : x.2.denote,
    c.get g.1 ⟨x.2, v⟩ = Spec.member ⟨x.2, v⟩ g.1 ∧ (Spec.member ⟨x.2, v⟩ g.1).isSome := by
  have names : (Objects.all p).map (fun x => (x.1, memberNames x.2)) = (Objects.all mainnet).map (fun x => (x.1, memberNames x.2)) := rfl
  have table : ∀ x ∈ (Objects.all mainnet).map (fun x => (x.1, memberNames x.2)), ∀ c ∈ Source.all, c.name = x.1 → ∀ g ∈ c.getters,
      ((c.getters.find? fun h => h.1 == g.1).bind fun h => c.members.findIdx? fun m => m.1 == h.2) = x.2.findIdx? (· == g.1) ∧
      (x.2.findIdx? (· == g.1)).isSome := by decide +kernel
  intro x hx c hc hn g hg v
  obtain ⟨h1, h2⟩ := table (x.1, memberNames x.2) (names ▸ List.mem_map_of_mem hx) c hc hn g hg
  obtain ⟨n, t⟩ := x
  cases t with
  | container k s ps =>
    refine ⟨?_, member_isSome ps g.1 v h2⟩
    simp only [memberNames] at h1
    simp only [Spec.member, ← nthPart_member, ← h1, ClassDecl.get]
    cases c.getters.find? (fun h => h.1 == g.1) <;> rfl
  | _ => simp [memberNames] at h2

example : ("BeaconBlock", Objects.beaconBlock mainnet) ∈ Objects.all mainnet ∧ Source.beaconBlock ∈ Source.all ∧
    ("state_root", "state_root_") ∈ Source.beaconBlock.getters := by decide +kernel

/-- **C54** What the member of an object is named after is the key of YAML: an accessor and the key of the same name stand for the same data
member. Every private data member (with a name ending in an underscore) has exactly one accessor; no accessor is declared twice, and the
accessors return data members. -/
theorem C54_all_members : ∀ c ∈ Source.all, (∀ g ∈ c.getters, g ∈ c.encode) ∧ (c.getters.map (·.1)).Nodup ∧ (c.getters.map (·.2)).Nodup ∧
    (∀ m ∈ c.members, m.1 ∈ c.getters.map (·.2) ↔ m.1.toList.getLast? = some '_') := by decide +kernel

example : Source.beaconState ∈ Source.all ∧ Source.beaconState.getters.length = 21 := by decide +kernel

end Mammon
