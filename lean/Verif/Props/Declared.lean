import Verif.Proofs.CppCheck
import Verif.Proofs.CppConstants
import Verif.Props.Source
/-!
# The text of the declarations (C74)

The classes, the names of types and the constants that the other theorems are about are what reading the text of the C++ files gives.
-/

namespace Mammon.Cpp
open Source

/-- **C74** Reading the headers and the two files with definitions gives the declarations of the model, all of them and nothing else, in this order. -/
theorem C74_classes : classDecls files = some Source.all := classes_check

/-- **C74** The names of basic types in the text are those of the model. -/
theorem C74_names : (aliases (Nasm.codes Text.slot) (Nasm.codes Text.bytes)).map (·.map fun x => (text x.1, x.2)) = some Source.aliases := by
  rw [aliases_check]
  kernel_refl

/-- The constants that a file declares. -/
def declared (file : List String) : Option (List Config.Decl) := constants (Nasm.codes Text.slot) (Nasm.codes Text.bytes) (Nasm.codes file)

/-- **C74** The constants in the text are those of the model. -/
theorem C74_constants : declared Text.mainnet = some Config.mainnetDecls ∧ declared Text.minimal = some Config.minimalDecls ∧
    declared Text.constants = some Config.constantDecls ∧ declared Text.ssz = some Config.sszDecls := by
  refine ⟨?_, ?_, ?_, ?_⟩ <;> rw [declared]
  · rw [constants_eq mainnet_read, mainnet_check]
  · rw [constants_eq minimal_read, minimal_check]
  · rw [constants_eq constants_read, constants_check]
  · rw [constants_eq ssz_read, ssz_check]

/-- The values of constant expressions, given the constants: what the compiler computes. -/
def valueIn (ds : List Config.Decl) (e : CExpr) : Option Nat :=
  match Config.eval ds e with
  | .ok (_, n) => some n
  | _ => none

theorem resolve_check : ∀ minimal : Bool, ∀ op ∈ [Op.serialize, .deserialize, .hashTree, .encode, .decode, .equality],
    ∀ x ∈ Objects.all (if minimal then Mammon.minimal else mainnet),
    resolve Source.all Source.aliases (valueIn (Config.build minimal)) op 8 x.1 = some x.2 := by decide +kernel

/-- **C74** From the text alone: whichever operation looks at a class that the text declares, through the names that the text declares and the constants
of one of the two configurations, it sees the type that the other theorems are about. -/
theorem C74_types {cs : List ClassDecl} (hcs : classDecls files = some cs) {names : List (Nat × Ty)}
    (hn : aliases (Nasm.codes Text.slot) (Nasm.codes Text.bytes) = some names) (minimal : Bool) {a b c : List Config.Decl}
    (ha : declared (if minimal then Text.minimal else Text.mainnet) = some a) (hb : declared Text.constants = some b) (hc : declared Text.ssz = some c) :
    ∀ op ∈ [Op.serialize, .deserialize, .hashTree, .encode, .decode, .equality], ∀ x ∈ Objects.all (if minimal then Mammon.minimal else mainnet),
    resolve cs (names.map fun x => (text x.1, x.2)) (valueIn (a ++ b ++ c)) op 8 x.1 = some x.2 := by
  have h1 := C74_names
  rw [hn, Option.map_some, Option.some.injEq] at h1
  rw [C74_classes, Option.some.injEq] at hcs
  obtain ⟨k1, k2, k3, k4⟩ := C74_constants
  rw [hb, Option.some.injEq] at k3
  rw [hc, Option.some.injEq] at k4
  have h2 : a ++ b ++ c = Config.build minimal := by
    cases minimal
    · have : a = Config.mainnetDecls := Option.some.inj (ha.symm.trans k1)
      rw [this, k3, k4]
      rfl
    · have : a = Config.minimalDecls := Option.some.inj (ha.symm.trans k2)
      rw [this, k3, k4]
      rfl
  rw [h1, ← hcs, h2]
  exact resolve_check minimal

/-- The hypotheses hold, and a class of the text with a member of its own. -/
example : ∃ names, aliases (Nasm.codes Text.slot) (Nasm.codes Text.bytes) = some names ∧ classDecls files = some Source.all ∧
    declared (if true then Text.minimal else Text.mainnet) = some Config.minimalDecls ∧
    Source.beaconState ∈ Source.all ∧ ("BeaconState", Objects.beaconState minimal) ∈ Objects.all minimal :=
  ⟨_, aliases_check, C74_classes, C74_constants.2.1, by decide +kernel, by decide +kernel⟩

/-- What reading makes of a small class: comments, an access label, two members in one declaration, an operation defined outside of the class. -/
example : classDecls [Nasm.codes ["/* a", "   comment */", "#pragma once", "namespace eth {", "class Pair : public ssz::Container {", "   private:",
      "    Slot a_, b_; // two", "    Bitvector<2 * constants::N + 1> c_;", "   public:", "    const Slot &a() const { return a_; }",
      "    bool operator==(const Pair &) const = default;", "    BytesVector serialize() const override { return serialize_({&a_, &b_, &c_}); }",
      "    bool deserialize(ssz::SSZIterator it, ssz::SSZIterator end) override {", "        return deserialize_(it, end, {&a_, &c_, &b_}); }",
      "    std::vector<ssz::Chunk> hash_tree() const override;", "    YAML::Node encode() const override { return encode_({{\"a\", &a_}}); }",
      "    bool decode(const YAML::Node &node) override { return decode_(node, {{\"b\", &b_}}); }", "};", "}"],
    Nasm.codes ["#include \"pair.hpp\"", "namespace eth {", "std::vector<ssz::Chunk> Pair::hash_tree() const { return hash_tree_({&b_}); }", "}"]] =
    some [⟨"Pair", [("a_", .named "Slot"), ("b_", .named "Slot"), ("c_", .bitvector (.add (.mul (.lit 2) (.const "N")) (.lit 1)))], none, true,
      ["a_", "b_", "c_"], ["a_", "c_", "b_"], ["b_"], [("a", "a_")], [("b", "b_")], [("a", "a_")]⟩] := by decide +kernel

end Mammon.Cpp
