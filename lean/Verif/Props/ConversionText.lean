import Verif.Model.CppConversions
import Verif.Props.NameText
import Verif.Props.Access
/-!
# C85: the text of conversions, of `size` and of the inherited `get_ssz_size`, run as C++
-/

namespace Mammon.Cpp
open Nasm

/-- **C85** The conversions of `Slot` to `std::uint64_t` and of `Boolean` to `bool` in the text give the value. -/
theorem C85_conversions (E : Env) :
    (∀ v : BitVec 64, returned E ⟨.uint64, v⟩ ((read (codes Text.slot)).bind (conversionIn (name% "Slot") (name% "uint64_t"))) = .ok (.int .u64 v.toNat)) ∧
    ∀ b : Bool, returned E ⟨.boolean, b⟩ ((read (codes Text.boolean)).bind (conversionIn (name% "Boolean") (name% "bool"))) = .ok (.bool b) := by
  have h1 : (fun E (v : BitVec 64) => returned E ⟨.uint64, v⟩ (conversionIn (name% "Slot") (name% "uint64_t") slotD)) =
      fun _ v => .ok (.int .u64 ((v.toNat : Int) % 18446744073709551616)) := by kernel_refl
  have h2 : (fun E (b : Bool) => returned E ⟨.boolean, b⟩ (conversionIn (name% "Boolean") (name% "bool") booleanD)) = fun _ b => .ok (.bool b) := by kernel_refl
  refine ⟨fun v => ?_, fun b => ?_⟩
  · have h := congrFun (congrFun h1 E) v
    beta_reduce at h
    rw [slot_read, Option.bind_some, h, Int.emod_eq_of_lt (by omega) (by have := v.isLt; omega)]
  · have h := congrFun (congrFun h2 E) b
    beta_reduce at h
    rw [boolean_read, Option.bind_some, h]

/-- A number that needs all 64 bits. -/
example : (0xfedcba9876543210#64).toNat = 18364758544493064720 := rfl

/-- **C85** The conversions of `Slot` to `Bytes8` and of `Boolean` to `Bytes1` in the text give the encoding. -/
theorem C85_bytes (E : Env) :
    (∀ v : BitVec 64, returned E ⟨.uint64, v⟩ ((read (codes Text.slot)).bind (conversionIn (name% "Slot") (name% "Bytes8"))) =
      .ok (.bytes (Spec.encode .uint64 v))) ∧
    ∀ b : Bool, returned E ⟨.boolean, b⟩ ((read (codes Text.boolean)).bind (conversionIn (name% "Boolean") (name% "Bytes1"))) =
      .ok (.bytes (Spec.encode .boolean b)) := by
  have h1 : (fun E (v : BitVec 64) => returned E ⟨.uint64, v⟩ (conversionIn (name% "Slot") (name% "Bytes8") slotD)) =
      fun _ v => .ok (.bytes (leBytes 8 v.toNat ++ [])) := by kernel_refl
  have h2 : (fun E => returned E ⟨.boolean, true⟩ (conversionIn (name% "Boolean") (name% "Bytes1") booleanD)) = fun _ => .ok (.bytes [1#8]) := by kernel_refl
  have h3 : (fun E => returned E ⟨.boolean, false⟩ (conversionIn (name% "Boolean") (name% "Bytes1") booleanD)) = fun _ => .ok (.bytes [0#8]) := by kernel_refl
  refine ⟨fun v => ?_, fun b => ?_⟩
  · have h := congrFun (congrFun h1 E) v
    beta_reduce at h
    rw [slot_read, Option.bind_some, h, List.append_nil]
    obtain ⟨a, e1, e2, e3, -⟩ := C66_slot v v
    rw [← e2, ← Out.ok.inj e3]
    rfl
  · rw [boolean_read, Option.bind_some]
    cases b
    · exact congrFun h3 E
    · exact congrFun h2 E

/-- The bytes are in the order of their weight. -/
example : leBytes 8 (0x0102#64 : BitVec 64).toNat = [2#8, 1#8, 0#8, 0#8, 0#8, 0#8, 0#8, 0#8] := by decide

/-- **C85** `size` in the text: `N` for `Bytes<N>` and a vector, the number of elements for the lists, all modulo `2 ^ 64`. -/
theorem C85_size (E : Env) :
    (∀ n (v : (Ty.bytes n).denote), returned E ⟨.bytes n, v⟩ ((read (codes Text.bytes)).bind fun l => memberFunction l (name% "Bytes") (name% "size")) =
      .ok (.int .u64 (v.1.length % 18446744073709551616))) ∧
    (∀ t n (v : (Ty.vector t n).denote), returned E ⟨.vector t n, v⟩ ((read (codes Text.containers)).bind fun l =>
      memberFunction l (name% "VectorFixedSizedParts") (name% "size")) = .ok (.int .u64 (v.1.length % 18446744073709551616))) ∧
    (∀ t n (v : List t.denote), returned E ⟨.listF t n, v⟩ ((read (codes Text.containers)).bind fun l =>
      memberFunction l (name% "ListFixedSizedParts") (name% "size")) = .ok (.int .u64 (v.length % 18446744073709551616))) ∧
    ∀ t n (v : List t.denote), returned E ⟨.listV t n, v⟩ ((read (codes Text.containers)).bind fun l =>
      memberFunction l (name% "ListVariableSizedParts") (name% "size")) = .ok (.int .u64 (v.length % 18446744073709551616)) := by
  have h1 : (fun E n (v : (Ty.bytes n).denote) => returned E ⟨.bytes n, v⟩ (memberFunction bytesD (name% "Bytes") (name% "size"))) =
      fun _ n _ => .ok (.int .u64 ((n : Int) % 18446744073709551616)) := by kernel_refl
  have h2 : (fun E t n (v : (Ty.vector t n).denote) => returned E ⟨.vector t n, v⟩ (memberFunction containersD (name% "VectorFixedSizedParts") (name% "size"))) =
      fun _ _ n _ => .ok (.int .u64 ((n : Int) % 18446744073709551616)) := by kernel_refl
  have h3 : (fun E t n (v : List t.denote) => returned E ⟨.listF t n, v⟩ (memberFunction containersD (name% "ListFixedSizedParts") (name% "size"))) =
      fun _ t _ v => .ok (.int .u64 (((v.map fun x => (⟨t, x⟩ : Obj)).length : Int) % 18446744073709551616)) := by kernel_refl
  have h4 : (fun E t n (v : List t.denote) => returned E ⟨.listV t n, v⟩ (memberFunction containersD (name% "ListVariableSizedParts") (name% "size"))) =
      fun _ t _ v => .ok (.int .u64 (((v.map fun x => (⟨t, x⟩ : Obj)).length : Int) % 18446744073709551616)) := by kernel_refl
  refine ⟨fun n v => ?_, fun t n v => ?_, fun t n v => ?_, fun t n v => ?_⟩
  · have h := congrFun (congrFun (congrFun h1 E) n) v
    beta_reduce at h
    rw [bytes_read, Option.bind_some, h, v.2]
  · have h := congrFun (congrFun (congrFun (congrFun h2 E) t) n) v
    beta_reduce at h
    rw [containers_read, Option.bind_some, h, v.2]
  · have h := congrFun (congrFun (congrFun (congrFun h3 E) t) n) v
    beta_reduce at h
    rw [containers_read, Option.bind_some, h, List.length_map]
  · have h := congrFun (congrFun (congrFun (congrFun h4 E) t) n) v
    beta_reduce at h
    rw [containers_read, Option.bind_some, h, List.length_map]

/-- A list of two numbers. -/
example : ([3#64, 5#64] : List (Ty.denote .uint64)).length % 18446744073709551616 = 2 := rfl

/-- **C85** The lists of common/containers.hpp inherit `get_ssz_size` from `ssz::Container`; it returns 0, which marks them as objects without a fixed size. -/
theorem C85_inherited (E : Env) : ∃ l base, read (codes Text.containers) = some l ∧ read (codes Text.containerHpp) = some base ∧
    ∀ t n (v : List t.denote), returned E ⟨.listF t n, v⟩ (inheritedSize l base (name% "ListFixedSizedParts")) = .ok (.int .u64 (Ty.listF t n).sszSize) ∧
      returned E ⟨.listV t n, v⟩ (inheritedSize l base (name% "ListVariableSizedParts")) = .ok (.int .u64 (Ty.listV t n).sszSize) := by
  have h1 : (fun E t n (v : List t.denote) => returned E ⟨.listF t n, v⟩ (inheritedSize containersD containerHppD (name% "ListFixedSizedParts"))) =
      fun _ _ _ _ => .ok (.int .u64 0) := by kernel_refl
  have h2 : (fun E t n (v : List t.denote) => returned E ⟨.listV t n, v⟩ (inheritedSize containersD containerHppD (name% "ListVariableSizedParts"))) =
      fun _ _ _ _ => .ok (.int .u64 0) := by kernel_refl
  exact ⟨_, _, containers_read, containerHpp_read, fun t n v =>
    ⟨congrFun (congrFun (congrFun (congrFun h1 E) t) n) v, congrFun (congrFun (congrFun (congrFun h2 E) t) n) v⟩⟩

/-- A class with a `get_ssz_size` of its own does not inherit it. -/
example : declaresFunction (name% "get_ssz_size") [⟨[.id (name% "std"), .sym (name% "::"), .id (name% "size_t"), .id (name% "get_ssz_size"), .sym (name% "("),
    .sym (name% ")"), .id (name% "const")], none⟩] = true := by kernel_refl

end Mammon.Cpp
