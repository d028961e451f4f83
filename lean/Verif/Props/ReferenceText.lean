import Verif.Model.CppReferences
import Verif.Props.EqualityText
import Verif.Proofs.CppScalar
/-!
# C90: the text of the conversions to references and of `Bytes` to a vector
-/

namespace Mammon.Cpp
open Nasm

/-- The conversion of `Bytes` to a vector, as it is read from the text. -/
def vectorConversionF : Func :=
  ⟨name% "Bytes", name% "operator", .tmpl (name% "vector") (.cons (.var (name% "uint8_t")) .nil), [],
    .cons (.construct (.tmpl (name% "vector") (.cons (.var (name% "uint8_t")) .nil)) (name% "ret")
      (.cons (.call (.mem (.var (name% "m_arr")) (name% "begin")) .nil) (.cons (.call (.mem (.var (name% "m_arr")) (name% "end")) .nil) .nil)))
    (.cons (.ret (.var (name% "ret"))) .nil)⟩

theorem vectorConversion_read : vectorConversion bytesD = some vectorConversionF := by kernel_refl

/-- **C90** The conversion of `Bytes<N>` to a vector and `to_array` in the text give the encoding, for every `N`. -/
theorem C90_bytes (E : Env) (n : Nat) (v : (Ty.bytes n).denote) :
    returned E ⟨.bytes n, v⟩ ((read (codes Text.bytes)).bind vectorConversion) = .ok (.bytes (Spec.encode (.bytes n) v)) ∧
    returned E ⟨.bytes n, v⟩ ((read (codes Text.bytes)).bind fun l => memberFunction l (name% "Bytes") (name% "to_array")) =
      .ok (.bytes (Spec.encode (.bytes n) v)) := by
  have h1 : (fun E n (v : (Ty.bytes n).denote) => returned E ⟨.bytes n, v⟩ (memberFunction bytesD (name% "Bytes") (name% "to_array"))) =
      fun _ _ v => .ok (.bytes v.1) := by kernel_refl
  have h2 : returned E ⟨.bytes n, v⟩ (vectorConversion bytesD) = .ok (.bytes v.1) := by
    rw [vectorConversion_read, returned, orStuck_some, bind_ok]
    show (run [] none none E 0 0 vectorConversionF [] (fields (.bytes n) v) []).bind _ = _
    cpp_run [vectorConversionF]
    simp [bind_ok]
  have e1 := congrFun (congrFun (congrFun h1 E) n) v
  beta_reduce at e1
  rw [bytes_read, Option.bind_some, Option.bind_some, e1, h2, Spec.encode]
  exact ⟨rfl, rfl⟩

/-- **C90** Assigning to what the conversions of `Slot` and `Boolean` to a reference return makes the object the one with the assigned value. -/
theorem C90_references (E : Env) :
    (∀ old new : BitVec 64, membersAfter E ⟨.uint64, old⟩
      ((read (codes Text.slot)).bind (assignThrough (name% "Slot") [.id (name% "std"), .sym (name% "::"), .id (name% "uint64_t")])) (.int .u64 new.toNat) =
      .ok (fields .uint64 new)) ∧
    ∀ old new : Bool, membersAfter E ⟨.boolean, old⟩
      ((read (codes Text.boolean)).bind (assignThrough (name% "Boolean") [.id (name% "bool")])) (.bool new) = .ok (fields .boolean new) := by
  have h1 : (fun E (old new : BitVec 64) => membersAfter E ⟨.uint64, old⟩
      (assignThrough (name% "Slot") [.id (name% "std"), .sym (name% "::"), .id (name% "uint64_t")] slotD) (.int .u64 new.toNat)) =
      fun _ _ new => .ok [(name% "value_", .int .u64 ((new.toNat : Int) % 18446744073709551616 % 18446744073709551616))] := by kernel_refl
  have h2 : (fun E (old new : Bool) => membersAfter E ⟨.boolean, old⟩ (assignThrough (name% "Boolean") [.id (name% "bool")] booleanD) (.bool new)) =
      fun _ _ new => .ok [(name% "value_", .bool new)] := by kernel_refl
  refine ⟨fun old new => ?_, fun old new => ?_⟩
  · have e := congrFun (congrFun (congrFun h1 E) old) new
    beta_reduce at e
    rw [slot_read, Option.bind_some, e, fields]
    have := new.isLt
    have : ((new.toNat : Int) % 18446744073709551616 % 18446744073709551616) = new.toNat := by omega
    rw [this]
  · have e := congrFun (congrFun (congrFun h2 E) old) new
    beta_reduce at e
    rw [boolean_read, Option.bind_some, e, fields]

/-- Two bytes. -/
example : (fun E => returned E ⟨.bytes 2, ⟨[1#8, 2#8], rfl⟩⟩ (vectorConversion bytesD)) = fun _ => .ok (.bytes [1#8, 2#8]) := by kernel_refl

/-- A conversion that returns another member's reference is seen. -/
example : (assignThrough (name% "Slot") [.id (name% "bool")]
    ((read (codes ["class Slot {", "    operator bool &() { return other_; }", "};"])).getD [])).map (·.body) =
    some (.cons (.expr (.assign (.var (name% "other_")) (.var (name% "new")))) .nil) := by kernel_refl

end Mammon.Cpp
