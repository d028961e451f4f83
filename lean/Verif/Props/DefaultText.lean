import Verif.Model.CppDefaults
import Verif.Props.ConversionText
/-!
# C86: the text of the constructors with a default argument and of `limit`, run as C++
-/

namespace Mammon.Cpp
open Nasm

/-- **C86** The constructor of `Slot` in the text sets the number, whatever was in memory before; without an argument it is the default object of the model. -/
theorem C86_slot (E : Env) (old : BitVec 64) :
    (∀ v : BitVec 64, constructedWith E none ((read (codes Text.slot)).bind (defaulted (name% "Slot"))) (some (.int .u64 v.toNat)) (fields .uint64 old) =
      .ok (fields .uint64 v)) ∧
    constructedWith E none ((read (codes Text.slot)).bind (defaulted (name% "Slot"))) none (fields .uint64 old) = .ok (fields .uint64 Ty.uint64.dflt) := by
  have h1 : (fun E (old v : BitVec 64) => constructedWith E none (defaulted (name% "Slot") slotD) (some (.int .u64 v.toNat)) (fields .uint64 old)) =
      fun _ _ v => .ok [(name% "value_", .int .u64 ((v.toNat : Int) % 18446744073709551616 % 18446744073709551616))] := by kernel_refl
  have h2 : (fun E (old : BitVec 64) => constructedWith E none (defaulted (name% "Slot") slotD) none (fields .uint64 old)) =
      fun _ _ => .ok (fields .uint64 Ty.uint64.dflt) := by kernel_refl
  rw [slot_read, Option.bind_some]
  refine ⟨fun v => ?_, congrFun (congrFun h2 E) old⟩
  have h := congrFun (congrFun (congrFun h1 E) old) v
  beta_reduce at h
  rw [h, Int.emod_emod_of_dvd _ (Int.dvd_refl _), Int.emod_eq_of_lt (by omega) (by have := v.isLt; omega), fields]

/-- The default object is 0. -/
example : Ty.uint64.dflt = 0#64 := by rw [Ty.dflt]

/-- **C86** The constructor of `Boolean` in the text sets the value, whatever was in memory before; without an argument it is the default object of the model. -/
theorem C86_boolean (E : Env) (old : Bool) :
    (∀ v : Bool, constructedWith E none ((read (codes Text.boolean)).bind (defaulted (name% "Boolean"))) (some (.bool v)) (fields .boolean old) =
      .ok (fields .boolean v)) ∧
    constructedWith E none ((read (codes Text.boolean)).bind (defaulted (name% "Boolean"))) none (fields .boolean old) = .ok (fields .boolean Ty.boolean.dflt) := by
  have h1 : (fun E (old v : Bool) => constructedWith E none (defaulted (name% "Boolean") booleanD) (some (.bool v)) (fields .boolean old)) =
      fun _ _ v => .ok (fields .boolean v) := by kernel_refl
  have h2 : (fun E (old : Bool) => constructedWith E none (defaulted (name% "Boolean") booleanD) none (fields .boolean old)) =
      fun _ _ => .ok (fields .boolean Ty.boolean.dflt) := by kernel_refl
  rw [boolean_read, Option.bind_some]
  exact ⟨fun v => congrFun (congrFun (congrFun h1 E) old) v, congrFun (congrFun h2 E) old⟩

/-- The members of a list with a limit. -/
def listMembers (o : Obj) (limit : BitVec 64) : Frame := (name% "limit_", .int .u64 limit.toNat) :: fields o.1 o.2

/-- **C86** The constructors of the lists in the text set the limit and leave the elements, of which there are none then, alone; without an argument the limit is 0. -/
theorem C86_lists (E : Env) (t : Ty) (n : Nat) (old : BitVec 64) :
    (∀ k : BitVec 64,
      constructedWith E (some t) ((read (codes Text.containers)).bind (defaulted (name% "ListFixedSizedParts"))) (some (.int .u64 k.toNat))
        (listMembers ⟨.listF t n, ([] : List t.denote)⟩ old) = .ok (listMembers ⟨.listF t n, ([] : List t.denote)⟩ k) ∧
      constructedWith E (some t) ((read (codes Text.containers)).bind (defaulted (name% "ListVariableSizedParts"))) (some (.int .u64 k.toNat))
        (listMembers ⟨.listV t n, ([] : List t.denote)⟩ old) = .ok (listMembers ⟨.listV t n, ([] : List t.denote)⟩ k)) ∧
    constructedWith E (some t) ((read (codes Text.containers)).bind (defaulted (name% "ListFixedSizedParts"))) none
      (listMembers ⟨.listF t n, ([] : List t.denote)⟩ old) = .ok (listMembers ⟨.listF t n, ([] : List t.denote)⟩ 0) ∧
    constructedWith E (some t) ((read (codes Text.containers)).bind (defaulted (name% "ListVariableSizedParts"))) none
      (listMembers ⟨.listV t n, ([] : List t.denote)⟩ old) = .ok (listMembers ⟨.listV t n, ([] : List t.denote)⟩ 0) := by
  have h1 : (fun E t n (old k : BitVec 64) => constructedWith E (some t) (defaulted (name% "ListFixedSizedParts") containersD) (some (.int .u64 k.toNat))
      (listMembers ⟨.listF t n, ([] : List t.denote)⟩ old)) = fun _ t n _ k => .ok ((name% "limit_", .int .u64 ((k.toNat : Int) % 18446744073709551616 %
        18446744073709551616)) :: fields (.listF t n) ([] : List t.denote)) := by kernel_refl
  have h2 : (fun E t n (old k : BitVec 64) => constructedWith E (some t) (defaulted (name% "ListVariableSizedParts") containersD) (some (.int .u64 k.toNat))
      (listMembers ⟨.listV t n, ([] : List t.denote)⟩ old)) = fun _ t n _ k => .ok ((name% "limit_", .int .u64 ((k.toNat : Int) % 18446744073709551616 %
        18446744073709551616)) :: fields (.listV t n) ([] : List t.denote)) := by kernel_refl
  have h3 : (fun E t n (old : BitVec 64) => constructedWith E (some t) (defaulted (name% "ListFixedSizedParts") containersD) none
      (listMembers ⟨.listF t n, ([] : List t.denote)⟩ old)) = fun _ t n _ => .ok (listMembers ⟨.listF t n, ([] : List t.denote)⟩ 0) := by kernel_refl
  have h4 : (fun E t n (old : BitVec 64) => constructedWith E (some t) (defaulted (name% "ListVariableSizedParts") containersD) none
      (listMembers ⟨.listV t n, ([] : List t.denote)⟩ old)) = fun _ t n _ => .ok (listMembers ⟨.listV t n, ([] : List t.denote)⟩ 0) := by kernel_refl
  rw [containers_read, Option.bind_some, Option.bind_some]
  have e : ∀ k : BitVec 64, (k.toNat : Int) % 18446744073709551616 % 18446744073709551616 = k.toNat := fun k => by have := k.isLt; omega
  refine ⟨fun k => ⟨?_, ?_⟩, congrFun (congrFun (congrFun (congrFun h3 E) t) n) old, congrFun (congrFun (congrFun (congrFun h4 E) t) n) old⟩
  · have h := congrFun (congrFun (congrFun (congrFun (congrFun h1 E) t) n) old) k
    beta_reduce at h
    rw [h, e, listMembers]
  · have h := congrFun (congrFun (congrFun (congrFun (congrFun h2 E) t) n) old) k
    beta_reduce at h
    rw [h, e, listMembers]

/-- **C86** `limit` of `ListFixedSizedParts` in the text sets the limit and leaves the elements alone. -/
theorem C86_limit (E : Env) (t : Ty) (n : Nat) (v : List t.denote) (old k : BitVec 64) : ∃ f,
    (read (codes Text.containers)).bind (fun l => memberFunction l (name% "ListFixedSizedParts") (name% "limit")) = some f ∧
    run [] none (some t) E 0 0 f [.int .u64 k.toNat] (listMembers ⟨.listF t n, v⟩ old) [] = .ok (.void, listMembers ⟨.listF t n, v⟩ k, []) := by
  have h0 : (memberFunction containersD (name% "ListFixedSizedParts") (name% "limit")).isSome = true := by kernel_refl
  have h1 : (fun E t n (v : List t.denote) (old k : BitVec 64) => (orStuck (memberFunction containersD (name% "ListFixedSizedParts") (name% "limit"))).bind fun f =>
      run [] none (some t) E 0 0 f [.int .u64 k.toNat] (listMembers ⟨.listF t n, v⟩ old) []) =
      fun _ t n v _ k => .ok (.void, (name% "limit_", .int .u64 ((k.toNat : Int) % 18446744073709551616 % 18446744073709551616)) :: fields (.listF t n) v, []) := by
    kernel_refl
  obtain ⟨f, hf⟩ := Option.isSome_iff_exists.mp h0
  refine ⟨f, by rw [containers_read, Option.bind_some, hf], ?_⟩
  have h := congrFun (congrFun (congrFun (congrFun (congrFun (congrFun h1 E) t) n) v) old) k
  beta_reduce at h
  rw [hf, orStuck_some, bind_ok] at h
  rw [h, listMembers, show (k.toNat : Int) % 18446744073709551616 % 18446744073709551616 = k.toNat by have := k.isLt; omega]

/-- The members of a list of two numbers with limit 16. -/
example : valueOf (name% "limit_") (listMembers ⟨.listF .uint64 16, ([3#64, 5#64] : List (Ty.denote .uint64))⟩ 16) = some (.int .u64 16) := rfl

end Mammon.Cpp
