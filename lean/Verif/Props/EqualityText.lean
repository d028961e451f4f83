import Verif.Model.CppEquality
import Verif.Props.TreeHeaderText
import Verif.Model.Equality
/-!
# C89: the text of `operator==` where it is defaulted or inherited
-/

namespace Mammon.Cpp
open Nasm

/-- **C89** `==` of two `Slot` in the text is equality of the numbers. -/
theorem C89_slot (E : Env) (a b : BitVec 64) : ∃ c s, read (codes Text.containerHpp) = some c ∧ read (codes Text.slot) = some s ∧
    equalIn E c (name% "Slot") (fields .uint64 a) (fields .uint64 b) s = .ok (eqOp .uint64 a b) := by
  have h : (fun E (a b : BitVec 64) => equalIn E containerHppD (name% "Slot") (fields .uint64 a) (fields .uint64 b) slotD) =
      fun _ a b => bif (Int.ofNat a.toNat == Int.ofNat b.toNat) then .ok true else .ok false := by kernel_refl
  refine ⟨_, _, containerHpp_read, slot_read, ?_⟩
  have h' := congrFun (congrFun (congrFun h E) a) b
  beta_reduce at h'
  rw [h', eqOp]
  by_cases e : a = b
  · subst e; simp
  · have e1 : (Int.ofNat a.toNat == Int.ofNat b.toNat) = false := by
      simp only [beq_eq_false_iff_ne, ne_eq]
      intro hh
      exact e (BitVec.eq_of_toNat_eq (Int.ofNat.inj hh))
    have e2 : (a == b) = false := by simpa using e
    rw [e1]; exact congrArg Res.ok e2.symm

/-- **C89** `==` of two `Boolean` in the text is equality of the values. -/
theorem C89_boolean (E : Env) (a b : Bool) : ∃ c s, read (codes Text.containerHpp) = some c ∧ read (codes Text.boolean) = some s ∧
    equalIn E c (name% "Boolean") (fields .boolean a) (fields .boolean b) s = .ok (eqOp .boolean a b) := by
  have h : (fun E (a b : Bool) => equalIn E containerHppD (name% "Boolean") (fields .boolean a) (fields .boolean b) booleanD) =
      fun _ a b => bif (a == b) then .ok true else .ok false := by kernel_refl
  refine ⟨_, _, containerHpp_read, boolean_read, ?_⟩
  have h' := congrFun (congrFun (congrFun h E) a) b
  beta_reduce at h'
  rw [h', eqOp]
  cases a <;> cases b <;> rfl

/-- **C89** `==` of two `Bitvector<N>` in the text is equality of the bits. -/
theorem C89_bitvector (E : Env) (n : Nat) (a b : (Ty.bitvector n).denote) : ∃ c s, read (codes Text.containerHpp) = some c ∧
    read (codes Text.bitvector) = some s ∧
    equalIn E c (name% "Bitvector") (fields (.bitvector n) a) (fields (.bitvector n) b) s = .ok (eqOp (.bitvector n) a b) := by
  have h : (fun E n (a b : (Ty.bitvector n).denote) => equalIn E containerHppD (name% "Bitvector") (fields (.bitvector n) a) (fields (.bitvector n) b) bitvectorD) =
      fun _ n a b => bif (a.1 == b.1) then .ok true else .ok false := by kernel_refl
  refine ⟨_, _, containerHpp_read, bitvector_read, ?_⟩
  have h' := congrFun (congrFun (congrFun (congrFun h E) n) a) b
  beta_reduce at h'
  rw [h', eqOp]
  cases a.1 == b.1 <;> rfl

/-- **C89** `==` of two `Bitlist` in the text is equality of the bits **and of the limits**: two lists of the same bits but different limits differ. -/
theorem C89_bitlist (E : Env) (n : Nat) (a b : List Bool) (k m : BitVec 64) : ∃ c s, read (codes Text.containerHpp) = some c ∧
    read (codes Text.bitlistHpp) = some s ∧
    equalIn E c (name% "Bitlist") (listMembers ⟨.bitlist n, a⟩ k) (listMembers ⟨.bitlist n, b⟩ m) s = .ok (eqOp (.bitlist n) a b && k == m) := by
  have h : (fun E n (a b : List Bool) (k m : BitVec 64) => equalIn E containerHppD (name% "Bitlist") (listMembers ⟨.bitlist n, a⟩ k)
      (listMembers ⟨.bitlist n, b⟩ m) bitlistHppD) =
      fun _ _ a b k m => bif (a == b) then (bif (Int.ofNat k.toNat == Int.ofNat m.toNat) then .ok true else .ok false) else .ok false := by kernel_refl
  refine ⟨_, _, containerHpp_read, bitlistHpp_read, ?_⟩
  have h' := congrFun (congrFun (congrFun (congrFun (congrFun (congrFun h E) n) a) b) k) m
  beta_reduce at h'
  rw [h', eqOp]
  have e : (Int.ofNat k.toNat == Int.ofNat m.toNat) = (k == m) := by
    by_cases e : k = m
    · subst e; simp
    · have e1 : (Int.ofNat k.toNat == Int.ofNat m.toNat) = false := by
        simp only [beq_eq_false_iff_ne, ne_eq]
        intro hh
        exact e (BitVec.eq_of_toNat_eq (Int.ofNat.inj hh))
      rw [e1]; symm; simpa using e
  rw [e]
  cases (a == b) <;> cases (k == m) <;> rfl

/-- **C89** The vector and the lists declare no `==` in the text: the one of `Container` is used, and it calls any two objects equal. -/
theorem C89_inherited (E : Env) (t : Ty) (n : Nat) : ∃ c s, read (codes Text.containerHpp) = some c ∧ read (codes Text.containers) = some s ∧
    (∀ a b, equalIn E c (name% "VectorFixedSizedParts") (fields (.vector t n) a) (fields (.vector t n) b) s = .ok (eqOp (.vector t n) a b)) ∧
    (∀ a b k m, equalIn E c (name% "ListFixedSizedParts") (listMembers ⟨.listF t n, a⟩ k) (listMembers ⟨.listF t n, b⟩ m) s =
      .ok (eqOp (.listF t n) a b)) ∧
    ∀ a b k m, equalIn E c (name% "ListVariableSizedParts") (listMembers ⟨.listV t n, a⟩ k) (listMembers ⟨.listV t n, b⟩ m) s =
      .ok (eqOp (.listV t n) a b) := by
  have h1 : (fun E t n a b => equalIn E containerHppD (name% "VectorFixedSizedParts") (fields (.vector t n) a) (fields (.vector t n) b) containersD) =
      fun _ _ _ _ _ => .ok true := by kernel_refl
  have h2 : (fun E a b => equalIn E containerHppD (name% "ListFixedSizedParts") a b containersD) = fun _ _ _ => .ok true := by kernel_refl
  have h3 : (fun E a b => equalIn E containerHppD (name% "ListVariableSizedParts") a b containersD) = fun _ _ _ => .ok true := by kernel_refl
  refine ⟨_, _, containerHpp_read, containers_read, fun a b => ?_, fun a b k m => ?_, fun a b k m => ?_⟩
  · rw [eqOp]; exact congrFun (congrFun (congrFun (congrFun (congrFun h1 E) t) n) a) b
  · rw [eqOp]; exact congrFun (congrFun (congrFun h2 E) _) _
  · rw [eqOp]; exact congrFun (congrFun (congrFun h3 E) _) _

/-- Two different slots differ; a class without its own `==` does not see it. -/
example : (fun E => equalIn E containerHppD (name% "Slot") (fields .uint64 1#64) (fields .uint64 2#64) slotD) = fun _ => .ok false := by kernel_refl

example : (fun E => equalIn E containerHppD (name% "Slot") (fields .uint64 1#64) (fields .uint64 2#64)
    ((read (codes ["class Slot {", "    std::uint64_t value_;", "};"])).getD [])) = fun _ => .ok true := by kernel_refl

/-- Bit lists of the same bits with the limits 3 and 4. -/
example : (fun E => equalIn E containerHppD (name% "Bitlist") (listMembers ⟨.bitlist 4, [true]⟩ 3) (listMembers ⟨.bitlist 4, [true]⟩ 4) bitlistHppD) =
    fun _ => .ok false := by kernel_refl

end Mammon.Cpp
