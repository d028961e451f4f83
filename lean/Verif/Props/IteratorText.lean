import Verif.Model.CppIterators
import Verif.Props.ReferenceText
/-!
# C91: the text of the iterators and of `data`
-/

namespace Mammon.Cpp
open Nasm

/-- **C91** The iterators of `Bytes<N>` in the text go from the first byte to behind the last one of the contents; `data` points to the first one. -/
theorem C91_bytes (E : Env) (n : Nat) (v : (Ty.bytes n).denote) : ∃ p,
    heldAt ⟨.bytes n, v⟩ p = .ok (.bytes (Spec.encode (.bytes n) v)) ∧
    (read (codes Text.bytes)).map (iteratorsOf E ⟨.bytes n, v⟩ (name% "Bytes")) =
      some [.ok (.iter p 0), .ok (.iter p 0), .ok (.iter p n), .ok (.iter p n)] ∧
    returned E ⟨.bytes n, v⟩ ((read (codes Text.bytes)).bind fun l => memberFunction l (name% "Bytes") (name% "data")) = .ok (.iter p 0) := by
  have h1 : (fun E n (v : (Ty.bytes n).denote) => iteratorsOf E ⟨.bytes n, v⟩ (name% "Bytes") bytesD) =
      fun _ _ v => [.ok (.iter (.glob 1) 0), .ok (.iter (.glob 1) 0), .ok (.iter (.glob 1) (Int.ofNat v.1.length)), .ok (.iter (.glob 1) (Int.ofNat v.1.length))] := by
    kernel_refl
  have h2 : (fun E n (v : (Ty.bytes n).denote) => returned E ⟨.bytes n, v⟩ (memberFunction bytesD (name% "Bytes") (name% "data"))) =
      fun _ _ _ => .ok (.iter (.glob 1) 0) := by kernel_refl
  refine ⟨.glob 1, ?_, ?_, ?_⟩
  · rw [Spec.encode]; rfl
  · have e := congrFun (congrFun (congrFun h1 E) n) v
    beta_reduce at e
    rw [bytes_read, Option.map_some, e, v.2]
    rfl
  · rw [bytes_read, Option.bind_some]
    exact congrFun (congrFun (congrFun h2 E) n) v

/-- **C91** The iterators of the vector in the text go from the first to behind the last of its `N` elements. -/
theorem C91_vector (E : Env) (t : Ty) (n : Nat) (v : (Ty.vector t n).denote) : ∃ p,
    heldAt ⟨.vector t n, v⟩ p = .ok (.objs (v.1.map fun x => ⟨t, x⟩)) ∧
    (read (codes Text.containers)).map (iteratorsOf E ⟨.vector t n, v⟩ (name% "VectorFixedSizedParts")) =
      some [.ok (.iter p 0), .ok (.iter p 0), .ok (.iter p n), .ok (.iter p n)] := by
  have h1 : (fun E t n (v : (Ty.vector t n).denote) => iteratorsOf E ⟨.vector t n, v⟩ (name% "VectorFixedSizedParts") containersD) =
      fun _ t _ v => [.ok (.iter (.glob 2) 0), .ok (.iter (.glob 2) 0), .ok (.iter (.glob 2) (Int.ofNat (v.1.map fun x => (⟨t, x⟩ : Obj)).length)),
        .ok (.iter (.glob 2) (Int.ofNat (v.1.map fun x => (⟨t, x⟩ : Obj)).length))] := by
    kernel_refl
  refine ⟨.glob 2, rfl, ?_⟩
  have e := congrFun (congrFun (congrFun (congrFun h1 E) t) n) v
  beta_reduce at e
  rw [containers_read, Option.map_some, e, List.length_map, v.2]
  rfl

/-- **C91** The iterators of the lists in the text go from the first to behind the last of the elements. -/
theorem C91_lists (E : Env) (t : Ty) (n : Nat) (v : List t.denote) : ∃ p,
    heldAt ⟨.listF t n, v⟩ p = .ok (.objs (v.map fun x => ⟨t, x⟩)) ∧ heldAt ⟨.listV t n, v⟩ p = .ok (.objs (v.map fun x => ⟨t, x⟩)) ∧
    (read (codes Text.containers)).map (iteratorsOf E ⟨.listF t n, v⟩ (name% "ListFixedSizedParts")) =
      some [.ok (.iter p 0), .ok (.iter p 0), .ok (.iter p v.length), .ok (.iter p v.length)] ∧
    (read (codes Text.containers)).map (iteratorsOf E ⟨.listV t n, v⟩ (name% "ListVariableSizedParts")) =
      some [.ok (.iter p 0), .ok (.iter p 0), .ok (.iter p v.length), .ok (.iter p v.length)] := by
  have h1 : (fun E t n (v : List t.denote) => iteratorsOf E ⟨.listF t n, v⟩ (name% "ListFixedSizedParts") containersD) =
      fun _ t _ v => [.ok (.iter (.glob 0) 0), .ok (.iter (.glob 0) 0), .ok (.iter (.glob 0) (Int.ofNat (v.map fun x => (⟨t, x⟩ : Obj)).length)),
        .ok (.iter (.glob 0) (Int.ofNat (v.map fun x => (⟨t, x⟩ : Obj)).length))] := by
    kernel_refl
  have h2 : (fun E t n (v : List t.denote) => iteratorsOf E ⟨.listV t n, v⟩ (name% "ListVariableSizedParts") containersD) =
      fun _ t _ v => [.ok (.iter (.glob 0) 0), .ok (.iter (.glob 0) 0), .ok (.iter (.glob 0) (Int.ofNat (v.map fun x => (⟨t, x⟩ : Obj)).length)),
        .ok (.iter (.glob 0) (Int.ofNat (v.map fun x => (⟨t, x⟩ : Obj)).length))] := by
    kernel_refl
  refine ⟨.glob 0, rfl, rfl, ?_, ?_⟩
  · have e := congrFun (congrFun (congrFun (congrFun h1 E) t) n) v
    beta_reduce at e
    rw [containers_read, Option.map_some, e, List.length_map]
    rfl
  · have e := congrFun (congrFun (congrFun (congrFun h2 E) t) n) v
    beta_reduce at e
    rw [containers_read, Option.map_some, e, List.length_map]
    rfl

/-- **C91** Assigning to what `data` of the list of fixed-size elements in the text returns replaces all elements. -/
theorem C91_data (E : Env) (t : Ty) (n : Nat) (old new : List t.denote) :
    membersAfter E ⟨.listF t n, old⟩ ((read (codes Text.containers)).bind (assignData (name% "ListFixedSizedParts"))) (.objs (new.map fun x => ⟨t, x⟩)) =
      .ok (fields (.listF t n) new) := by
  have h : (fun E t n (old new : List t.denote) => membersAfter E ⟨.listF t n, old⟩ (assignData (name% "ListFixedSizedParts") containersD)
      (.objs (new.map fun x => ⟨t, x⟩))) = fun _ t _ _ new => .ok [(name% "m_arr", .objs (new.map fun x => ⟨t, x⟩))] := by kernel_refl
  rw [containers_read, Option.bind_some]
  exact congrFun (congrFun (congrFun (congrFun (congrFun h E) t) n) old) new

/-- Two numbers in a list: the iterators are two apart. -/
example : (fun E => iteratorsOf E ⟨.listF .uint64 4, ([5#64, 6#64] : List (BitVec 64))⟩ (name% "ListFixedSizedParts") containersD) =
    fun _ => [.ok (.iter (.glob 0) 0), .ok (.iter (.glob 0) 0), .ok (.iter (.glob 0) 2), .ok (.iter (.glob 0) 2)] := by kernel_refl

/-- An `end` that is `begin` is seen. -/
example : (fun E => returned E ⟨.listF .uint64 4, ([5#64, 6#64] : List (BitVec 64))⟩
    (memberFunction ((read (codes ["class L {", "    constexpr typename std::vector<T>::iterator end() noexcept { return m_arr.begin(); }", "};"])).getD [])
      (name% "L") (name% "end"))) = fun _ => .ok (.iter (.glob 0) 0) := by kernel_refl

end Mammon.Cpp
