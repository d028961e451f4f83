import Verif.Proofs.CppHash
import Verif.Props.Merkle
import Verif.Props.Bodies
/-!
# C78: the text of the functions `hash_tree` and `hash_tree_root`, run as C++, is the modelled hashing
-/

namespace Mammon.Cpp
open Nasm

/-- The number of elements of a list is a `std::size_t` (common/containers.hpp:99,163, common/bitlist.hpp:32). -/
def LengthFits : (t : Ty) → t.denote → Prop
  | .bitlist _, v => v.length < 2 ^ 64
  | .listF t _, v => (v : List t.denote).length < 2 ^ 64
  | .listV t _, v => (v : List t.denote).length < 2 ^ 64
  | _, _ => True

theorem vectorCalled_basic (t : Ty) (n : Nat) (h : isBasicObject t = true) : find (name% "hash_tree_x") (hashTreeCalled (.vector t n)) = some vectorBasicF ∧
    find (name% "hash_tree") (hashTreeCalled (.vector t n)) = some objectTreeF := by
  rw [hashTreeCalled, h, vectorBasicF_read, objectTreeF_read]
  exact ⟨by kernel_refl, by kernel_refl⟩

theorem vectorCalled_other (t : Ty) (n : Nat) (h : isBasicObject t = false) : find (name% "hash_tree_x") (hashTreeCalled (.vector t n)) = some vectorOtherF := by
  rw [hashTreeCalled, h, vectorOtherF_read, objectTreeF_read]
  kernel_refl

theorem listCalled_basic (t : Ty) (n : Nat) (h : isBasicObject t = true) : find (name% "hash_tree_x") (hashTreeCalled (.listF t n)) = some listFBasicF := by
  rw [hashTreeCalled, h, listFBasicF_read]
  kernel_refl

theorem listCalled_other (t : Ty) (n : Nat) (h : isBasicObject t = false) : find (name% "hash_tree_x") (hashTreeCalled (.listF t n)) = some listFOtherF := by
  rw [hashTreeCalled, h, listFOtherF_read]
  kernel_refl

/-- **C78** `hash_tree` of every class: what the text of its body computes, with the functions that it calls by name and the overload that the element
type selects, is the modelled function, exceptions and undefined behaviour included; the object and its parts stay as they are. -/
theorem C78_hash_tree (t : Ty) (v : t.denote) (ht : SizeFits t) (hv : LengthFits t v) : ∃ f, hashTreeText t = some f ∧
    ∃ n, ∀ int E fuel depth, n ≤ fuel → 2 ≤ depth →
      run (hashTreeCalled t) int (elemOf t) E fuel depth f (pointersOf t) (treeFields t v) (partsIn t v) =
        (Res.of (hashTree E.hash t v)).bind fun tree => .ok (.chunks tree, treeFields t v, partsIn t v) := by
  cases t with
  | uint64 => exact ⟨_, slotTreeF_read, 0, fun int E fuel d _ _ => slot_tree _ int E fuel d v⟩
  | boolean => exact ⟨_, objectTreeF_read, 0, fun int E fuel d _ _ => plain_tree _ int E fuel d .boolean v _ _ (fun _ _ => rfl)⟩
  | bytes n => exact ⟨_, objectTreeF_read, 0, fun int E fuel d _ _ => plain_tree _ int E fuel d (.bytes n) v _ _ (fun _ _ => rfl)⟩
  | bitvector n => exact ⟨_, objectTreeF_read, 0, fun int E fuel d _ _ => plain_tree _ int E fuel d (.bitvector n) v _ _ (fun _ _ => rfl)⟩
  | bitlist l => exact ⟨_, bitlistTreeF_read, v.length + 1, fun int E fuel d h _ => bitlist_tree _ int E fuel d l v hv h⟩
  | vector t n =>
    refine ⟨_, vectorTreeF_read, 0, fun int E fuel d _ h => ?_⟩
    obtain ⟨d, rfl⟩ := Nat.exists_eq_add_of_le' h
    cases hb : isBasicObject t with
    | true => exact vector_basic _ int E fuel d t n v (vectorCalled_basic t n hb).1 (vectorCalled_basic t n hb).2 hb
    | false => exact vector_other _ int E fuel (d + 1) t n (Nat.lt_of_lt_of_le ht.1 (by decide)) v (vectorCalled_other t n hb) hb
  | listF t l =>
    refine ⟨_, listFTreeF_read, 0, fun int E fuel d _ h => ?_⟩
    obtain ⟨d, rfl⟩ := Nat.exists_eq_add_of_le' h
    cases hb : isBasicObject t with
    | true => exact list_basic _ int E fuel (d + 1) t l v hv (listCalled_basic t l hb) hb
    | false => exact list_other _ int E fuel (d + 1) t l v hv (listCalled_other t l hb) hb
  | listV t l =>
    refine ⟨_, listVTreeF_read, 0, fun int E fuel d _ h => ?_⟩
    obtain ⟨d, rfl⟩ := Nat.exists_eq_add_of_le' h
    exact list_variable _ int E fuel (d + 1) t l v hv
  | container z o ps =>
    refine ⟨_, partsTreeF_read, 0, fun int E fuel d _ h => ?_⟩
    obtain ⟨d, rfl⟩ := Nat.exists_eq_add_of_le' h
    exact struct_tree _ int E fuel (d + 1) z o ps v ht.2

/-- Where the text of `hash_tree_root` is: ssz/ssz_container.hpp. -/
def hashRootText : Option Func :=
  (read (codes Text.containerHpp)).bind fun l => memberFunction l (name% "Container") (name% "hash_tree_root")

/-- **C78** `hash_tree_root` of every class: its text returns the last chunk of the tree, and it reads outside of the tree if that is empty. -/
theorem C78_hash_tree_root (t : Ty) (v : t.denote) : ∃ f, hashRootText = some f ∧ ∀ fs int elem E fuel depth parts,
    run fs int elem E fuel depth f [] (treeFields t v) parts =
      (Res.of (hashTreeRoot E.hash t v)).bind fun r => .ok (.bytes r.1, treeFields t v, parts) :=
  ⟨_, objectRootF_read, fun fs int elem E fuel d parts => object_root fs int E fuel d t v _ parts elem⟩

/-- **C78** The text of `hash_tree` of every class computes a tree whose last chunk, the one that the text of `hash_tree_root` returns, is the Merkle root
of the specification. -/
theorem C78_root (t : Ty) (v : t.denote) (ht : SizeFits t) (hv : LengthFits t v) (hh : Spec.hashable t = true) (hl : Spec.withinLimits t v = true)
    (hb : Spec.bitlistsShort t v = true) : ∃ f g, hashTreeText t = some f ∧ hashRootText = some g ∧
    ∃ n, ∀ int E fuel depth, n ≤ fuel → 2 ≤ depth →
      (∃ tree, run (hashTreeCalled t) int (elemOf t) E fuel depth f (pointersOf t) (treeFields t v) (partsIn t v) =
          .ok (.chunks tree, treeFields t v, partsIn t v) ∧ tree.getLast? = some (Spec.root E.hash t v)) ∧
      run [] int none E fuel depth g [] (treeFields t v) [] = .ok (.bytes (Spec.root E.hash t v).1, treeFields t v, []) := by
  obtain ⟨f, hf, n, h⟩ := C78_hash_tree t v ht hv
  obtain ⟨g, hg, hr⟩ := C78_hash_tree_root t v
  refine ⟨f, g, hf, hg, n, fun int E fuel depth hn hd => ?_⟩
  have hroot := C16_hash_tree_root E.hash t hh v hl hb
  refine ⟨?_, by rw [hr, hroot]; rfl⟩
  rw [h int E fuel depth hn hd]
  rw [hashTreeRoot] at hroot
  cases e : hashTree E.hash t v with
  | ok tree =>
    rw [e, out_ok_then, treeRoot] at hroot
    refine ⟨tree, rfl, ?_⟩
    cases e2 : tree.getLast? with
    | none => rw [e2] at hroot; cases hroot
    | some c => rw [e2] at hroot; cases hroot; rfl
  | throws x => rw [e] at hroot; cases hroot
  | ub => rw [e] at hroot; cases hroot

/-- The hypotheses hold for a list of bit lists, one of them empty, and for a struct with bits of variable number. -/
example : SizeFits (.listV (.bitlist 2048) 128) ∧ LengthFits (.listV (.bitlist 2048) 128) [[true, false], []] ∧ Spec.hashable (.listV (.bitlist 2048) 128) = true ∧
    Spec.withinLimits (.listV (.bitlist 2048) 128) [[true, false], []] = true ∧ Spec.bitlistsShort (.listV (.bitlist 2048) 128) [[true, false], []] = true :=
  ⟨trivial, by show 2 < _; decide, by decide +kernel, by decide +kernel, by decide +kernel⟩
example : SizeFits (Objects.attestation mainnet) ∧ LengthFits (Objects.attestation mainnet) (Samples.attestation [true, false, true]) ∧
    Spec.hashable (Objects.attestation mainnet) = true ∧
    Spec.withinLimits (Objects.attestation mainnet) (Samples.attestation [true, false, true]) = true ∧
    Spec.bitlistsShort (Objects.attestation mainnet) (Samples.attestation [true, false, true]) = true :=
  ⟨sizeFits_of _ (by decide +kernel), trivial, by decide +kernel⟩

/-- What the text of a function that forgets to mix in the length computes: running it finds the error. -/
example : (match (read (codes ["std::vector<ssz::Chunk> Bitlist::hash_tree() const {", "    std::vector<std::uint8_t> ret(1, 0);",
      "    ssz::HashTree ht{ret, limit_};", "    return ht.hash_tree();", "}"])).bind fun l => freeFunction l (name% "Bitlist") (name% "hash_tree") with
    | some f => match run [] none none ⟨0, fun a _ => a, fun _ => 0#8⟩ 9 9 f [] (treeFields (.bitlist 9) []) [] with
      | .ok (.chunks l, _) => decide (l.length = 1) || decide (hashTree (fun a _ => a) (.bitlist 9) [] = .ok l)
      | _ => true
    | none => true) = false := by decide +kernel

end Mammon.Cpp
