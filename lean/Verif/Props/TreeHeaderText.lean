import Verif.Model.CppTreeHeader
import Verif.Props.BitlistText
/-!
# C88: the text of ssz/hashtree.hpp
-/

namespace Mammon.Cpp
open Nasm

/-- **C88** The text of ssz/hashtree.hpp declares two constructors of `HashTree`; the limit of each has a default, and leaving the limit out means calling the
constructor with that default, as the runs of C75 and C78 have it. -/
theorem C88_defaults (E : Env) : ∃ a b t u x y, (read (codes Text.hashtreeHpp)).bind treeDefaults = some [a, b] ∧
    constantOf E a = .ok (.int t x) ∧ constantOf E b = .ok (.int u y) ∧
    ∀ H : Chunk → Chunk → Chunk, (∀ l, newTree H [.chunks l] = newTree H [.chunks l, .int t x]) ∧ ∀ l, newTree H [.bytes l] = newTree H [.bytes l, .int u y] := by
  have h0 : ((treeDefaults hashtreeHppD).map List.length) = some 2 := by kernel_refl
  have h1 : (fun E => (treeDefaults hashtreeHppD).map fun l => l.map (constantOf E)) = fun _ => some [.ok (.int .i32 0), .ok (.int .i32 0)] := by kernel_refl
  have h2 := congrFun h1 E
  beta_reduce at h2
  rw [hashtreeHpp_read, Option.bind_some]
  match h : treeDefaults hashtreeHppD with
  | none => rw [h] at h0; cases h0
  | some [] => rw [h] at h0; cases h0
  | some [_] => rw [h] at h0; cases h0
  | some (_ :: _ :: _ :: _) => rw [h] at h0; simp at h0
  | some [a, b] =>
    rw [h, Option.map_some, Option.some.injEq, List.map_cons, List.map_cons, List.map_nil, List.cons.injEq, List.cons.injEq] at h2
    exact ⟨a, b, .i32, .i32, 0, 0, rfl, h2.1, h2.2.1, fun H => ⟨fun _ => rfl, fun _ => rfl⟩⟩

/-- A default that is not 0 is seen. -/
example : (treeDefaults (((read (codes ["class HashTree {", "    explicit HashTree(const std::vector<Chunk>& chunks, std::uint64_t limit = 1);", "};"]))).getD [])).map
    (fun l => l.map (constantOf ⟨0, fun a _ => a, fun _ => 7#8⟩)) = some [.ok (.int .i32 1)] := by kernel_refl

/-- **C88** `hash_tree` of `HashTree` in the text returns all nodes, unchanged. -/
theorem C88_hash_tree (E : Env) (H : Chunk → Chunk → Chunk) (tree : List Chunk) : ∃ f,
    (read (codes Text.hashtreeHpp)).bind (fun l => memberFunction l (name% "HashTree") (name% "hash_tree")) = some f ∧
    run [] none none E 0 0 f [] (treeGlobals H tree) [] = .ok (.chunks tree, treeGlobals H tree, []) := by
  have h0 : (memberFunction hashtreeHppD (name% "HashTree") (name% "hash_tree")).isSome = true := by kernel_refl
  have h1 : (fun E H (tree : List Chunk) => (orStuck (memberFunction hashtreeHppD (name% "HashTree") (name% "hash_tree"))).bind fun f =>
      run [] none none E 0 0 f [] (treeGlobals H tree) []) = fun _ H tree => .ok (.chunks tree, treeGlobals H tree, []) := by kernel_refl
  obtain ⟨f, hf⟩ := Option.isSome_iff_exists.mp h0
  refine ⟨f, by rw [hashtreeHpp_read, Option.bind_some, hf], ?_⟩
  have h := congrFun (congrFun (congrFun h1 E) H) tree
  beta_reduce at h
  rw [hf, orStuck_some, bind_ok] at h
  exact h

/-- A tree of one node. -/
example : valueOf (name% "hash_tree_") (treeGlobals (fun a _ => a) [zeroHash]) = some (.chunks [zeroHash]) := rfl

end Mammon.Cpp
