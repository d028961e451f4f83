import Verif.Proofs.CppPackBitlist
import Verif.Props.DefaultText
/-!
# C87: the text of common/bitlist.hpp, run as C++
-/

namespace Mammon.Cpp
open Nasm

/-- **C87** The constructor of `Bitlist` in the text sets the limit and leaves the bits, of which there are none then, alone; without an argument the limit is 0. -/
theorem C87_constructor (E : Env) (n : Nat) (old : BitVec 64) :
    (∀ k : BitVec 64, constructedWith E none ((read (codes Text.bitlistHpp)).bind (defaulted (name% "Bitlist"))) (some (.int .u64 k.toNat))
      (listMembers ⟨.bitlist n, ([] : List Bool)⟩ old) = .ok (listMembers ⟨.bitlist n, ([] : List Bool)⟩ k)) ∧
    constructedWith E none ((read (codes Text.bitlistHpp)).bind (defaulted (name% "Bitlist"))) none (listMembers ⟨.bitlist n, ([] : List Bool)⟩ old) =
      .ok (listMembers ⟨.bitlist n, ([] : List Bool)⟩ 0) := by
  have h1 : (fun E n (old k : BitVec 64) => constructedWith E none (defaulted (name% "Bitlist") bitlistHppD) (some (.int .u64 k.toNat))
      (listMembers ⟨.bitlist n, ([] : List Bool)⟩ old)) = fun _ n _ k => .ok ((name% "limit_", .int .u64 ((k.toNat : Int) % 18446744073709551616 %
        18446744073709551616)) :: fields (.bitlist n) ([] : List Bool)) := by kernel_refl
  have h2 : (fun E n (old : BitVec 64) => constructedWith E none (defaulted (name% "Bitlist") bitlistHppD) none
      (listMembers ⟨.bitlist n, ([] : List Bool)⟩ old)) = fun _ n _ => .ok (listMembers ⟨.bitlist n, ([] : List Bool)⟩ 0) := by kernel_refl
  rw [bitlistHpp_read, Option.bind_some]
  refine ⟨fun k => ?_, congrFun (congrFun (congrFun h2 E) n) old⟩
  have h := congrFun (congrFun (congrFun (congrFun h1 E) n) old) k
  beta_reduce at h
  rw [h, listMembers, show (k.toNat : Int) % 18446744073709551616 % 18446744073709551616 = k.toNat by have := k.isLt; omega]

/-- **C87** `limit` of `Bitlist` in the text sets the limit and leaves the bits alone. -/
theorem C87_limit (E : Env) (n : Nat) (v : List Bool) (old k : BitVec 64) : ∃ f,
    (read (codes Text.bitlistHpp)).bind (fun l => memberFunction l (name% "Bitlist") (name% "limit")) = some f ∧
    run [] none none E 0 0 f [.int .u64 k.toNat] (listMembers ⟨.bitlist n, v⟩ old) [] = .ok (.void, listMembers ⟨.bitlist n, v⟩ k, []) := by
  have h0 : (memberFunction bitlistHppD (name% "Bitlist") (name% "limit")).isSome = true := by kernel_refl
  have h1 : (fun E n (v : List Bool) (old k : BitVec 64) => (orStuck (memberFunction bitlistHppD (name% "Bitlist") (name% "limit"))).bind fun f =>
      run [] none none E 0 0 f [.int .u64 k.toNat] (listMembers ⟨.bitlist n, v⟩ old) []) =
      fun _ n v _ k => .ok (.void, (name% "limit_", .int .u64 ((k.toNat : Int) % 18446744073709551616 % 18446744073709551616)) :: fields (.bitlist n) v, []) := by
    kernel_refl
  obtain ⟨f, hf⟩ := Option.isSome_iff_exists.mp h0
  refine ⟨f, by rw [bitlistHpp_read, Option.bind_some, hf], ?_⟩
  have h := congrFun (congrFun (congrFun (congrFun (congrFun h1 E) n) v) old) k
  beta_reduce at h
  rw [hf, orStuck_some, bind_ok] at h
  rw [h, listMembers, show (k.toNat : Int) % 18446744073709551616 % 18446744073709551616 = k.toNat by have := k.isLt; omega]

/-- The members of a bit list of three bits with limit 2048. -/
example : valueOf (name% "limit_") (listMembers ⟨.bitlist 2048, ([true, false, true] : List Bool)⟩ 2048) = some (.int .u64 2048) := rfl

/-- **C87** `size` of `Bitlist` in the text is the number of bits modulo `2 ^ 64`. -/
theorem C87_size (E : Env) (n : Nat) (v : List Bool) :
    returned E ⟨.bitlist n, v⟩ ((read (codes Text.bitlistHpp)).bind fun l => memberFunction l (name% "Bitlist") (name% "size")) =
      .ok (.int .u64 (v.length % 18446744073709551616)) := by
  have h1 : (fun E n (v : List Bool) => returned E ⟨.bitlist n, v⟩ (memberFunction bitlistHppD (name% "Bitlist") (name% "size"))) =
      fun _ _ v => .ok (.int .u64 ((v.length : Int) % 18446744073709551616)) := by kernel_refl
  have h := congrFun (congrFun (congrFun h1 E) n) v
  beta_reduce at h
  rw [bitlistHpp_read, Option.bind_some, h]

/-- Three bits. -/
example : [true, false, true].length % 18446744073709551616 = 3 := rfl

/-- **C87** `Bitlist` inherits `get_ssz_size` from `ssz::Container`; it returns 0, which marks it as an object without a fixed size. -/
theorem C87_inherited (E : Env) : ∃ l base, read (codes Text.bitlistHpp) = some l ∧ read (codes Text.containerHpp) = some base ∧
    ∀ n (v : List Bool), returned E ⟨.bitlist n, v⟩ (inheritedSize l base (name% "Bitlist")) = .ok (.int .u64 (Ty.bitlist n).sszSize) := by
  have h1 : (fun E n (v : List Bool) => returned E ⟨.bitlist n, v⟩ (inheritedSize bitlistHppD containerHppD (name% "Bitlist"))) =
      fun _ _ _ => .ok (.int .u64 0) := by kernel_refl
  exact ⟨_, _, bitlistHpp_read, containerHpp_read, fun n v => congrFun (congrFun (congrFun h1 E) n) v⟩

end Mammon.Cpp
