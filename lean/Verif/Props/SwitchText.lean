import Verif.Proofs.CppSwitch
import Verif.Props.PredicateText
/-!
# C83: the text of the constructors of `Hasher` and of `Hasher::IMPL`, run as C++
-/

namespace Mammon.Cpp
open Nasm

/-- The functions that the constructors call. -/
def constructorCalled : List Func := (hasherText (name% "implemented")).toList ++ (hasherText (name% "best_sha256_implementation")).toList

theorem constructorCalled_eq : find (name% "implemented") constructorCalled = some implementedF ∧
    find (name% "best_sha256_implementation") constructorCalled = some bestF := by
  have e : constructorCalled = [implementedF, bestF] := by
    rw [constructorCalled, show hasherText (name% "implemented") = some implementedF from implementedF_read,
      show hasherText (name% "best_sha256_implementation") = some bestF from bestF_read]
    rfl
  rw [e]
  exact ⟨by kernel_refl, by kernel_refl⟩

/-- What the best implementation for a processor is: the first in the order of preference whose extension is reported; undefined without leaf 7. -/
def bestFor (cpu : Cpu) : Option HashFn :=
  if 7 ≤ cpu.maxLeaf.toNat then (preference.find? fun x => cpu.reports x.1).map (·.2) else none

theorem best_eq (cpu : Cpu) : Res.of (bestImplementation cpu) = match bestFor cpu with | some f => .ok f | none => .ub := by
  rw [bestFor, show bestImplementation cpu = hasherDefault cpu from rfl]
  by_cases h : 7 ≤ cpu.maxLeaf.toNat
  · rw [if_pos h, C27_preferred cpu h]
    cases preference.find? fun x => cpu.reports x.1 <;> rfl
  · rw [if_neg h, C27_uninitialised cpu (by omega)]
    rfl

/-- **C83** The text of `Hasher::Hasher(IMPL)`: with 8, 4, 2 or 1 the member is set to the implementation for the SHA extensions, AVX2, AVX or SSE, whatever the
processor reports; with any other value of an `int` it is set to the best implementation for the processor, and the behaviour is undefined if the processor has
no leaf 7. -/
theorem C83_constructor (cpu : Cpu) (m : HashFn) (x : BitVec 32) : ∃ f, hasherConstructor = some f ∧ ∀ int E fuel d, 2 ≤ d → ∃ r,
    run constructorCalled int none E fuel d f [.int .i32 x.toInt] (hasherGlobals cpu (.routine m)) [] = r ∧
    ∀ g, (x = 8 ∧ g = some .shani ∨ x = 4 ∧ g = some .avx2 ∨ x = 2 ∧ g = some .avx ∨ x = 1 ∧ g = some .sse ∨
        x ≠ 8 ∧ x ≠ 4 ∧ x ≠ 2 ∧ x ≠ 1 ∧ g = bestFor cpu) →
      r = match g with
        | some f => .ok (.void, hasherGlobals cpu (.routine f), [])
        | none => .ub := by
  refine ⟨_, hasherF_read, fun int E fuel d hd => ?_⟩
  obtain ⟨d, rfl⟩ := Nat.exists_eq_add_of_le' hd
  refine ⟨_, hasher_run constructorCalled int E fuel d cpu m x.toInt (conv_toInt x) constructorCalled_eq.1 constructorCalled_eq.2, fun g hg => ?_⟩
  rcases hg with ⟨rfl, rfl⟩ | ⟨rfl, rfl⟩ | ⟨rfl, rfl⟩ | ⟨rfl, rfl⟩ | ⟨h8, h4, h2, h1, rfl⟩
  · rfl
  · rfl
  · rfl
  · rfl
  · have e : ∀ k : BitVec 32, x ≠ k → x.toInt ≠ k.toInt := fun k h h' => h (BitVec.eq_of_toInt_eq h')
    rw [requestedOf, if_neg (show x.toInt ≠ 8 from e 8 h8), if_neg (show x.toInt ≠ 4 from e 4 h4), if_neg (show x.toInt ≠ 2 from e 2 h2),
      if_neg (show x.toInt ≠ 1 from e 1 h1)]
    show (Res.of (bestImplementation cpu)).bind _ = _
    rw [best_eq]
    cases bestFor cpu <;> rfl

/-- **C83** The text of `Hasher::Hasher()` sets the member to the best implementation for the processor; the behaviour is undefined if the processor has no
leaf 7. -/
theorem C83_default (cpu : Cpu) (m : HashFn) : ∃ f, hasherDefaultText = some f ∧ ∀ int E fuel d, 2 ≤ d →
    run constructorCalled int none E fuel d f [] (hasherGlobals cpu (.routine m)) [] = match bestFor cpu with
      | some f => .ok (.void, hasherGlobals cpu (.routine f), [])
      | none => .ub := by
  refine ⟨_, hasherDefaultF_read, fun int E fuel d hd => ?_⟩
  obtain ⟨d, rfl⟩ := Nat.exists_eq_add_of_le' hd
  rw [hasher_default_run constructorCalled int E fuel d cpu m constructorCalled_eq.1 constructorCalled_eq.2, best_eq]
  cases bestFor cpu <;> rfl

/-- **C83** The texts of the operators `|`, `&` and `!` of `IMPL` compute the union, the intersection and whether the set is empty, for all values. -/
theorem C83_operators (x y : Impl) : ∃ o a n, implOperator (name% "|") = some o ∧ implOperator (name% "&") = some a ∧ implOperator (name% "!") = some n ∧
    ∀ fs int elem E fuel d g,
      run fs int elem E fuel d o [.int .i32 x.toInt, .int .i32 y.toInt] g [] = .ok (.int .i32 (x.or y).toInt, g, []) ∧
      run fs int elem E fuel d a [.int .i32 x.toInt, .int .i32 y.toInt] g [] = .ok (.int .i32 (x.and y).toInt, g, []) ∧
      run fs int elem E fuel d n [.int .i32 x.toInt] g [] = .ok (.bool x.not, g, []) := by
  refine ⟨_, _, _, implOrF_read, implAndF_read, implNotF_read, fun fs int elem E fuel d g => ⟨impl_or_run .., impl_and_run .., ?_⟩⟩
  rw [impl_not_run]
  rfl

/-- **C83** The enumerators of `IMPL` in the text are the ones that the interpreter uses: a name has a value exactly if the text says so. They are zero and four
different powers of two. -/
theorem C83_enumerators : ∃ l, implEnumerators = some l ∧ (∀ n, enumerator n = (l.find? fun p => Nat.beq n p.1).map (·.2)) ∧
    l.map (·.2) = [Impl.NONE.toNat, Impl.SSE.toNat, Impl.AVX.toNat, Impl.AVX2.toNat, Impl.SHA.toNat] ∧ (l.map (·.1)).Nodup ∧
    l.map (·.1) = [name% "NONE", name% "SSE", name% "AVX", name% "AVX2", name% "SHA"] ∧ l.map (·.2) = 0 :: (List.range 4).map (2 ^ ·) := by
  refine ⟨_, impl_read, fun n => ?_, by decide +kernel, by decide +kernel, rfl, by decide +kernel⟩
  rw [enumerator]
  simp only [List.find?]
  cases Nat.beq n (name% "NONE") <;> cases Nat.beq n (name% "SSE") <;> cases Nat.beq n (name% "AVX") <;> cases Nat.beq n (name% "AVX2") <;>
    cases Nat.beq n (name% "SHA") <;> rfl

/-- The implementation that a run leaves in the member. -/
def memberIn : Res (Val × Frame × List Obj) → Option HashFn
  | .ok (_, g, _) => match g.getLast? with
    | some (_, .routine f) => some f
    | _ => none
  | _ => none

/-- What running the texts gives on a processor with AVX2: with AVX asked for, with an unknown value, and without argument. -/
example : memberIn (run [implementedF, bestF] none none ⟨0, fun a _ => a, fun _ => 7#8⟩ 300 9 hasherF [.int .i32 2] (hasherGlobals (sampleCpu 22 0x10080201 0x20) (.routine .sse)) []) = some .avx ∧
    memberIn (run [implementedF, bestF] none none ⟨0, fun a _ => a, fun _ => 7#8⟩ 300 9 hasherF [.int .i32 3] (hasherGlobals (sampleCpu 22 0x10080201 0x20) (.routine .sse)) []) = some .avx2 ∧
    memberIn (run [implementedF, bestF] none none ⟨0, fun a _ => a, fun _ => 7#8⟩ 300 9 hasherDefaultF [] (hasherGlobals (sampleCpu 22 0x10080201 0x20) (.routine .sse)) []) = some .avx2 := by
  decide +kernel
example : bestFor (sampleCpu 22 0x10080201 0x20) = some .avx2 ∧ bestFor (sampleCpu 5 0x10080201 0x20) = none := by decide +kernel
example : Impl.or 9 4 = 13 ∧ Impl.and 13 4 = 4 ∧ Impl.not 0 = true := by decide

/-- What a text with two cases the wrong way round does, and that a text with a case without `break` is not read. -/
example : (match (read (codes ["Hasher::Hasher(Hasher::IMPL impl) {", "    switch (impl) {", "        case IMPL::SHA:", "            _hash_64b_blocks = sha256_8_avx2;",
      "            break;", "        case IMPL::AVX2:", "            _hash_64b_blocks = sha256_shani;", "            break;", "        default:",
      "            _hash_64b_blocks = &sha256_sse;", "    }", "}"])).bind fun l => constructors l (name% "Hasher") with
    | some [f] => memberIn (run [] none none ⟨0, fun a _ => a, fun _ => 7#8⟩ 300 9 f [.int .i32 8] (hasherGlobals (sampleCpu 22 0x10080201 0x20) (.routine .sse)) [])
    | _ => none) = some .avx2 := by decide +kernel
example : ((read (codes ["Hasher::Hasher(Hasher::IMPL impl) {", "    switch (impl) {", "        case IMPL::SHA:", "            _hash_64b_blocks = sha256_8_avx2;",
      "        default:", "            _hash_64b_blocks = &sha256_sse;", "    }", "}"])).bind fun l => constructors l (name% "Hasher")).isNone = true := by decide +kernel

end Mammon.Cpp
