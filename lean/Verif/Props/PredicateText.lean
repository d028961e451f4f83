import Verif.Proofs.CppPredicates
import Verif.Props.Equality
import Verif.Props.Hasher
import Verif.Props.Cpu
/-!
# C79: the text of the predicates and of the choice of a SHA-256 implementation, run as C++
-/

namespace Mammon.Cpp
open Nasm

/-- **C79** The text of the three predicates of a validator decides the predicates of the specification, for every validator and epoch; the object
stays as it is. -/
theorem C79_validator (v : Objects.validator.denote) (e : BitVec 64) : ∃ f g h,
    validatorText (name% "is_active") = some f ∧ validatorText (name% "is_eligible_for_activation_queue") = some g ∧
    validatorText (name% "is_slashable") = some h ∧ ∀ fs int elem E fuel d, ∃ a b c,
      run fs int elem E fuel d f [.obj ⟨.uint64, e⟩] (structGlobals Objects.validator v) [] = .ok (.bool a, structGlobals Objects.validator v, []) ∧
      run fs int elem E fuel d g [] (structGlobals Objects.validator v) [] = .ok (.bool b, structGlobals Objects.validator v, []) ∧
      run fs int elem E fuel d h [.obj ⟨.uint64, e⟩] (structGlobals Objects.validator v) [] = .ok (.bool c, structGlobals Objects.validator v, []) ∧
      (a = true ↔ Spec.isActiveValidator (validatorRecord v) e.toNat) ∧ (b = true ↔ Spec.isEligibleForActivationQueue (validatorRecord v)) ∧
      (c = true ↔ Spec.isSlashableValidator (validatorRecord v) e.toNat) := by
  obtain ⟨h1, h2, h3⟩ := C37_predicates v e
  exact ⟨_, _, _, isActiveF_read, isEligibleF_read, isSlashableF_read, fun fs int elem E fuel d =>
    ⟨_, _, _, is_active fs int elem E fuel d v e, is_eligible fs int elem E fuel d v, is_slashable fs int elem E fuel d v e, h1, h2, h3⟩⟩

/-- **C79** The text of `AttestationData::is_slashable` recognises exactly the surround votes, for every pair of votes. (That it misses the double votes
is the error of C35: the inherited `operator==` calls any two objects equal.) -/
theorem C79_slashable_pair (v w : Objects.attestationData.denote) : ∃ f, attestationText (name% "AttestationData") (name% "is_slashable") = some f ∧
    ∀ fs int elem E fuel d, ∃ a, run fs int elem E fuel d f [.obj ⟨Objects.attestationData, w⟩] (structGlobals Objects.attestationData v) [] =
      .ok (.bool a, structGlobals Objects.attestationData v, []) ∧ (a = true ↔ (voteOf v).isSurround (voteOf w)) :=
  ⟨_, isSlashablePairF_read, fun fs int elem E fuel d => ⟨_, is_slashable_pair fs int elem E fuel d v w, C35_surround_partial v w⟩⟩

/-- **C79** The text of `IndexedAttestation::is_valid` accepts exactly the nonempty strictly increasing lists of indices, whatever its argument is. -/
theorem C79_is_valid (p : Preset) (v : (Objects.indexedAttestation p).denote) (state : Val) : ∃ f,
    attestationText (name% "IndexedAttestation") (name% "is_valid") = some f ∧
    ∃ l, Spec.natsAt (t := Objects.indexedAttestation p) v ["attesting_indices"] = some l ∧ ∀ fs int elem E fuel d, ∃ a,
      run fs int elem E fuel d f [state] (structGlobals (Objects.indexedAttestation p) v) [] =
        .ok (.bool a, structGlobals (Objects.indexedAttestation p) v, []) ∧ (a = true ↔ Spec.indicesValid l) := by
  obtain ⟨l, hl, h⟩ := C36_is_valid p v
  exact ⟨_, isValidF_read, l, hl, fun fs int elem E fuel d => ⟨_, is_valid fs int elem E fuel d p v state, h⟩⟩

/-- The function that `best_sha256_implementation` calls. -/
def hasherCalled : List Func := (hasherText (name% "implemented")).toList

theorem hasherCalled_eq : find (name% "implemented") hasherCalled = some implementedF := by
  rw [hasherCalled, hasherText, implementedF_read]
  kernel_refl

/-- **C79** The text of `Hasher::implemented` returns the set of extensions that the model says, and reads an uninitialised variable if the processor has no
leaf 7. -/
theorem C79_implemented (cpu : Cpu) : ∃ f, hasherText (name% "implemented") = some f ∧ ∀ fs int E fuel d m,
    run fs int none E fuel d f [] (hasherGlobals cpu m) [] =
      (Res.of (implemented cpu)).bind fun i => .ok (.int .i32 i.toNat, hasherGlobals cpu m, []) :=
  ⟨_, implementedF_read, fun fs int E fuel d m => implemented_run fs int E fuel d cpu m⟩

/-- **C79** The text of `Hasher::best_sha256_implementation` returns the first implementation in the order of preference whose extension the processor
reports, if the processor has leaf 7, and its behaviour is undefined otherwise. -/
theorem C79_best (cpu : Cpu) : ∃ f, hasherText (name% "best_sha256_implementation") = some f ∧ ∀ int E fuel d m, 1 ≤ d →
    run hasherCalled int none E fuel d f [] (hasherGlobals cpu m) [] =
      if 7 ≤ cpu.maxLeaf.toNat then match preference.find? fun x => cpu.reports x.1 with
        | some x => .ok (.routine x.2, hasherGlobals cpu m, [])
        | none => .ub
      else .ub := by
  refine ⟨_, bestF_read, fun int E fuel d m hd => ?_⟩
  obtain ⟨d, rfl⟩ := Nat.exists_eq_add_of_le' hd
  rw [best_run hasherCalled int E fuel d cpu m hasherCalled_eq]
  by_cases h : 7 ≤ cpu.maxLeaf.toNat
  · rw [if_pos h, show bestImplementation cpu = hasherDefault cpu from rfl, C27_preferred cpu h]
    cases preference.find? fun x => cpu.reports x.1 <;> rfl
  · rw [if_neg h, show bestImplementation cpu = hasherDefault cpu from rfl, C27_uninitialised cpu (by omega)]
    rfl

theorem hashesOf_sha256 (inp : List Byte) (n j : Nat) (h : j + 64 * n ≤ inp.length) :
    (hashesOf sha256Chunks inp n j).length = 32 * n ∧
    ∀ k, k < n → ((hashesOf sha256Chunks inp n j).drop (32 * k)).take 32 = Spec.SHA256.sha256 ((inp.drop (j + 64 * k)).take 64) := by
  induction n generalizing j with
  | zero => exact ⟨rfl, fun k hk => absurd hk (by omega)⟩
  | succ n ih =>
    obtain ⟨h1, h2⟩ := ih (j + 64) (by omega)
    have hl : ((inp.drop j).take 64).length = 64 := by rw [List.length_take, List.length_drop]; omega
    have hx := length_hashOf sha256Chunks _ hl
    obtain ⟨a, b, _, _, e, hab⟩ := hashOf_eq sha256Chunks _ hl
    refine ⟨by rw [hashesOf, List.length_append, hx, h1]; omega, fun k hk => ?_⟩
    rw [hashesOf]
    cases k with
    | zero =>
      rw [Nat.mul_zero, List.drop_zero, List.take_left' hx, e, Nat.add_zero, ← hab]
      rfl
    | succ k =>
      rw [show 32 * (k + 1) = 32 + 32 * k by omega, ← List.drop_drop, List.drop_left' hx, h2 k (by omega),
        show j + 64 + 64 * k = j + 64 * (k + 1) by omega]

/-- **C79** The text of `Hasher::sha256_sse`, with pointers into an input and an output that have room for the blocks, stores the SHA-256 digest of each
block in its place and changes nothing else. -/
theorem C79_sha256_sse (inp out : List Byte) (n i j : Nat) (hn : n < 2 ^ 64) (hj : j + 64 * n ≤ inp.length) (hi : i + 32 * n ≤ out.length) : ∃ f,
    hasherText (name% "sha256_sse") = some f ∧ ∃ out', out'.length = out.length ∧ out'.take i = out.take i ∧ out'.drop (i + 32 * n) = out.drop (i + 32 * n) ∧
      (∀ k, k < n → (out'.drop (i + 32 * k)).take 32 = Spec.SHA256.sha256 ((inp.drop (j + 64 * k)).take 64)) ∧
      ∀ fs int elem E fuel d, E.hash = sha256Chunks → n < fuel →
        run fs int elem E fuel d f [.iter (.glob 1) i, .iter (.glob 0) j, .int .u64 n] (sseGlobals inp out) [] = .ok (.void, sseGlobals inp out', []) := by
  obtain ⟨h1, h2⟩ := hashesOf_sha256 inp n j hj
  have ht : (out.take i).length = i := by rw [List.length_take]; omega
  refine ⟨_, sseF_read, out.take i ++ (hashesOf sha256Chunks inp n j ++ out.drop (i + 32 * n)), ?_, ?_, ?_, fun k hk => ?_, fun fs int elem E fuel d hE hf => ?_⟩
  · rw [List.length_append, List.length_append, ht, h1, List.length_drop]; omega
  · rw [List.take_left' ht]
  · rw [← List.append_assoc, List.drop_left' (by rw [List.length_append, ht, h1])]
  · rw [← List.drop_drop, List.drop_left' ht, List.drop_append_of_le_length (by omega), List.take_append_of_le_length (by rw [List.length_drop]; omega), h2 k hk]
  · rw [sse_run fs int elem E fuel d inp out n i j hn hj hi hf, hE]

/-- **C79** If the blocks are not in the input, or their digests do not fit into the output, the behaviour of the text of `sha256_sse` is undefined. -/
theorem C79_sha256_sse_outside (inp out : List Byte) (n i j : Nat) (hn : n < 2 ^ 64) (hi : i ≤ out.length) (hj : j ≤ inp.length)
    (h : inp.length < j + 64 * n ∨ out.length < i + 32 * n) : ∃ f, hasherText (name% "sha256_sse") = some f ∧
      ∀ fs int elem E fuel d, n < fuel →
        run fs int elem E fuel d f [.iter (.glob 1) i, .iter (.glob 0) j, .int .u64 n] (sseGlobals inp out) [] = .ub :=
  ⟨_, sseF_read, fun fs int elem E fuel d hf => sse_run_ub fs int elem E fuel d inp out n i j hn h hi hj hf⟩

/-- The hypotheses hold: three blocks of 200 bytes from the fourth byte on, to the last 96 bytes of 100; and not if there are only two blocks. -/
example : 3 < 2 ^ 64 ∧ 4 + 64 * 3 ≤ (List.replicate 200 1#8).length ∧ 4 + 32 * 3 ≤ (List.replicate 100 0#8).length := by
  simp only [List.length_replicate]; decide
example : 3 < 2 ^ 64 ∧ 4 ≤ (List.replicate 100 0#8).length ∧ 4 ≤ (List.replicate 132 1#8).length ∧
    ((List.replicate 132 1#8).length < 4 + 64 * 3 ∨ (List.replicate 100 0#8).length < 4 + 32 * 3) := by
  simp only [List.length_replicate]; decide

/-- What running the texts gives: a validator active at epoch 5, and not at epoch 10; a surround vote, and a double vote that is missed; two lists of
indices, one with a repetition; a processor with AVX2 and one without leaf 7. -/
example : let v : Objects.validator.denote :=
      (⟨List.replicate 48 1#8, by decide⟩, Samples.root 1, 32000000000#64, false, 0xffffffffffffffff#64, 5#64, 10#64, 20#64, ())
    Spec.isActiveValidator (validatorRecord v) 5 ∧ ¬ Spec.isActiveValidator (validatorRecord v) 10 := by
  refine ⟨((C37_predicates _ 5#64).1).1 (by decide +kernel), fun h => ?_⟩
  exact absurd (((C37_predicates _ 10#64).1).2 h) (by decide +kernel)
example : (voteOf (Samples.attestationData 3 9)).isSurround (voteOf (Samples.attestationData 4 8)) ∧
    (voteOf (Samples.attestationData 3 9)).isDouble (voteOf (Samples.attestationData 4 9)) := by
  refine ⟨⟨by decide +kernel, by decide +kernel⟩, fun h => ?_, by decide +kernel⟩
  exact absurd (congrArg Spec.Vote.sourceEpoch h) (by decide +kernel)
example : (preference.find? fun x => (sampleCpu 22 0x10080201 0x20).reports x.1) = some (.avx2, .avx2) ∧ ¬ 7 ≤ (sampleCpu 5 0x10080201 0x20).maxLeaf.toNat := by
  decide +kernel

/-- What the text of a function that tests the exit epoch with `<=` computes: running it finds the error. -/
example : (match (read (codes ["bool Validator::is_active(const Epoch& epoch) const {", "    return (activation_epoch <= epoch && epoch <= exit_epoch);",
      "}"])).bind fun l => freeFunction l (name% "Validator") (name% "is_active") with
    | some f => match run [] none none ⟨0, fun a _ => a, fun _ => 0#8⟩ 9 9 f [.obj ⟨.uint64, 10#64⟩] (structGlobals Objects.validator
        (⟨List.replicate 48 1#8, by decide⟩, Samples.root 1, 32000000000#64, false, 0xffffffffffffffff#64, 5#64, 10#64, 20#64, ())) [] with
      | .ok (.bool a, _) => a
      | _ => false
    | none => false) = true := by decide +kernel

end Mammon.Cpp
