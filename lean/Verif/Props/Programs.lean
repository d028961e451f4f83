import Verif.Model.Programs
import Verif.Props.Sha256
import Verif.Props.TestDriver
/-!
# The test programs and the benchmark: C52, C55, C56
-/

namespace Mammon

open X86 TestDriver Spec.SHA256

/-! ## C52: the loops over the directories, and the list of tests -/

/-- The files of a directory agree with the specification. -/
def Conforms (t : Ty) (d : Files) : Prop :=
  ∃ v : t.denote, Spec.withinLimits t v = true ∧ Spec.bitlistsShort t v = true ∧ (Spec.encode t v).length < 2 ^ 32 ∧ Spec.Denotes t v d.value ∧
    IsRootFile (Spec.root sha256Chunks t v) d.roots ∧ d.raw = some (Spec.encode t v)

/-- **C52** The test of a class over any number of directories that agree with the specification: all checks succeed. -/
theorem C52_all_directories (f : HashFn) (H : Chunk → Chunk → Chunk) (hf : f.Computes H) (t : Ty) (ht : InRepo t) (old obj : t.denote)
    (ds : List Files) (hd : ∀ d ∈ ds, Conforms t d) :
    runAll (opsOf H t old obj) ds = .ok (List.replicate ds.length ⟨true, true, true⟩) := by
  induction ds with
  | nil => rfl
  | cons d ds ih =>
    obtain ⟨v, h1, h2, h3, h4, h5, h6⟩ := hd d (by simp)
    rw [runAll, h6, C52_passes f H hf t ht old obj v h1 h2 h3 _ _ h4 h5, Out.bind, ih fun d h => hd d (by simp [h])]
    rfl

example : ∃ d, Conforms (Objects.attestation mainnet) d := by
  obtain ⟨value, hv⟩ := C51_exists _ inRepo_attestation.wellNamed (Samples.attestation [true, false, true])
  obtain ⟨roots, hr⟩ := C51_exists (.container 32 false (.cons "root" (.bytes 32) .nil)) (by decide +kernel)
    (Spec.root sha256Chunks (Objects.attestation mainnet) (Samples.attestation [true, false, true]), ())
  exact ⟨⟨value, roots, _⟩, _, by decide +kernel, by decide +kernel, by decide +kernel, hv, hr, rfl⟩

/-- **C52** Every class is tested exactly once, with the directory of its name. -/
theorem C52_every_class (p : Preset) : ((Objects.all p).map (·.1)).Perm (tests.map (·.2.1)) ∧ (∀ x ∈ tests, x.2.1 = x.2.2) ∧
    (tests.map (·.1)).Nodup := by
  have h : (Objects.all p).map (·.1) = (Objects.all mainnet).map (·.1) := rfl
  rw [h]
  decide +kernel

/-! ## C55: the tests of the SHA-256 routines -/

open ShaTest

/-- SHA-256 of one block of the tests. -/
theorem test_8_digest (i : Nat) (hi : i < 8) : sha256 ((test_8_block.drop (64 * i)).take 64) = (test_8_digests.drop (32 * i)).take 32 := by
  have h1 : ∀ i < 8, (pad ((test_8_block.drop (64 * i)).take 64)).length / 64 = 2 := by decide +kernel
  rw [sha256_two _ (h1 i hi)]
  revert i
  decide +kernel

/-- The digests of the tests are the SHA-256 digests of the blocks of the tests. -/
theorem expected_digests (c : Case) (hc : c ∈ cases) : digests c.blocks (test_8_block.take (2 * BYTES_PER_CHUNK * c.blocks)) = c.expected := by
  have h1 : ∀ c ∈ cases, ∀ i ∈ List.range c.blocks, i < 8 ∧
      ((test_8_block.take (2 * BYTES_PER_CHUNK * c.blocks)).drop (64 * i)).take 64 = (test_8_block.drop (64 * i)).take 64 := by decide +kernel
  have h2 : ∀ c ∈ cases, ((List.range c.blocks).flatMap fun i => (test_8_digests.drop (32 * i)).take 32) = c.expected := by decide +kernel
  rw [← h2 c hc, digests]
  exact flatMap_congr' fun i hi => by rw [(h1 c hc i hi).2, test_8_digest i (h1 c hc i hi).1]

theorem implemented_eq (cpu : Cpu) (h : 7 ≤ cpu.maxLeaf.toNat) : implemented cpu = .ok
    ((if cpu.reports .sha then Impl.SHA else 0) ||| (if cpu.reports .avx2 then Impl.AVX2 else 0) ||| (if cpu.reports .avx then Impl.AVX else 0) |||
      (if cpu.leaf1.c.getLsbD 0 then Impl.SSE else 0)) := by
  have h7 : ¬(cpu.maxLeaf = 0 ∨ cpu.maxLeaf < 7) := by
    rintro (h0 | h0)
    · rw [h0] at h; exact absurd h (by decide)
    · have : cpu.maxLeaf.toNat < 7 := h0
      omega
  have h1 : ¬(cpu.maxLeaf = 0 ∨ cpu.maxLeaf < 1) := by
    rintro (h0 | h0)
    · rw [h0] at h; exact absurd h (by decide)
    · have : cpu.maxLeaf.toNat < 1 := h0
      omega
  simp only [implemented, Cpu.get, if_neg h7, if_neg h1, Option.map, Option.or, readVar, Out.bind,
    and_bit cpu.leaf7.b (show bit_SHA = BitVec.twoPow 32 29 by decide) (by decide),
    and_bit cpu.leaf7.b (show bit_AVX2 = BitVec.twoPow 32 5 by decide) (by decide),
    and_bit cpu.leaf1.c (show bit_AVX = BitVec.twoPow 32 28 by decide) (by decide),
    and_bit cpu.leaf1.c (show bit_SSE3 = BitVec.twoPow 32 0 by decide) (by decide), Cpu.reports, h, show 1 ≤ cpu.maxLeaf.toNat by omega,
    decide_true, Bool.true_and]
  cases cpu.leaf7.b.getLsbD 29 <;> cases cpu.leaf7.b.getLsbD 5 <;> cases cpu.leaf1.c.getLsbD 28 <;> cases cpu.leaf1.c.getLsbD 0 <;> rfl

/-- **C55** On a processor with leaf 7, each test calls the function it is for if the processor reports the extension (SSE3, AVX, AVX2, SHA), and does
nothing otherwise. -/
theorem C55_selects (cpu : Cpu) (h : 7 ≤ cpu.maxLeaf.toNat) : (cases.map fun c => (c.name, c.select cpu)) =
    [("hash_avx_1", .ok (if cpu.leaf1.c.getLsbD 0 then some .sse else none)), ("hash_avx_4", .ok (if cpu.reports .avx then some .avx else none)),
      ("hash_avx2_8", .ok (if cpu.reports .avx2 then some .avx2 else none)), ("hash_shani", .ok (if cpu.reports .sha then some .shani else none))] := by
  simp only [cases, List.map, Case.select, implemented_eq cpu h, Out.bind]
  generalize cpu.reports .sha = b1
  generalize cpu.reports .avx2 = b2
  generalize cpu.reports .avx = b3
  generalize cpu.leaf1.c.getLsbD 0 = b4
  cases b1 <;> cases b2 <;> cases b3 <;> cases b4 <;> rfl

-- SSE3 and AVX2, but neither AVX nor the SHA instructions
example : 7 ≤ (sampleCpu 7 0x00000201 0x20).maxLeaf.toNat ∧ (cases.map fun c => c.select (sampleCpu 7 0x00000201 0x20)) =
    [.ok (some .sse), .ok none, .ok (some .avx2), .ok none] := by decide +kernel

/-- **C55** The check of a test succeeds, whatever function the hasher has, and cannot fail. -/
theorem C55_passes (f : HashFn) (c : Case) (hc : c ∈ cases) (b : Bool) : c.Check f b ↔ b = true := by
  have hl : ∀ c ∈ cases, c.blocks ≤ 2 ^ 40 ∧ (test_8_block.take (2 * BYTES_PER_CHUNK * c.blocks)).length = 64 * c.blocks := by decide +kernel
  constructor
  · rintro ⟨out, h1, rfl⟩
    rw [Case.verdict, call_eq f h1, expected_digests c hc, beq_self_eq_true]
  · rintro rfl
    obtain ⟨out, h⟩ := call_exists f (hl c hc).1 _ (hl c hc).2
    exact ⟨out, h, by rw [Case.verdict, call_eq f h, expected_digests c hc, beq_self_eq_true]⟩

/-- **C55** A test detects every wrong digest: the check succeeds only for the SHA-256 digests of the blocks hashed. -/
theorem C55_detects (c : Case) (hc : c ∈ cases) (out : List Byte) :
    c.verdict out = true ↔ out = digests c.blocks (test_8_block.take (64 * c.blocks)) := by
  rw [Case.verdict, beq_iff_eq, ← expected_digests c hc]
  exact Iff.rfl

example : ∃ c ∈ cases, c.verdict (c.expected.set 255 0#8) = false := by decide +kernel

/-- **C55** On a processor without leaf 7 every test reads uninitialised variables. -/
theorem C55_uninitialised (cpu : Cpu) (h : cpu.maxLeaf.toNat < 7) (c : Case) : c.select cpu = .ub := by
  have h7 : cpu.maxLeaf = 0 ∨ cpu.maxLeaf < 7 := Or.inr (show cpu.maxLeaf.toNat < 7 from h)
  simp only [Case.select, implemented, Cpu.get, if_pos h7, Option.map, readVar, Out.bind]

example : (sampleCpu 5 0x00000201 0).maxLeaf.toNat < 7 := by decide

/-- **C55** On a processor that reports SSE3 but not AVX, the first test executes instructions the processor does not report. -/
theorem C55_first_test_unsupported (cpu : Cpu) (h : 7 ≤ cpu.maxLeaf.toNat) (h1 : cpu.leaf1.c.getLsbD 0 = true) (h2 : cpu.reports .avx = false) :
    ∃ c ∈ cases, ∃ f i, c.select cpu = .ok (some f) ∧ Executed f i ∧ cpu.reports i.ext = false := by
  obtain ⟨i, hi, he⟩ : ∃ i ∈ (code .one).body, i.ext = .avx := by decide +kernel
  refine ⟨⟨"hash_avx_1", Impl.SSE, 1, test_1_digest⟩, by simp [cases], .sse, i, ?_,
    ⟨Sample.env 0 Region.writable 1, Sample.state 0 Region.writable 1 [], 0, .one, [], _, rfl, hi⟩, by rw [he, h2]⟩
  have := congrArg List.head? (C55_selects cpu h)
  simp only [cases, List.map, List.head?, h1, if_true, Option.some.injEq, Prod.mk.injEq, true_and] at this
  exact this

-- a processor with leaf 7, SSE3, SSSE3 and neither AVX nor the SHA instructions
example : 7 ≤ (sampleCpu 7 0x00000201 0).maxLeaf.toNat ∧ (sampleCpu 7 0x00000201 0).leaf1.c.getLsbD 0 = true ∧
    (sampleCpu 7 0x00000201 0).reports .avx = false := by decide

/-! ## C56: the benchmark -/

theorem rounds_ok (r : Chunk) (n : Nat) : Bench.rounds (.ok r) n = .ok (List.replicate n r) := by
  induction n with
  | zero => rfl
  | succ n ih => rw [Bench.rounds, Out.bind, ih]; rfl

theorem inRepo_beaconState (p : Preset) (hp : p ∈ [mainnet, minimal]) : InRepo (Objects.beaconState p) :=
  ⟨p, hp, ("BeaconState", Objects.beaconState p), by simp [Objects.all], rfl⟩

/-- **C56** On a file with the encoding of a state the benchmark returns 0, after computing the root of that state ten times. -/
theorem C56_encoding (f : HashFn) (H : Chunk → Chunk → Chunk) (hf : f.Computes H) (p : Preset) (hp : p ∈ [mainnet, minimal])
    (old v : (Objects.beaconState p).denote) (hl : Spec.withinLimits (Objects.beaconState p) v = true)
    (hb : Spec.bitlistsShort (Objects.beaconState p) v = true) (hs : (Spec.encode (Objects.beaconState p) v).length < 2 ^ 32) :
    Bench.run H p old (some (Spec.encode (Objects.beaconState p) v)) =
      .ok (0, List.replicate 10 (Spec.root sha256Chunks (Objects.beaconState p) v)) := by
  have ht := inRepo_beaconState p hp
  obtain ⟨bs, h1, h2⟩ := C01_classes _ ht v old hb hs
  obtain rfl := Out.ok.inj (h1.symm.trans (C02_encoding _ ht.wf v hb))
  simp only [Bench.run, h2, Out.bind, C16_classes f H hf _ ht v hl hb, rounds_ok, Bool.not_true, Bool.false_eq_true, if_false, Out.map]

-- the state of a new object
example : minimal ∈ [mainnet, minimal] ∧ Spec.withinLimits (Objects.beaconState minimal) (Objects.beaconState minimal).dflt = true ∧
    Spec.bitlistsShort (Objects.beaconState minimal) (Objects.beaconState minimal).dflt = true ∧
    (Spec.encode (Objects.beaconState minimal) (Objects.beaconState minimal).dflt).length < 2 ^ 32 := by
  decide +kernel

/-- **C56** The benchmark returns 1, without hashing, if and only if there is no file or the file is rejected. -/
theorem C56_failure (H : Chunk → Chunk → Chunk) (p : Preset) (old : (Objects.beaconState p).denote) (file : Option (List Byte)) :
    (∃ roots, Bench.run H p old file = .ok (1, roots)) ↔
      file = none ∨ ∃ bs v, file = some bs ∧ deserialize (Objects.beaconState p) old bs = .ok (false, v) := by
  rcases file with _ | bs
  · simp [Bench.run]
  · simp only [Bench.run, reduceCtorEq, Option.some.injEq, false_or]
    have hr : ∀ (x : Out Chunk) (n : Nat) (roots : List Chunk), (Bench.rounds x n).map (fun roots => ((0 : Nat), roots)) ≠ .ok (1, roots) := by
      intro x n roots h
      rcases hx : Bench.rounds x n with y | _ | _ <;> rw [hx] at h <;> cases h
    rcases hd : deserialize (Objects.beaconState p) old bs with ⟨_ | _, v⟩ | _ | _
    · exact ⟨fun _ => ⟨bs, v, rfl, hd⟩, fun _ => ⟨[], rfl⟩⟩
    · refine ⟨fun ⟨roots, h⟩ => ?_, fun ⟨bs', v', e, h⟩ => by subst e; rw [hd] at h; cases h⟩
      simp only [Out.bind, Bool.not_true, Bool.false_eq_true, if_false] at h
      exact absurd h (hr _ _ _)
    · exact ⟨fun ⟨_, h⟩ => (by cases h), fun ⟨_, _, e, h⟩ => by subst e; rw [hd] at h; cases h⟩
    · exact ⟨fun ⟨_, h⟩ => (by cases h), fun ⟨_, _, e, h⟩ => by subst e; rw [hd] at h; cases h⟩

/-- A file that does not begin with the offset of the variable part is rejected. -/
example : ∃ v, deserialize (Objects.beaconState minimal) (Objects.beaconState minimal).dflt [1, 2, 3] = .ok (false, v) := ⟨_, rfl⟩

/-- **C56** If the benchmark returns 0, the file was accepted, and the roots are ten times that of the object decoded. -/
theorem C56_success (H : Chunk → Chunk → Chunk) (p : Preset) (old : (Objects.beaconState p).denote) (file : Option (List Byte)) (roots : List Chunk)
    (h : Bench.run H p old file = .ok (0, roots)) : ∃ bs v r, file = some bs ∧ deserialize (Objects.beaconState p) old bs = .ok (true, v) ∧
      hashTreeRoot H (Objects.beaconState p) v = .ok r ∧ roots = List.replicate 10 r := by
  rcases file with _ | bs
  · cases h
  · simp only [Bench.run] at h
    rcases hd : deserialize (Objects.beaconState p) old bs with ⟨_ | _, v⟩ | _ | _ <;> rw [hd] at h
    · cases h
    · simp only [Out.bind, Bool.not_true, Bool.false_eq_true, if_false] at h
      rcases hr : hashTreeRoot H (Objects.beaconState p) v with r | _ | _ <;> rw [hr] at h
      · rw [rounds_ok, Out.map] at h
        exact ⟨bs, v, r, rfl, hd, hr, by cases h; rfl⟩
      · cases h
      · cases h
    · cases h
    · cases h

end Mammon
