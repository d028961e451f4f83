import Verif.Props.Machine
import Verif.Props.Merkle
/-!
# Properties of the choice of the SHA-256 implementation: C26, C27

A call of an implementation is any run of the machine model of its routine from any state that satisfies the calling convention
(`HashFn.Call`). The runs always end (C22 to C25).
-/

namespace Mammon

open X86

/-! ## C26 -/

/-- SHA-256 of the 64 bytes of two chunks. -/
def sha256Chunks (a b : Chunk) : Chunk := ⟨Spec.SHA256.sha256 (a.1 ++ b.1), length_sha256 _⟩

/-- **C26** Whichever implementation is called, the output consists of the SHA-256 digests of the blocks. -/
theorem C26_digests (f : HashFn) {n : Nat} {inp out : List Byte} (h : f.Call n inp out) :
    out.length = 32 * n ∧ ∀ i, i < n → (out.drop (32 * i)).take 32 = Spec.SHA256.sha256 ((inp.drop (64 * i)).take 64) := by
  rw [call_eq f h]
  clear h
  induction n generalizing inp with
  | zero => exact ⟨rfl, fun i hi => absurd hi (by omega)⟩
  | succ n ih =>
    obtain ⟨h1, h2⟩ := ih (inp := inp.drop 64)
    rw [digests_succ]
    refine ⟨by rw [List.length_append, length_sha256, h1]; omega, fun i hi => ?_⟩
    cases i with
    | zero =>
      simp only [Nat.mul_zero, List.drop_zero]
      exact List.take_left' (length_sha256 _)
    | succ i =>
      rw [Nat.mul_succ, Nat.add_comm, ← List.drop_drop, List.drop_left' (length_sha256 _), h2 i (by omega), List.drop_drop, Nat.mul_succ, Nat.add_comm]

/-- **C26** The outputs of two implementations agree. -/
theorem C26_same_output (f g : HashFn) {n : Nat} {inp out out' : List Byte} (h : f.Call n inp out) (h' : g.Call n inp out') : out = out' := by
  rw [call_eq f h, call_eq g h']

example (f g : HashFn) (n : Nat) (hn : n ≤ 2 ^ 40) (inp : List Byte) (hlen : inp.length = 64 * n) :
    (∃ out, f.Call n inp out) ∧ ∃ out, g.Call n inp out := ⟨call_exists f hn inp hlen, call_exists g hn inp hlen⟩

/-- Every implementation computes SHA-256 on one block, and nothing else. -/
theorem computes_iff (f : HashFn) (H : Chunk → Chunk → Chunk) : f.Computes H ↔ H = sha256Chunks := by
  have hd : ∀ a b : Chunk, digests 1 (a.1 ++ b.1) = (sha256Chunks a b).1 := by
    intro a b
    have hl : (a.1 ++ b.1).length = 64 := by rw [List.length_append, a.2, b.2]
    rw [digests_succ, List.take_of_length_le (by omega)]
    exact List.append_nil _
  constructor
  · intro h
    funext a b
    obtain ⟨out, ho⟩ := call_exists f (n := 1) (by decide) (a.1 ++ b.1) (by rw [List.length_append, a.2, b.2])
    apply Subtype.ext
    rw [← h a b out ho, call_eq f ho, hd]
  · rintro rfl a b out ho
    rw [call_eq f ho, hd]

example (f : HashFn) : f.Computes sha256Chunks := (computes_iff f _).2 rfl

/-- **C26** `hash_tree_root` of any object is the same whichever implementation is selected. -/
theorem C26_same_root (f g : HashFn) (H H' : Chunk → Chunk → Chunk) (hf : f.Computes H) (hg : g.Computes H') (t : Ty) (v : t.denote) :
    hashTreeRoot H t v = hashTreeRoot H' t v := by
  rw [(computes_iff f H).1 hf, (computes_iff g H').1 hg]

/-- **C26** The root is the one of the SSZ specification with SHA-256. -/
theorem C26_root (f : HashFn) (H : Chunk → Chunk → Chunk) (hf : f.Computes H) (t : Ty) (ht : Spec.hashable t = true) (v : t.denote)
    (hl : Spec.withinLimits t v = true) (hb : Spec.bitlistsShort t v = true) : hashTreeRoot H t v = .ok (Spec.root sha256Chunks t v) := by
  rw [C16_hash_tree_root H t ht v hl hb, (computes_iff f H).1 hf]

theorem hashBlocks_length (H : Chunk → Chunk → Chunk) (src : List Chunk) : ∀ (k di si : Nat) (dst dst' : List Chunk),
    hashBlocks H src k di si dst = .ok dst' → dst'.length = dst.length
  | 0, _, _, dst, dst', h => by cases h; rfl
  | k + 1, di, si, dst, dst', h => by
    rw [hashBlocks] at h
    split at h
    · split at h
      · rw [hashBlocks_length H src k _ _ _ _ h, List.length_set]
      · cases h
    · cases h

/-- **C26** The hash tree's view of `hash_64b_blocks(&dst[di], &src[si], k)` is what every implementation does with the bytes: where the model
has a result, the call stores the bytes of the chunks `di .. di + k - 1` of it, and the other chunks are unchanged. -/
theorem C26_blocks (f : HashFn) (src : List Chunk) : ∀ (k di si : Nat) (dst dst' : List Chunk), hashBlocks sha256Chunks src k di si dst = .ok dst' →
    ∀ out, f.Call k (((src.drop si).take (2 * k)).flatMap (·.1)) out →
      out = ((dst'.drop di).take k).flatMap (·.1) ∧ dst'.take di = dst.take di ∧ dst'.drop (di + k) = dst.drop (di + k) := by
  have key : ∀ (k di si : Nat) (dst dst' : List Chunk), hashBlocks sha256Chunks src k di si dst = .ok dst' →
      digests k (((src.drop si).take (2 * k)).flatMap (·.1)) = ((dst'.drop di).take k).flatMap (·.1) ∧
        dst'.take di = dst.take di ∧ dst'.drop (di + k) = dst.drop (di + k) := by
    intro k
    induction k with
    | zero =>
      intro di si dst dst' h
      cases h
      exact ⟨by simp [digests], rfl, rfl⟩
    | succ k ih =>
      intro di si dst dst' h
      rw [hashBlocks] at h
      split at h
      · rename_i a b ha hb
        split at h
        · rename_i hd
          have hlen := hashBlocks_length _ _ _ _ _ _ _ h
          rw [List.length_set] at hlen
          obtain ⟨h1, h2, h3⟩ := ih _ _ _ _ h
          have hsrc : (src.drop si).take (2 * (k + 1)) = a :: b :: (src.drop (si + 2)).take (2 * k) := by
            obtain ⟨ha1, ha2⟩ := List.getElem?_eq_some_iff.1 ha
            obtain ⟨hb1, hb2⟩ := List.getElem?_eq_some_iff.1 hb
            rw [List.drop_eq_getElem_cons ha1, List.drop_eq_getElem_cons hb1, ha2, hb2]
            rfl
          have hx : dst'[di]'(by omega) = sha256Chunks a b := by
            have := congrArg (fun l => l[di]?) h2
            simp only [List.getElem?_take, if_pos (Nat.lt_succ_self di)] at this
            rw [List.getElem?_set_self hd, List.getElem?_eq_getElem (by omega)] at this
            exact Option.some.inj this
          refine ⟨?_, ?_, ?_⟩
          · rw [hsrc, List.flatMap_cons, List.flatMap_cons, ← List.append_assoc, digests_succ,
              List.take_left' (by rw [List.length_append, a.2, b.2]), List.drop_left' (by rw [List.length_append, a.2, b.2]), h1,
              List.drop_eq_getElem_cons (show di < dst'.length by omega), List.take_succ_cons, List.flatMap_cons, hx]
            rfl
          · have := congrArg (List.take di) h2
            rw [List.take_take, List.take_take, Nat.min_eq_left (by omega), List.take_set_of_le (Nat.le_refl _)] at this
            exact this
          · rw [show di + (k + 1) = di + 1 + k by omega, h3, List.drop_set_of_lt (by omega)]
        · cases h
      · cases h
  intro k di si dst dst' h out hc
  rw [call_eq f hc]
  exact key k di si dst dst' h

-- the first call of `merkleize` on three chunks
example : hashBlocks sha256Chunks threeChunks 1 0 0 [zeroHash, zeroHash] = .ok [sha256Chunks (Samples.root 1) (Samples.root 2), zeroHash] := rfl

/-! ## C27 -/

/-- The implementations in the order of preference, each with the extension that must be reported for it to be considered. -/
def preference : List (Ext × HashFn) := [(.sha, .shani), (.avx2, .avx2), (.avx, .avx), (.base, .sse)]

theorem and_bit (x : BitVec 32) {m : BitVec 32} {n : Nat} (hm : m = BitVec.twoPow 32 n) (h0 : m ≠ 0) : (x &&& m ≠ 0) ↔ x.getLsbD n = true := by
  rw [hm, BitVec.and_twoPow]
  rw [hm] at h0
  cases x.getLsbD n
  · simp
  · simpa using h0

/-- **C27** On a processor with leaf 7, the default implementation is the first in the order of preference whose extension is reported. -/
theorem C27_preferred (cpu : Cpu) (h : 7 ≤ cpu.maxLeaf.toNat) :
    hasherDefault cpu = match preference.find? fun x => cpu.reports x.1 with | some x => .ok x.2 | none => .ub := by
  have h7 : ¬(cpu.maxLeaf = 0 ∨ cpu.maxLeaf < 7) := by
    rintro (h0 | h0)
    · rw [h0] at h; exact absurd h (by decide)
    · have : cpu.maxLeaf.toNat < 7 := h0
      omega
  have h1 : ¬(cpu.maxLeaf = 0 ∨ cpu.maxLeaf < 1) := by
    rintro (h0 | h0)
    · rw [h0] at h; exact absurd h (by decide)
    · have : cpu.maxLeaf.toNat < 1 := h0
      omega
  have e1 : decide (1 ≤ cpu.maxLeaf.toNat) = true := decide_eq_true (by omega)
  have e7 : decide (7 ≤ cpu.maxLeaf.toNat) = true := decide_eq_true h
  simp only [hasherDefault, bestImplementation, implemented, Cpu.get, if_neg h7, if_neg h1, Option.map, Option.or, readVar, Out.bind, ne_eq,
    preference, Cpu.reports, e1, e7, Bool.true_and, List.find?]
  simp only [and_bit cpu.leaf7.b (show bit_SHA = BitVec.twoPow 32 29 by decide) (by decide),
    and_bit cpu.leaf7.b (show bit_AVX2 = BitVec.twoPow 32 5 by decide) (by decide),
    and_bit cpu.leaf1.c (show bit_AVX = BitVec.twoPow 32 28 by decide) (by decide),
    and_bit cpu.leaf1.c (show bit_SSE3 = BitVec.twoPow 32 0 by decide) (by decide)]
  cases cpu.leaf7.b.getLsbD 29 <;> cases cpu.leaf7.b.getLsbD 5 <;> cases cpu.leaf1.c.getLsbD 28 <;> cases cpu.leaf1.c.getLsbD 0 <;> rfl

/-- A processor with the given highest leaf, `ecx` of leaf 1 and `ebx` of leaf 7. -/
def sampleCpu (m c b : BitVec 32) : Cpu := ⟨m, ⟨0, 0, c, 0⟩, ⟨0, b, 0, 0⟩⟩

-- with the SHA extensions; with AVX2 and AVX; with AVX only; with SSE3, SSSE3, SSE4.1 only
example : hasherDefault (sampleCpu 22 0x10080201 0x20000020) = .ok .shani ∧ hasherDefault (sampleCpu 22 0x10080201 0x20) = .ok .avx2 ∧
    hasherDefault (sampleCpu 22 0x10080201 0) = .ok .avx ∧ hasherDefault (sampleCpu 22 0x00080201 0) = .ok .sse := by decide +kernel

/-- **C27** fails on processors without leaf 7: an uninitialised variable is read. -/
theorem C27_uninitialised (cpu : Cpu) (h : cpu.maxLeaf.toNat < 7) : hasherDefault cpu = .ub := by
  have h7 : cpu.maxLeaf = 0 ∨ cpu.maxLeaf < 7 := Or.inr (show cpu.maxLeaf.toNat < 7 from h)
  simp only [hasherDefault, bestImplementation, implemented, Cpu.get, if_pos h7, Option.map, readVar, Out.bind]

example : (sampleCpu 5 0x00000201 0).maxLeaf.toNat < 7 := by decide

/-- An instruction of a piece of code that some run of the routine behind `f` arrives at. -/
def Executed (f : HashFn) (i : Instr) : Prop :=
  ∃ (env : Env) (s : State) (k : Nat) (l : Label) (cs : List Label) (s' : State), steps env code k (.run f.entry [] s) = .run l cs s' ∧ i ∈ (code l).body

/-- **C27** Provided that AVX is reported, or SHA: the default implementation uses only extensions the processor reports. (Processors with
the SHA extensions have SSSE3 and SSE4.1; the code does not test this.) What is missing: processors
with neither. -/
theorem C27_supported_partial (cpu : Cpu) (f : HashFn) (h : hasherDefault cpu = .ok f)
    (h2 : cpu.reports .sha = true → cpu.reports .ssse3 = true ∧ cpu.reports .sse41 = true)
    (hx : cpu.reports .avx = true ∨ cpu.reports .sha = true) (i : Instr) (hi : Executed f i) : cpu.reports i.ext = true := by
  have hl : 7 ≤ cpu.maxLeaf.toNat := by
    by_contra hc
    rw [C27_uninitialised cpu (by omega)] at h
    cases h
  have hm : i.ext ∈ f.exts := by
    obtain ⟨env, s, k, l, cs, s', hr, hi⟩ := hi
    exact labels_exts f l (steps_closed (labels_closed f).2 env k _ [] s (labels_closed f).1 (fun x hx => absurd hx (by simp)) _ _ _ hr) i hi
  rw [C27_preferred cpu hl] at h
  simp only [preference, List.find?] at h
  cases hs : cpu.reports .sha with
  | true =>
    rw [hs] at h
    cases h
    simp only [HashFn.exts, List.mem_cons, List.not_mem_nil, or_false] at hm
    rcases hm with hm | hm | hm | hm <;> rw [hm]
    · rfl
    · exact (h2 hs).1
    · exact (h2 hs).2
    · exact hs
  | false =>
    have ha : cpu.reports .avx = true := hx.resolve_right (by simp [hs])
    rw [hs] at h
    cases h2' : cpu.reports .avx2 with
    | true =>
      rw [h2'] at h
      cases h
      simp only [HashFn.exts, List.mem_cons, List.not_mem_nil, or_false] at hm
      rcases hm with hm | hm | hm <;> rw [hm]
      · rfl
      · exact ha
      · exact h2'
    | false =>
      rw [h2', ha] at h
      cases h
      simp only [HashFn.exts, List.mem_cons, List.not_mem_nil, or_false] at hm
      rcases hm with hm | hm <;> rw [hm]
      · rfl
      · exact ha

example : hasherDefault (sampleCpu 22 0x10080201 0x20) = .ok .avx2 ∧ (sampleCpu 22 0x10080201 0x20).reports .avx = true ∧
    (sampleCpu 22 0x10080201 0x20).reports .sha = false := by decide +kernel

/-- **C27** fails on every processor with leaf 7 that reports none of AVX, AVX2, SHA: the fallback `sha256_sse` is selected and executes AVX
instructions. -/
theorem C27_fallback_unsupported (cpu : Cpu) (hl : 7 ≤ cpu.maxLeaf.toNat) (h1 : cpu.reports .avx = false) (h2 : cpu.reports .avx2 = false)
    (h3 : cpu.reports .sha = false) : hasherDefault cpu = .ok .sse ∧ ∃ i, Executed .sse i ∧ cpu.reports i.ext = false := by
  constructor
  · rw [C27_preferred cpu hl]
    simp only [preference, List.find?, h1, h2, h3]
    rfl
  · obtain ⟨i, hi, he⟩ : ∃ i ∈ (code .one).body, i.ext = .avx := by decide +kernel
    exact ⟨i, ⟨Sample.env 0 Region.writable 1, Sample.state 0 Region.writable 1 [], 0, .one, [], _, rfl, hi⟩, by rw [he, h1]⟩

example : 7 ≤ (sampleCpu 22 0x00080201 0).maxLeaf.toNat ∧ (sampleCpu 22 0x00080201 0).reports .avx = false ∧
    (sampleCpu 22 0x00080201 0).reports .avx2 = false ∧ (sampleCpu 22 0x00080201 0).reports .sha = false := by decide +kernel

/-- **C27** A hasher built with one of the four values of `IMPL` uses that implementation; with any other value, the default. -/
theorem C27_explicit (cpu : Cpu) : hasherOf cpu Impl.SHA = .ok .shani ∧ hasherOf cpu Impl.AVX2 = .ok .avx2 ∧ hasherOf cpu Impl.AVX = .ok .avx ∧
    hasherOf cpu Impl.SSE = .ok .sse ∧ ∀ i, i ∉ [Impl.SHA, Impl.AVX2, Impl.AVX, Impl.SSE] → hasherOf cpu i = hasherDefault cpu := by
  refine ⟨rfl, rfl, rfl, rfl, fun i hi => ?_⟩
  simp only [List.mem_cons, List.not_mem_nil, or_false, not_or] at hi
  rw [hasherOf, if_neg hi.1, if_neg hi.2.1, if_neg hi.2.2.1, if_neg hi.2.2.2]
  rfl

end Mammon
