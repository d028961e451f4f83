import Verif.Proofs.Shape
import Verif.Props.Timing
import Verif.Props.HashCalls
import Verif.Props.Hasher
import Verif.Props.Overflow
/-!
# Properties of the work that hashing an object takes: C70
-/

namespace Mammon

open X86 Spec

/-! ## Instructions of a call -/

/-- Every call of the routine at `l` for `n` blocks that meets the calling convention ends after executing `k` instructions (not counting jumps). -/
def AsmTakes (l : Label) (depth n k : Nat) : Prop :=
  ∀ (env : Env) (s : State) (t ii oo : Nat), Entry env depth t ii oo n env.retAddr s → env.writable = Region.writable →
    (l = .one ∨ s.r .rdx = BitVec.ofNat 64 n) →
    ∃ m s', steps env code m (.run l [] s) = .done s' ∧ instructions (path env code m (.run l [] s)) = k

/-- The same for a call of `hash_64b_blocks`; the implementation without vector registers calls its routine once per block. -/
def HashFn.Takes (f : HashFn) (n k : Nat) : Prop :=
  match f with
  | .shani => AsmTakes .shani 0 n k
  | .avx2 => AsmTakes .eight 1720 n k
  | .avx => AsmTakes .four 536 n k
  | .sse => ∃ j, AsmTakes .one 120 1 j ∧ k = n * j

/-- The number of instructions of a call for `n` blocks. -/
def HashFn.cost (f : HashFn) (n : Nat) : Nat :=
  match f with
  | .shani => 430 * (n / 2) + 231 * (n % 2) + 5
  | .avx2 => 6192 * (n / 8) + (6146 * (n % 8 / 4) + 4057 * (n % 8 % 4)) + 23
  | .avx => 6146 * (n / 4) + 4057 * (n % 4) + 7
  | .sse => 4053 * n

theorem asmTakes {n : Nat} {l : Label} {d : Nat} {p : List Label} (hl : (l, d, p) ∈ ways n) (h1 : l = .one → n = 1) : AsmTakes l d n (instructions p) := by
  intro env s t ii oo E hw hr
  have hn : if l = .one then n = 1 else s.r .rdx = BitVec.ofNat 64 n := by
    split
    · rename_i h; exact h1 h
    · rename_i h; exact hr.resolve_left h
  obtain ⟨⟨s', h⟩, hp⟩ := C58_path hl E hn (fun _ _ => by rw [hw]; rfl)
  exact ⟨p.length, s', h, by rw [hp]⟩

/-- **C70** The number of instructions that a call of `hash_64b_blocks` executes. -/
theorem C70_call (f : HashFn) (n : Nat) : f.Takes n (f.cost n) := by
  obtain ⟨h1, h2, h3, h4⟩ := C58_instructions n
  cases f
  · exact (congrArg (AsmTakes .shani 0 n) h4).mp (asmTakes (by simp [ways]) (fun h => nomatch h))
  · exact (congrArg (AsmTakes .eight 1720 n) h3).mp (asmTakes (by simp [ways]) (fun h => nomatch h))
  · exact (congrArg (AsmTakes .four 536 n) h2).mp (asmTakes (by simp [ways]) (fun h => nomatch h))
  · exact ⟨4053, h1 ▸ asmTakes (n := 1) (l := .one) (by simp [ways]) (fun _ => rfl), Nat.mul_comm _ _⟩

/- States that meet the calling convention exist for every number of blocks up to 2^40. -/
example (n : Nat) (hn : n ≤ 2 ^ 40) (inp : List Byte) :
    Entry (Sample.env 0 strict n) 1720 4088 0 0 n (Sample.env 0 strict n).retAddr (Sample.state 0 strict n inp) ∧
      (Sample.state 0 strict n inp).r .rdx = BitVec.ofNat 64 n :=
  ⟨Sample.entry (by decide) ⟨rfl, rfl⟩ hn (by decide) inp, rfl⟩

example : HashFn.cost .shani 5 = 1096 ∧ HashFn.cost .avx2 13 = 16418 ∧ HashFn.cost .avx 5 = 10210 ∧ HashFn.cost .sse 5 = 20265 := by decide

/-! ## Instructions for an object -/

variable (H H' : Chunk → Chunk → Chunk)

/-- The most that an implementation needs per block: its cost for a single block. -/
def HashFn.most (f : HashFn) : Nat :=
  match f with
  | .shani => 236
  | .avx2 => 4080
  | .avx => 4064
  | .sse => 4053

/-- The least that an implementation needs per block, in a large batch. -/
def HashFn.least (f : HashFn) : Nat :=
  match f with
  | .shani => 215
  | .avx2 => 774
  | .avx => 1536
  | .sse => 4053

theorem total_le {f g : Nat → Nat} : ∀ {es : List HashEvent}, (∀ k, .call k ∈ es → f k ≤ g k) → total f es ≤ total g es
  | [], _ => Nat.le_refl _
  | .alloc n :: es, h => by
    have := total_le (f := f) (g := g) (es := es) fun k hk => h k (List.mem_cons_of_mem _ hk)
    simpa [total] using this
  | .call n :: es, h => by
    have h1 := total_le (f := f) (g := g) (es := es) fun k hk => h k (List.mem_cons_of_mem _ hk)
    have h2 := h n List.mem_cons_self
    simp only [total, List.map_cons, List.sum_cons] at h1 ⊢
    omega

theorem total_blocks (c : Nat) : ∀ es : List HashEvent, total (fun k => c * k) es = c * blocks es
  | [] => rfl
  | .alloc n :: es => by
    have := total_blocks c es
    simpa [total, blocks] using this
  | .call n :: es => by
    have := total_blocks c es
    simp only [total, blocks, List.map_cons, List.sum_cons, Nat.mul_add] at this ⊢
    omega

/-- **C70** The instructions that hashing an object takes, by the number of blocks hashed: no call is made for nothing, so that a block costs at most
what a call for a single block costs. -/
theorem C70_blocks (f : HashFn) (t : Ty) (v : t.denote) :
    f.least * blocks (hashTreeE H t v).events ≤ total f.cost (hashTreeE H t v).events ∧
    total f.cost (hashTreeE H t v).events ≤ f.most * blocks (hashTreeE H t v).events := by
  rw [← total_blocks, ← total_blocks]
  refine ⟨total_le fun k _ => ?_, total_le fun k hk => ?_⟩
  · cases f <;> simp only [HashFn.least, HashFn.cost] <;> omega
  · have := hashTreeE_busy H t v k hk
    cases f <;> simp only [HashFn.most, HashFn.cost] <;> omega

/-- **C70** The number of instructions is linear in the size of the object. -/
theorem C70_linear (f : HashFn) (t : Ty) (ht : hashable t = true) (hw : wf t = true) (v : t.denote) (hs : listsSmall t v = true) (tree : List Chunk)
    (h : hashTree H t v = .ok tree) : total f.cost (hashTreeE H t v).events ≤ f.most * (12 * (encode t v).length + 43) :=
  (C70_blocks H f t v).2.trans (Nat.mul_le_mul_left _ (C68_linear H t ht hw v hs tree h))

/-- **C70** No implementation executes fewer instructions than the one with the SHA extensions, for any object. -/
theorem C70_shani (f : HashFn) (t : Ty) (v : t.denote) :
    total (HashFn.cost .shani) (hashTreeE H t v).events ≤ total f.cost (hashTreeE H t v).events := by
  refine total_le fun k hk => ?_
  have := hashTreeE_busy H t v k hk
  cases f <;> simp only [HashFn.cost] <;> omega

/- A block body with two attester slashings: 1156 bytes, 136 hashes. -/
example : hashable (Objects.beaconBlockBody mainnet) = true ∧ wf (Objects.beaconBlockBody mainnet) = true ∧
    listsSmall (Objects.beaconBlockBody mainnet) (Samples.body mainnet 2) = true ∧
    ∃ tree, hashTree H (Objects.beaconBlockBody mainnet) (Samples.body mainnet 2) = .ok tree :=
  ⟨by decide +kernel, by decide +kernel, by decide +kernel, by
    have h := C15_exact H (Objects.beaconBlockBody mainnet) (by decide +kernel) (Samples.body mainnet 2) (by decide +kernel)
    rw [if_pos (by decide +kernel), hashTreeRoot] at h
    cases ht : hashTree H (Objects.beaconBlockBody mainnet) (Samples.body mainnet 2) with
    | ok tree => exact ⟨tree, rfl⟩
    | throws e => rw [ht] at h; cases h
    | ub => rw [ht] at h; cases h⟩

/-! ## What the calls reveal -/

/-- **C70** The calls of the hasher, their sizes and order, the sizes of the node buffers, and whether hashing ends normally depend on the lengths of the
lists of the object only, not on the values in it (and not on the hash function). -/
theorem C70_shape (t : Ty) (v w : t.denote) (h : SameShape t v w) :
    (hashTreeE H t v).events = (hashTreeE H' t w).events ∧ SameKind (hashTree H t v) (hashTree H' t w) := by
  obtain ⟨h1, h2⟩ := hashTreeE_sim H H' t v w h
  exact ⟨h1, by rw [← C68_same, ← C68_same]; exact h2.kind⟩

/-- **C70** In particular the number of instructions does not depend on the values. -/
theorem C70_values (f : HashFn) (t : Ty) (v w : t.denote) (h : SameShape t v w) :
    total f.cost (hashTreeE H t v).events = total f.cost (hashTreeE H' t w).events := by rw [(C70_shape H H' t v w h).1]

/- Two attestations by different committee members, and one by a larger committee. -/
example : SameShape (Objects.attestation mainnet) (Samples.attestation [true, false, true]) (Samples.attestation [false, true, true]) ∧
    ¬ SameShape (Objects.attestation mainnet) (Samples.attestation [true, false, true]) (Samples.attestation [true, false, true, false]) := by
  refine ⟨⟨rfl, ⟨trivial, trivial, trivial, ⟨trivial, trivial, trivial⟩, ⟨trivial, trivial, trivial⟩, trivial⟩, trivial, trivial⟩, fun h => ?_⟩
  exact absurd (show 3 = 4 from h.1) (by decide)

/- Lengths can be told apart: here 8 and 12 integers, two and three chunks. -/
example : (hashTreeE Samples.toyHash (.listF .uint64 32) (List.replicate 8 1#64)).events ≠
      (hashTreeE Samples.toyHash (.listF .uint64 32) (List.replicate 12 1#64)).events := by decide +kernel

end Mammon
