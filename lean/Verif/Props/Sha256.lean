import Verif.Props.Machine
/-!
# Properties of the SHA-256 routines: C22 to C25, C46

`Entry` is what the calling convention and the C++ callers guarantee: pairwise disjoint buffers inside the address space, loaded data
sections, an aligned stack with room for the routine (120, 536, 1720 or 0 bytes below the return address), the arguments in `rdi`, `rsi`,
`rdx`. Nothing is assumed about the contents of the input, the output, the stack and the other registers. `Env.writable` is arbitrary
except for the output and the stack (and the 64 bytes of scratch memory of `sha256_shani` when there are at least two blocks): where it
is `false`, the theorems say that the routine does not even try to write.
-/

namespace Mammon

open X86 Spec.SHA256

/-- The number of blocks a call can be asked for is bounded by the address space. -/
theorem X86.Entry.small {env : Env} {d t ii oo n : Nat} {ret : BitVec 64} {s : State} (E : Entry env d t ii oo n ret s) : n < 2 ^ 63 := by
  have h1 := E.input
  have h2 := E.valid.fits .input
  omega

/-! ## C22 to C25: the digests -/

/-- **C22** `sha256_1_avx` returns, having written the SHA-256 digest of the 64 bytes of input, and nothing else except the stack below
the return address. -/
theorem C22_one_block {env : Env} {s : State} {t ii oo : Nat} (E : Entry env 120 t ii oo 1 env.retAddr s) :
    ∃ s', Reaches env code (.run .one [] s) (.done s') ∧
      bytesAt (s'.mem .output) oo 32 = sha256 (bytesAt (s.mem .input) ii 64) ∧
      (∀ p, p < oo ∨ oo + 32 ≤ p → s'.mem .output p = s.mem .output p) ∧ (∀ p, t ≤ p → s'.mem .stack p = s.mem .stack p) ∧
      ∀ r, r ≠ .output → r ≠ .stack → s'.mem r = s.mem r := by
  obtain ⟨s', h1, h2, -⟩ := one_spec env [] s t ii oo E
  exact ⟨s', h1.reaches, h2.hash 0 (by omega), h2.output, h2.stack, fun r a b => h2.other r a b (by simp)⟩

/-- Only the output and the stack may be written. -/
def strict : Region → Bool
  | .output => true
  | .stack => true
  | _ => false

example (inp : List Byte) : Entry (Sample.env 0 strict 1) 120 4088 0 0 1 (Sample.env 0 strict 1).retAddr (Sample.state 0 strict 1 inp) :=
  Sample.entry (by decide) ⟨rfl, rfl⟩ (by decide) (by decide) inp

/-- **C23** `sha256_4_avx` returns, having written the digest of every block to its place, and nothing else except the stack below the
return address. -/
theorem C23_four_lanes {env : Env} {s : State} {t ii oo n : Nat} (E : Entry env 536 t ii oo n env.retAddr s) (hdx : s.r .rdx = BitVec.ofNat 64 n) :
    ∃ s', Reaches env code (.run .four [] s) (.done s') ∧
      (∀ i, i < n → bytesAt (s'.mem .output) (oo + 32 * i) 32 = sha256 (bytesAt (s.mem .input) (ii + 64 * i) 64)) ∧
      (∀ p, p < oo ∨ oo + 32 * n ≤ p → s'.mem .output p = s.mem .output p) ∧ (∀ p, t ≤ p → s'.mem .stack p = s.mem .stack p) ∧
      ∀ r, r ≠ .output → r ≠ .stack → s'.mem r = s.mem r := by
  obtain ⟨s', h1, h2⟩ := four_spec (cs := []) E hdx E.small
  exact ⟨s', h1.reaches, h2.hash, h2.output, h2.stack, fun r a b => h2.other r a b (by simp)⟩

example (n : Nat) (hn : n ≤ 2 ^ 40) (inp : List Byte) :
    Entry (Sample.env 0 strict n) 536 4088 0 0 n (Sample.env 0 strict n).retAddr (Sample.state 0 strict n inp) ∧
      (Sample.state 0 strict n inp).r .rdx = BitVec.ofNat 64 n :=
  ⟨Sample.entry (by decide) ⟨rfl, rfl⟩ hn (by decide) inp, rfl⟩

/-- **C24** `sha256_8_avx2` returns, having written the digest of every block to its place, and nothing else except the stack below the
return address. -/
theorem C24_eight_lanes {env : Env} {s : State} {t ii oo n : Nat} (E : Entry env 1720 t ii oo n env.retAddr s) (hdx : s.r .rdx = BitVec.ofNat 64 n) :
    ∃ s', Reaches env code (.run .eight [] s) (.done s') ∧
      (∀ i, i < n → bytesAt (s'.mem .output) (oo + 32 * i) 32 = sha256 (bytesAt (s.mem .input) (ii + 64 * i) 64)) ∧
      (∀ p, p < oo ∨ oo + 32 * n ≤ p → s'.mem .output p = s.mem .output p) ∧ (∀ p, t ≤ p → s'.mem .stack p = s.mem .stack p) ∧
      ∀ r, r ≠ .output → r ≠ .stack → s'.mem r = s.mem r := by
  obtain ⟨s', h1, h2⟩ := eight_spec (cs := []) E hdx E.small
  exact ⟨s', h1.reaches, h2.hash, h2.output, h2.stack, fun r a b => h2.other r a b (by simp)⟩

example (n : Nat) (hn : n ≤ 2 ^ 40) (inp : List Byte) :
    Entry (Sample.env 0 strict n) 1720 4088 0 0 n (Sample.env 0 strict n).retAddr (Sample.state 0 strict n inp) ∧
      (Sample.state 0 strict n inp).r .rdx = BitVec.ofNat 64 n :=
  ⟨Sample.entry (by decide) ⟨rfl, rfl⟩ hn (by decide) inp, rfl⟩

/-- **C25** `sha256_shani` returns, having written the digest of every block to its place, and nothing else except, if there are at least
two blocks, its scratch memory. The stack is not
written. -/
theorem C25_sha_instructions {env : Env} {s : State} {t ii oo n : Nat} (E : Entry env 0 t ii oo n env.retAddr s) (hdx : s.r .rdx = BitVec.ofNat 64 n)
    (hw : 2 ≤ n → env.writable .shaniRw = true) :
    ∃ s', Reaches env code (.run .shani [] s) (.done s') ∧
      (∀ i, i < n → bytesAt (s'.mem .output) (oo + 32 * i) 32 = sha256 (bytesAt (s.mem .input) (ii + 64 * i) 64)) ∧
      (∀ p, p < oo ∨ oo + 32 * n ≤ p → s'.mem .output p = s.mem .output p) ∧
      ∀ r, r ≠ .output → (2 ≤ n → r ≠ .shaniRw) → s'.mem r = s.mem r := by
  obtain ⟨s', h1, h2, h3⟩ := shani_spec (cs := []) E.toCalled hdx E.small (fun r hr => by
    rw [Shani.owned] at hr
    split at hr
    · simp at hr
    · rw [List.mem_singleton.1 hr]; exact hw (by omega))
  refine ⟨s', h1.reaches, h2.hash, h2.output, fun r a c => ?_⟩
  by_cases b : r = .stack
  · rw [b, h3]
  refine h2.other r a b ?_
  rw [Shani.owned]
  split
  · simp
  · simp [c (by omega)]

example (n : Nat) (hn : n ≤ 2 ^ 40) (inp : List Byte) :
    Entry (Sample.env 0 Region.writable n) 0 4088 0 0 n (Sample.env 0 Region.writable n).retAddr (Sample.state 0 Region.writable n inp) ∧
      (Sample.state 0 Region.writable n inp).r .rdx = BitVec.ofNat 64 n ∧ (Sample.env 0 Region.writable n).writable .shaniRw = true :=
  ⟨Sample.entry (by decide) ⟨rfl, rfl⟩ hn (by decide) inp, rfl, rfl⟩

/-! ## C46: the calling convention -/

/-- **C46** When a routine returns, the return address has been popped and `rbx`, `rbp`, `r12` to `r15` hold what they held at the entry. -/
theorem C46_calling_convention {env : Env} {s s' : State} {t ii oo n : Nat} (l : Label) (d : Nat)
    (hl : (l, d) = (.one, 120) ∧ n = 1 ∨ (l, d) ∈ [(Label.four, 536), (.eight, 1720), (.shani, 0)] ∧ s.r .rdx = BitVec.ofNat 64 n)
    (hw : l = .shani → 2 ≤ n → env.writable .shaniRw = true)
    (E : Entry env d t ii oo n env.retAddr s) (h : Reaches env code (.run l [] s) (.done s')) :
    s'.r .rsp = s.r .rsp + 8 ∧ ∀ r ∈ [R.rbx, .rbp, .r12, .r13, .r14, .r15], s'.r r = s.r r := by
  obtain ⟨u, own, hu, X⟩ : ∃ u own, Reaches env code (.run l [] s) (.done u) ∧ Exit env own t ii oo n s u := by
    rcases hl with ⟨hl, rfl⟩ | ⟨hl, hdx⟩
    · cases hl
      obtain ⟨u, h1, h2, -⟩ := one_spec env [] s t ii oo E
      exact ⟨u, _, h1.reaches, h2⟩
    · simp only [List.mem_cons, List.not_mem_nil, or_false] at hl
      rcases hl with hl | hl | hl <;> cases hl
      · obtain ⟨u, h1, h2⟩ := four_spec (cs := []) E hdx E.small
        exact ⟨u, _, h1.reaches, h2⟩
      · obtain ⟨u, h1, h2⟩ := eight_spec (cs := []) E hdx E.small
        exact ⟨u, _, h1.reaches, h2⟩
      · obtain ⟨u, h1, h2, -⟩ := shani_spec (cs := []) E.toCalled hdx E.small (fun r hr => by
          rw [Shani.owned] at hr
          split at hr
          · simp at hr
          · rw [List.mem_singleton.1 hr]; exact hw rfl (by omega))
        exact ⟨u, _, h1.reaches, h2⟩
  cases h.final hu
  refine ⟨?_, X.saved⟩
  rw [X.rsp, E.rsp]
  exact (ptr_add env .stack t 8).symm

/-- **C46**, the registers `sha256_4_avx` relies on when it calls `sha256_1_avx`. -/
theorem C46_one_block_preserves {env : Env} {s s' : State} {t ii oo : Nat} (E : Entry env 120 t ii oo 1 env.retAddr s)
    (h : Reaches env code (.run .one [] s) (.done s')) : s'.r .rdi = s.r .rdi ∧ s'.r .rsi = s.r .rsi ∧ s'.r .rdx = s.r .rdx := by
  obtain ⟨u, h1, -, h2⟩ := one_spec env [] s t ii oo E
  cases h.final h1.reaches
  exact h2

-- every routine has such runs, for every input
example (inp : List Byte) : ∃ s', Reaches (Sample.env 0 strict 1) code (.run .one [] (Sample.state 0 strict 1 inp)) (.done s') :=
  (C22_one_block (Sample.entry (by decide) ⟨rfl, rfl⟩ (by decide) (by decide) inp)).imp fun _ h => h.1
example (n : Nat) (hn : n ≤ 2 ^ 40) (inp : List Byte) : ∃ s', Reaches (Sample.env 0 strict n) code (.run .four [] (Sample.state 0 strict n inp)) (.done s') :=
  (C23_four_lanes (Sample.entry (by decide) ⟨rfl, rfl⟩ hn (by decide) inp) rfl).imp fun _ h => h.1
example (n : Nat) (hn : n ≤ 2 ^ 40) (inp : List Byte) : ∃ s', Reaches (Sample.env 0 strict n) code (.run .eight [] (Sample.state 0 strict n inp)) (.done s') :=
  (C24_eight_lanes (Sample.entry (by decide) ⟨rfl, rfl⟩ hn (by decide) inp) rfl).imp fun _ h => h.1
example (n : Nat) (hn : n ≤ 2 ^ 40) (inp : List Byte) :
    ∃ s', Reaches (Sample.env 0 Region.writable n) code (.run .shani [] (Sample.state 0 Region.writable n inp)) (.done s') :=
  (C25_sha_instructions (Sample.entry (by decide) ⟨rfl, rfl⟩ hn (by decide) inp) rfl fun _ => rfl).imp fun _ h => h.1

/-! ## Tests of the specification -/

/-- The primes of the specification are the first 64 prime numbers. -/
theorem primes_first : primes.length = 64 ∧ primes.Nodup ∧
    ∀ p, p ≤ 311 → (p ∈ primes ↔ 2 ≤ p ∧ ∀ d, d < p → 2 ≤ d → p % d ≠ 0) := by decide +kernel

/-- The round constants are the first 32 bits of the fractional parts of the cube roots of the first 64 primes (FIPS 180-4, 4.2.2). -/
theorem constants_cube_roots : ∀ i, i < 64 → isCubeRootFraction (primes.getD i 0) (K i).toNat := by
  have h : ∀ i, i < 64 → ∃ q, q < 8 ∧ (2 ^ 32 * q + (K i).toNat) ^ 3 ≤ primes.getD i 0 * 2 ^ 96 ∧
      primes.getD i 0 * 2 ^ 96 < (2 ^ 32 * q + (K i).toNat + 1) ^ 3 := by decide +kernel
  intro i hi
  obtain ⟨q, h1, h2, h3⟩ := h i hi
  exact ⟨q, by omega, h2, h3, (K i).isLt⟩

/-- The initial hash value consists of the first 32 bits of the fractional parts of the square roots of the first 8 primes (FIPS 180-4, 5.3.3). -/
theorem initial_square_roots : ∀ i, i < 8 →
    isSquareRootFraction (primes.getD i 0) ([H0.a, H0.b, H0.c, H0.d, H0.e, H0.f, H0.g, H0.h].getD i 0).toNat := by
  have h : ∀ i, i < 8 → ∃ q, q < 8 ∧ (2 ^ 32 * q + ([H0.a, H0.b, H0.c, H0.d, H0.e, H0.f, H0.g, H0.h].getD i 0).toNat) ^ 2 ≤ primes.getD i 0 * 2 ^ 64 ∧
      primes.getD i 0 * 2 ^ 64 < (2 ^ 32 * q + ([H0.a, H0.b, H0.c, H0.d, H0.e, H0.f, H0.g, H0.h].getD i 0).toNat + 1) ^ 2 := by decide +kernel
  intro i hi
  obtain ⟨q, h1, h2, h3⟩ := h i hi
  exact ⟨q, by omega, h2, h3, BitVec.isLt _⟩

/-- SHA-256 of a message of one block after padding, in a form that can be evaluated. -/
theorem sha256_one (msg : List Byte) (h : (pad msg).length / 64 = 1) : sha256 msg = (compressL H0 fun t => wordAt (pad msg) (0 + 4 * t)).bytes := by
  rw [sha256, h, Spec.SHA256.hashBlocks, Spec.SHA256.hashBlocks, compress_eq_compressL]

/-- SHA-256 of a message of two blocks after padding, in a form that can be evaluated. -/
theorem sha256_two (msg : List Byte) (h : (pad msg).length / 64 = 2) :
    sha256 msg = (compressL (compressL H0 fun t => wordAt (pad msg) (0 + 4 * t)) fun t => wordAt (pad msg) (64 + 4 * t)).bytes := by
  rw [sha256, h, Spec.SHA256.hashBlocks, Spec.SHA256.hashBlocks, Spec.SHA256.hashBlocks, compress_eq_compressL, compress_eq_compressL]

-- "abc" (NIST example)
example : sha256 [0x61, 0x62, 0x63] =
    [0xba, 0x78, 0x16, 0xbf, 0x8f, 0x01, 0xcf, 0xea, 0x41, 0x41, 0x40, 0xde, 0x5d, 0xae, 0x22, 0x23, 0xb0, 0x03, 0x61, 0xa3, 0x96, 0x17, 0x7a, 0x9c, 0xb4, 0x10, 0xff, 0x61, 0xf2, 0x00, 0x15, 0xad] := by
  rw [sha256_one _ (by decide +kernel)]; decide +kernel
-- the empty message
example : sha256 [] =
    [0xe3, 0xb0, 0xc4, 0x42, 0x98, 0xfc, 0x1c, 0x14, 0x9a, 0xfb, 0xf4, 0xc8, 0x99, 0x6f, 0xb9, 0x24, 0x27, 0xae, 0x41, 0xe4, 0x64, 0x9b, 0x93, 0x4c, 0xa4, 0x95, 0x99, 0x1b, 0x78, 0x52, 0xb8, 0x55] := by
  rw [sha256_one _ (by decide +kernel)]; decide +kernel
-- the 448-bit NIST example
example : sha256 [0x61, 0x62, 0x63, 0x64, 0x62, 0x63, 0x64, 0x65, 0x63, 0x64, 0x65, 0x66, 0x64, 0x65, 0x66, 0x67, 0x65, 0x66, 0x67, 0x68, 0x66, 0x67, 0x68, 0x69, 0x67, 0x68, 0x69, 0x6a, 0x68, 0x69, 0x6a, 0x6b, 0x69, 0x6a, 0x6b, 0x6c, 0x6a, 0x6b, 0x6c, 0x6d, 0x6b, 0x6c, 0x6d, 0x6e, 0x6c, 0x6d, 0x6e, 0x6f, 0x6d, 0x6e, 0x6f, 0x70, 0x6e, 0x6f, 0x70, 0x71] =
    [0x24, 0x8d, 0x6a, 0x61, 0xd2, 0x06, 0x38, 0xb8, 0xe5, 0xc0, 0x26, 0x93, 0x0c, 0x3e, 0x60, 0x39, 0xa3, 0x3c, 0xe4, 0x59, 0x64, 0xff, 0x21, 0x67, 0xf6, 0xec, 0xed, 0xd4, 0x19, 0xdb, 0x06, 0xc1] := by
  rw [sha256_two _ (by decide +kernel)]; decide +kernel
-- the 64 bytes 0 to 63
example : sha256 [0x00, 0x01, 0x02, 0x03, 0x04, 0x05, 0x06, 0x07, 0x08, 0x09, 0x0a, 0x0b, 0x0c, 0x0d, 0x0e, 0x0f, 0x10, 0x11, 0x12, 0x13, 0x14, 0x15, 0x16, 0x17, 0x18, 0x19, 0x1a, 0x1b, 0x1c, 0x1d, 0x1e, 0x1f, 0x20, 0x21, 0x22, 0x23, 0x24, 0x25, 0x26, 0x27, 0x28, 0x29, 0x2a, 0x2b, 0x2c, 0x2d, 0x2e, 0x2f, 0x30, 0x31, 0x32, 0x33, 0x34, 0x35, 0x36, 0x37, 0x38, 0x39, 0x3a, 0x3b, 0x3c, 0x3d, 0x3e, 0x3f] =
    [0xfd, 0xea, 0xb9, 0xac, 0xf3, 0x71, 0x03, 0x62, 0xbd, 0x26, 0x58, 0xcd, 0xc9, 0xa2, 0x9e, 0x8f, 0x9c, 0x75, 0x7f, 0xcf, 0x98, 0x11, 0x60, 0x3a, 0x8c, 0x44, 0x7c, 0xd1, 0xd9, 0x15, 0x11, 0x08] := by
  rw [sha256_two _ (by decide +kernel)]; decide +kernel

end Mammon
