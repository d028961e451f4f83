import Verif.Proofs.Hasher
/-!
# A concrete machine state for calls of the SHA-256 routines

Shows that the hypotheses of the theorems on the routines can be met for every input.
-/

namespace Mammon.X86

/-- Where the regions of thread `j` (0 or 1) are. -/
def Sample.base (j : Nat) : Region → Nat
  | .stack => 0x10000 + 0x10000 * j
  | .one => 0x100000
  | .four => 0x200000
  | .eight => 0x300000
  | .shaniRo => 0x400000
  | .shaniRw => 0x500000
  | .input => 2 ^ 48 + 2 ^ 52 * j
  | .output => 2 ^ 56 + 2 ^ 60 * j

/-- How large the regions are when `n` blocks are to be hashed. -/
def Sample.size (n : Nat) : Region → Nat
  | .stack => 0x1000
  | .shaniRw => 64
  | .input => 64 * n
  | .output => 32 * n
  | r => 4 * (sectionData r).length

/-- An address space for a call that hashes `n` blocks, with the given permissions. -/
def Sample.env (j : Nat) (w : Region → Bool) (n : Nat) : Env where
  base := Sample.base j
  size := Sample.size n
  writable := w
  codeAddr := fun _ => 0x1000
  retAddr := 0x2000

/-- Memory that holds the blocks `inp`, the data sections and the return address. -/
def Sample.mem (inp : List Byte) : Mem
  | .input => fun i => inp.getD i 0
  | .output => fun _ => 0xaa
  | .stack => fun i => if i = 4089 then 0x20 else 0
  | .shaniRw => fun _ => 0xbb
  | r => fun i => byteOf ((sectionData r).getD (i / 4) 0) (i % 4)

/-- The state at the entry of a routine that is to hash `n` blocks. -/
def Sample.state (j : Nat) (w : Region → Bool) (n : Nat) (inp : List Byte) : State where
  r := fun
    | .rsp => (Sample.env j w n).ptr .stack 4088
    | .rdi => (Sample.env j w n).ptr .output 0
    | .rsi => (Sample.env j w n).ptr .input 0
    | .rdx => BitVec.ofNat 64 n
    | _ => 0x123456789abcdef0
  x := fun _ l => BitVec.ofNat 32 l
  mem := Sample.mem inp
  flags := none
  fault := false

theorem Sample.valid {j : Nat} (hj : j ≤ 1) {w : Region → Bool} (hw : w .output = true ∧ w .stack = true) {n : Nat} (hn : n ≤ 2 ^ 40) : (Sample.env j w n).Valid := by
  have h1 : (sectionData .one).length ≤ 1000 := by decide +kernel
  have h2 : (sectionData .four).length ≤ 4000 := by decide +kernel
  have h3 : (sectionData .eight).length ≤ 4000 := by decide +kernel
  have h4 : (sectionData .shaniRo).length ≤ 4000 := by decide +kernel
  refine ⟨fun r => ?_, fun r r' o o' h h' e => ?_, hw.1, hw.2⟩
  · cases r <;> simp only [Sample.env, Sample.base, Sample.size] <;> omega
  · cases r <;> cases r' <;> first | rfl | (exfalso; simp only [Sample.env, Sample.base, Sample.size] at h h' e; omega)

theorem Sample.loaded (j : Nat) (w : Region → Bool) (n : Nat) (inp : List Byte) : Loaded (Sample.env j w n) (Sample.mem inp) := by
  have hd : ∀ (L : List (BitVec 32)) (i : Nat), readWord (fun i => byteOf (L.getD (i / 4) 0) (i % 4)) (4 * i) = L.getD i 0 := by
    intro L i
    have h := readWord_writeLanes (n := i + 1) (m := fun _ => 0) (o := 0) (v := fun l => L.getD l 0) (l := i) (by omega)
    rw [← h, Nat.zero_add]
    refine readWord_congr fun j h1 h2 => ?_
    simp only [writeLanes, Nat.sub_zero]
    rw [if_pos (by omega)]
  refine ⟨fun r hr => ?_, fun r hr => ?_, fun _ => Nat.le_refl _, fun r hr i _ => ?_⟩ <;>
    simp only [List.mem_cons, List.not_mem_nil, or_false] at hr
  · rcases hr with rfl | rfl | rfl | rfl | rfl <;> simp only [Sample.env, Sample.base]
  · rcases hr with rfl | rfl | rfl | rfl <;> exact Nat.le_refl _
  · rcases hr with rfl | rfl | rfl | rfl <;> exact hd _ i

/-- The hypothesis of the theorems on the routines holds for every input, whether or not the data sections may be written. -/
theorem Sample.entry {j : Nat} (hj : j ≤ 1) {w : Region → Bool} (hw : w .output = true ∧ w .stack = true) {n d : Nat} (hn : n ≤ 2 ^ 40) (hd : d ≤ 4088) (inp : List Byte) :
    Entry (Sample.env j w n) d 4088 0 0 n (Sample.env j w n).retAddr (Sample.state j w n inp) where
  valid := Sample.valid hj hw hn
  loaded := Sample.loaded j w n inp
  fault := rfl
  rsp := rfl
  align := by simp only [Sample.env, Sample.base]; omega
  depth := hd
  top := by simp only [Sample.env, Sample.size]; omega
  ret := by show of64 (fun l => readWord (Sample.mem [] .stack) (4088 + 4 * l)) = 0x2000; decide
  rdi := rfl
  rsi := rfl
  input := by show 0 + 64 * n ≤ 64 * n; omega
  output := by show 0 + 32 * n ≤ 32 * n; omega

theorem Sample.rdx (j : Nat) (w : Region → Bool) (n : Nat) (inp : List Byte) : (Sample.state j w n inp).r .rdx = BitVec.ofNat 64 n := rfl

theorem Sample.input (inp : List Byte) {k : Nat} (h : inp.length = k) : bytesAt (Sample.mem inp .input) 0 k = inp := by
  subst h
  refine List.ext_getElem (by simp [bytesAt]) fun i h1 h2 => ?_
  simp [bytesAt, Sample.mem, h2]

end Mammon.X86

namespace Mammon
open X86

theorem asmCall_exists {l : Label} {d : Nat} (hl : (l, d) ∈ routines) {n : Nat} (hn : n ≤ 2 ^ 40) (h1 : l = .one → n = 1) (inp : List Byte)
    (hlen : inp.length = 64 * n) : ∃ out, AsmCall l d n inp out := by
  have hd : d ≤ 4088 := by
    simp only [routines, List.mem_cons, List.not_mem_nil, or_false, Prod.mk.injEq] at hl
    omega
  have E := Sample.entry (j := 0) (by decide) (w := Region.writable) ⟨rfl, rfl⟩ hn hd inp
  obtain ⟨s', hr, -⟩ := routine_spec hl E (by split; exact h1 ‹_›; rfl) (fun _ _ => rfl)
  exact ⟨_, _, _, s', 4088, 0, 0, E, rfl, Or.inr rfl, Sample.input inp hlen, hr, rfl⟩

/-- Every implementation can be called with every input of up to 64 terabytes. -/
theorem call_exists (f : HashFn) {n : Nat} (hn : n ≤ 2 ^ 40) (inp : List Byte) (hlen : inp.length = 64 * n) : ∃ out, f.Call n inp out := by
  cases f
  · exact asmCall_exists (by decide) hn (fun h => by cases h) inp hlen
  · exact asmCall_exists (by decide) hn (fun h => by cases h) inp hlen
  · exact asmCall_exists (by decide) hn (fun h => by cases h) inp hlen
  · show ∃ out, SseCall n inp out
    clear hn
    induction n generalizing inp with
    | zero => exact ⟨[], rfl⟩
    | succ n ih =>
      obtain ⟨o, ho⟩ := asmCall_exists (l := .one) (d := 120) (by decide) (n := 1) (by decide) (fun _ => rfl) (inp.take (2 * BYTES_PER_CHUNK))
        (by simp [BYTES_PER_CHUNK]; omega)
      obtain ⟨rest, hrest⟩ := ih (inp.drop (2 * BYTES_PER_CHUNK)) (by simp [BYTES_PER_CHUNK]; omega)
      exact ⟨_, o, ho, rest, hrest, rfl⟩

end Mammon
