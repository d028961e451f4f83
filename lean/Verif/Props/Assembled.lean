import Verif.Proofs.AsmOne
import Verif.Proofs.AsmFour
import Verif.Proofs.AsmEight
import Verif.Proofs.AsmShani
import Verif.Props.Sha256
/-!
# The text of the assembly files (C73)

The instructions and the data that the theorems about the SHA-256 routines are about are what assembling the text of the files gives.
-/

namespace Mammon.Nasm
open X86 Spec.SHA256

/-- **C73** Assembling ssz/sha256_avx_one_block.asm gives the code and the data of the model. -/
theorem C73_one : program one = some ([.one].map fun l => (l, code l)) ∧ contents one (name% ".data") = sectionData .one :=
  check_eq rfl one_lines check_one

/-- **C73** Assembling ssz/sha256_avx.asm gives the code and the data of the model. -/
theorem C73_four :
    program four = some ([.four, .fourLoop, .fourBlocks, .fourXX, .fourMid, .fourPad, .fourTail, .fourCall, .fourBack, .fourDone].map
      fun l => (l, code l)) ∧ contents four (name% ".data") = sectionData .four :=
  check_eq rfl four_lines check_four

/-- **C73** Assembling ssz/sha256_avx2.asm, which includes ssz/transpose_avx2.asm and ssz/reg_sizes.asm, gives the code and the data of the model. -/
theorem C73_eight :
    program eight = some ([.eight, .eightLoop, .eightBlocks, .eightXX, .eightMid, .eightPad, .eightTail, .eightBack].map fun l => (l, code l)) ∧
      contents eight (name% ".data") = sectionData .eight :=
  check_eq rfl eight_lines check_eight

/-- **C73** Assembling ssz/sha256_shani.asm gives the code and the data of the model; the section that may be written has 64 bytes. -/
theorem C73_shani :
    program shani = some ([.shani, .shaniLoop, .shaniTwo, .shaniTail, .shaniOne, .shaniDone].map fun l => (l, code l)) ∧
      contents shani (name% ".rodata") = sectionData .shaniRo ∧ 4 * (contents shani (name% ".data")).length = 64 := by
  refine ⟨(check_eq rfl shani_lines check_shani).1, (check_eq rfl shani_lines check_shani).2, ?_⟩
  rw [contents, assembled rfl shani_lines, sameWords_eq check_shani_saved]
  rfl

/-- The four files that are given to the assembler (CMakeLists.txt:71-74). -/
def files : List Names := [one, four, eight, shani]

/-- All files can be assembled, and at every label of theirs there is the code that assembling gave. -/
def Assembled (c : Label → Block) : Prop := ∀ f ∈ files, ∃ ps, program f = some ps ∧ ∀ p ∈ ps, c p.1 = p.2

/-- **C73** The code of the model is the only one that is what assembling the text gives. -/
theorem C73_code (c : Label → Block) : Assembled c ↔ c = code := by
  constructor
  · intro h
    obtain ⟨p1, h1, q1⟩ := h one (by simp [files])
    obtain ⟨p4, h4, q4⟩ := h four (by simp [files])
    obtain ⟨p8, h8, q8⟩ := h eight (by simp [files])
    obtain ⟨ps, hs, qs⟩ := h shani (by simp [files])
    rw [C73_one.1, Option.some.injEq] at h1
    rw [C73_four.1, Option.some.injEq] at h4
    rw [C73_eight.1, Option.some.injEq] at h8
    rw [C73_shani.1, Option.some.injEq] at hs
    subst h1 h4 h8 hs
    funext l
    have k1 : ∀ l ∈ [Label.one], c l = code l := fun l hl => q1 _ (List.mem_map_of_mem (f := fun l => (l, code l)) hl)
    have k4 : ∀ l ∈ [Label.four, .fourLoop, .fourBlocks, .fourXX, .fourMid, .fourPad, .fourTail, .fourCall, .fourBack, .fourDone], c l = code l :=
      fun l hl => q4 _ (List.mem_map_of_mem (f := fun l => (l, code l)) hl)
    have k8 : ∀ l ∈ [Label.eight, .eightLoop, .eightBlocks, .eightXX, .eightMid, .eightPad, .eightTail, .eightBack], c l = code l :=
      fun l hl => q8 _ (List.mem_map_of_mem (f := fun l => (l, code l)) hl)
    have ks : ∀ l ∈ [Label.shani, .shaniLoop, .shaniTwo, .shaniTail, .shaniOne, .shaniDone], c l = code l :=
      fun l hl => qs _ (List.mem_map_of_mem (f := fun l => (l, code l)) hl)
    cases l <;> first
      | exact k1 _ (by decide)
      | exact k4 _ (by decide)
      | exact k8 _ (by decide)
      | exact ks _ (by decide)
  · rintro rfl f hf
    simp only [files, List.mem_cons, List.not_mem_nil, or_false] at hf
    have key : ∀ {f : Names} {ls : List Label}, program f = some (ls.map fun l => (l, code l)) →
        ∃ ps, program f = some ps ∧ ∀ p ∈ ps, code p.1 = p.2 := fun {f ls} h => ⟨_, h, fun p hp => by
      obtain ⟨l, -, rfl⟩ := List.mem_map.1 hp
      rfl⟩
    rcases hf with rfl | rfl | rfl | rfl
    · exact key C73_one.1
    · exact key C73_four.1
    · exact key C73_eight.1
    · exact key C73_shani.1

/-- There is such code, and `jmp` to itself everywhere is not. -/
example : Assembled code ∧ ¬ Assembled fun l => ⟨[], .goto l⟩ := by
  refine ⟨(C73_code _).2 rfl, fun h => ?_⟩
  have := congrArg (fun b => match b.term with | .ret => true | _ => false) (congrFun ((C73_code _).1 h) .one)
  exact absurd this (by decide)

/-- **C73** The text of the assembly files computes SHA-256: whatever code the files assemble to, the entry point for one block hashes it and each of
those for many blocks hashes all of them. -/
theorem C73_hash {c : Label → Block} (hc : Assembled c) {env : Env} {s : State} {t ii oo n : Nat} (hdx : s.r .rdx = BitVec.ofNat 64 n) :
    (Entry env 120 t ii oo 1 env.retAddr s → ∃ s', Reaches env c (.run .one [] s) (.done s') ∧
      bytesAt (s'.mem .output) oo 32 = sha256 (bytesAt (s.mem .input) ii 64)) ∧
    (Entry env 536 t ii oo n env.retAddr s → ∃ s', Reaches env c (.run .four [] s) (.done s') ∧
      ∀ i, i < n → bytesAt (s'.mem .output) (oo + 32 * i) 32 = sha256 (bytesAt (s.mem .input) (ii + 64 * i) 64)) ∧
    (Entry env 1720 t ii oo n env.retAddr s → ∃ s', Reaches env c (.run .eight [] s) (.done s') ∧
      ∀ i, i < n → bytesAt (s'.mem .output) (oo + 32 * i) 32 = sha256 (bytesAt (s.mem .input) (ii + 64 * i) 64)) ∧
    (Entry env 0 t ii oo n env.retAddr s → env.writable .shaniRw = true → ∃ s', Reaches env c (.run .shani [] s) (.done s') ∧
      ∀ i, i < n → bytesAt (s'.mem .output) (oo + 32 * i) 32 = sha256 (bytesAt (s.mem .input) (ii + 64 * i) 64)) := by
  rw [(C73_code c).1 hc]
  refine ⟨fun E => ?_, fun E => ?_, fun E => ?_, fun E hw => ?_⟩
  · obtain ⟨s', h1, h2, -⟩ := C22_one_block E
    exact ⟨s', h1, h2⟩
  · obtain ⟨s', h1, h2, -⟩ := C23_four_lanes E hdx
    exact ⟨s', h1, h2⟩
  · obtain ⟨s', h1, h2, -⟩ := C24_eight_lanes E hdx
    exact ⟨s', h1, h2⟩
  · obtain ⟨s', h1, h2, -⟩ := C25_sha_instructions E hdx fun _ => hw
    exact ⟨s', h1, h2⟩

/-- A state at the entry of the routine for eight lanes, with the code of the text. -/
example (n : Nat) (hn : n ≤ 2 ^ 40) (inp : List Byte) :
    Assembled code ∧ Entry (Sample.env 0 strict n) 1720 4088 0 0 n (Sample.env 0 strict n).retAddr (Sample.state 0 strict n inp) ∧
      (Sample.state 0 strict n inp).r .rdx = BitVec.ofNat 64 n :=
  ⟨(C73_code _).2 rfl, Sample.entry (by decide) ⟨rfl, rfl⟩ hn (by decide) inp, rfl⟩

/-- What the assembler makes of a small text with a macro, a repetition and data. -/
example :
    items (table [(name% ".data", .one)]) [] (assemble
      [(name% "x", readLines (codes [";; a comment", "%macro TWICE 2", "%define %%r %1", "\tvpaddd %%r, %%r, %2 ; sum", "\tvpxor %%r, %%r, %2", "%endm", "%define a xmm3",
        "%assign i 1", "f:", "%rep 2", "\tadd rax, 4*i", "%assign i (i+1)", "%endrep", "\tTWICE a, xmm5", "\tret"]))] [] (name% "x")) =
      [.label (name% "f"), .instr (.addImm .rax 4), .instr (.addImm .rax 8), .instr (.vop .paddd .xmm .x3 .x3 .x5), .instr (.vop .pxor .xmm .x3 .x3 .x5),
        .ret] := by
  decide +kernel

end Mammon.Nasm
