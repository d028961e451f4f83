import Verif.Proofs.AsmCheck
import Verif.Proofs.AsmShaniLines
/-!
# The kernel assembles ssz/sha256_shani.asm
-/

namespace Mammon.Nasm

theorem check_shani : check shani shaniLines [.shani, .shaniLoop, .shaniTwo, .shaniTail, .shaniOne, .shaniDone] (name% ".rodata") (X86.sectionData .shaniRo) = true := by
  decide +kernel

theorem check_shani_saved : sameWords (words (name% ".data") (statements ⟨name% ".text", [], none⟩ shaniLines))
    [0x9b05688c#32, 0x510e527f#32, 0xbb67ae85#32, 0x6a09e667#32, 0x5be0cd19#32, 0x1f83d9ab#32, 0xa54ff53a#32, 0x3c6ef372#32,
     0x9b05688c#32, 0x510e527f#32, 0xbb67ae85#32, 0x6a09e667#32, 0x5be0cd19#32, 0x1f83d9ab#32, 0xa54ff53a#32, 0x3c6ef372#32] = true := by
  decide +kernel

end Mammon.Nasm
