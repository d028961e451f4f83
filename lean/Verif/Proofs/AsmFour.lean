import Verif.Proofs.AsmCheck
import Verif.Proofs.AsmFourLines
/-!
# The kernel assembles ssz/sha256_avx.asm
-/

namespace Mammon.Nasm

theorem check_four : check four fourLines [.four, .fourLoop, .fourBlocks, .fourXX, .fourMid, .fourPad, .fourTail, .fourCall, .fourBack, .fourDone] (name% ".data") (X86.sectionData .four) = true := by
  decide +kernel

end Mammon.Nasm
