import Verif.Proofs.AsmCheck
import Verif.Proofs.AsmEightLines
/-!
# The kernel assembles ssz/sha256_avx2.asm
-/

namespace Mammon.Nasm

theorem check_eight : check eight eightLines [.eight, .eightLoop, .eightBlocks, .eightXX, .eightMid, .eightPad, .eightTail, .eightBack] (name% ".data") (X86.sectionData .eight) = true := by
  decide +kernel

end Mammon.Nasm
