import Verif.Proofs.AsmCheck
import Verif.Proofs.AsmOneLines
/-!
# The kernel assembles ssz/sha256_avx_one_block.asm
-/

namespace Mammon.Nasm

theorem check_one : check one oneLines [.one] (name% ".data") (X86.sectionData .one) = true := by
  decide +kernel

end Mammon.Nasm
