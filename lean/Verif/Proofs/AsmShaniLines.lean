import Verif.Proofs.AsmSteps
/-!
# The kernel preprocesses ssz/sha256_shani.asm
-/

namespace Mammon.Nasm

/-- Lines of steps 0 to 997. -/
def shaniO0 : List (List Tok) := out% 3 0 997
/-- The state after 997 steps. -/
def shaniS0 : PP := state% 3 997
/-- The lines left after 997 steps. -/
def shaniL0 : List Line := rest% 3 997
theorem shani_0 : advance sourcesT 997 begin_ (linesOf sourcesT shani.file) = some (shaniO0, shaniS0, shaniL0) := by kernel_refl

/-- All lines. -/
def shaniLines : List (List Tok) :=
  shaniO0 ++ ([])

theorem shani_lines : preprocess sourcesT fileFuel begin_ (linesOf sourcesT shani.file) = shaniLines :=
  (preprocess_advance 19003 997 shani_0).trans (congrArg (shaniO0 ++ ·) (rfl))

end Mammon.Nasm
