import Verif.Proofs.AsmSteps
/-!
# The kernel preprocesses ssz/sha256_avx_one_block.asm
-/

namespace Mammon.Nasm

/-- Lines of steps 0 to 1400. -/
def oneO0 : List (List Tok) := out% 0 0 1400
/-- The state after 1400 steps. -/
def oneS0 : PP := state% 0 1400
/-- The lines left after 1400 steps. -/
def oneL0 : List Line := rest% 0 1400
theorem one_0 : advance sourcesT 1400 begin_ (linesOf sourcesT one.file) = some (oneO0, oneS0, oneL0) := by kernel_refl

/-- Lines of steps 1400 to 2800. -/
def oneO1 : List (List Tok) := out% 0 1400 1400
/-- The state after 2800 steps. -/
def oneS1 : PP := state% 0 2800
/-- The lines left after 2800 steps. -/
def oneL1 : List Line := rest% 0 2800
theorem one_1 : advance sourcesT 1400 oneS0 oneL0 = some (oneO1, oneS1, oneL1) := by kernel_refl

/-- Lines of steps 2800 to 4200. -/
def oneO2 : List (List Tok) := out% 0 2800 1400
/-- The state after 4200 steps. -/
def oneS2 : PP := state% 0 4200
/-- The lines left after 4200 steps. -/
def oneL2 : List Line := rest% 0 4200
theorem one_2 : advance sourcesT 1400 oneS1 oneL1 = some (oneO2, oneS2, oneL2) := by kernel_refl

/-- Lines of steps 4200 to 5600. -/
def oneO3 : List (List Tok) := out% 0 4200 1400
/-- The state after 5600 steps. -/
def oneS3 : PP := state% 0 5600
/-- The lines left after 5600 steps. -/
def oneL3 : List Line := rest% 0 5600
theorem one_3 : advance sourcesT 1400 oneS2 oneL2 = some (oneO3, oneS3, oneL3) := by kernel_refl

/-- Lines of steps 5600 to 7000. -/
def oneO4 : List (List Tok) := out% 0 5600 1400
/-- The state after 7000 steps. -/
def oneS4 : PP := state% 0 7000
/-- The lines left after 7000 steps. -/
def oneL4 : List Line := rest% 0 7000
theorem one_4 : advance sourcesT 1400 oneS3 oneL3 = some (oneO4, oneS4, oneL4) := by kernel_refl

/-- Lines of steps 7000 to 8099. -/
def oneO5 : List (List Tok) := out% 0 7000 1099
/-- The state after 8099 steps. -/
def oneS5 : PP := state% 0 8099
/-- The lines left after 8099 steps. -/
def oneL5 : List Line := rest% 0 8099
theorem one_5 : advance sourcesT 1099 oneS4 oneL4 = some (oneO5, oneS5, oneL5) := by kernel_refl

/-- All lines. -/
def oneLines : List (List Tok) :=
  oneO0 ++ (oneO1 ++ (oneO2 ++ (oneO3 ++ (oneO4 ++ (oneO5 ++ ([]))))))

theorem one_lines : preprocess sourcesT fileFuel begin_ (linesOf sourcesT one.file) = oneLines :=
  (preprocess_advance 18600 1400 one_0).trans (congrArg (oneO0 ++ ·) ((preprocess_advance 17200 1400 one_1).trans (congrArg (oneO1 ++ ·) ((preprocess_advance 15800 1400 one_2).trans (congrArg (oneO2 ++ ·) ((preprocess_advance 14400 1400 one_3).trans (congrArg (oneO3 ++ ·) ((preprocess_advance 13000 1400 one_4).trans (congrArg (oneO4 ++ ·) ((preprocess_advance 11901 1099 one_5).trans (congrArg (oneO5 ++ ·) (rfl))))))))))))

end Mammon.Nasm
