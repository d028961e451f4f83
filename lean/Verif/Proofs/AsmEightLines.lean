import Verif.Proofs.AsmSteps
/-!
# The kernel preprocesses ssz/sha256_avx2.asm
-/

namespace Mammon.Nasm

/-- Lines of steps 0 to 1600. -/
def eightO0 : List (List Tok) := out% 2 0 1600
/-- The state after 1600 steps. -/
def eightS0 : PP := state% 2 1600
/-- The lines left after 1600 steps. -/
def eightL0 : List Line := rest% 2 1600
theorem eight_0 : advance sourcesT 1600 begin_ (linesOf sourcesT eight.file) = some (eightO0, eightS0, eightL0) := by kernel_refl

/-- Lines of steps 1600 to 3200. -/
def eightO1 : List (List Tok) := out% 2 1600 1600
/-- The state after 3200 steps. -/
def eightS1 : PP := state% 2 3200
/-- The lines left after 3200 steps. -/
def eightL1 : List Line := rest% 2 3200
theorem eight_1 : advance sourcesT 1600 eightS0 eightL0 = some (eightO1, eightS1, eightL1) := by kernel_refl

/-- Lines of steps 3200 to 4800. -/
def eightO2 : List (List Tok) := out% 2 3200 1600
/-- The state after 4800 steps. -/
def eightS2 : PP := state% 2 4800
/-- The lines left after 4800 steps. -/
def eightL2 : List Line := rest% 2 4800
theorem eight_2 : advance sourcesT 1600 eightS1 eightL1 = some (eightO2, eightS2, eightL2) := by kernel_refl

/-- Lines of steps 4800 to 6400. -/
def eightO3 : List (List Tok) := out% 2 4800 1600
/-- The state after 6400 steps. -/
def eightS3 : PP := state% 2 6400
/-- The lines left after 6400 steps. -/
def eightL3 : List Line := rest% 2 6400
theorem eight_3 : advance sourcesT 1600 eightS2 eightL2 = some (eightO3, eightS3, eightL3) := by kernel_refl

/-- Lines of steps 6400 to 8000. -/
def eightO4 : List (List Tok) := out% 2 6400 1600
/-- The state after 8000 steps. -/
def eightS4 : PP := state% 2 8000
/-- The lines left after 8000 steps. -/
def eightL4 : List Line := rest% 2 8000
theorem eight_4 : advance sourcesT 1600 eightS3 eightL3 = some (eightO4, eightS4, eightL4) := by kernel_refl

/-- Lines of steps 8000 to 9600. -/
def eightO5 : List (List Tok) := out% 2 8000 1600
/-- The state after 9600 steps. -/
def eightS5 : PP := state% 2 9600
/-- The lines left after 9600 steps. -/
def eightL5 : List Line := rest% 2 9600
theorem eight_5 : advance sourcesT 1600 eightS4 eightL4 = some (eightO5, eightS5, eightL5) := by kernel_refl

/-- Lines of steps 9600 to 11200. -/
def eightO6 : List (List Tok) := out% 2 9600 1600
/-- The state after 11200 steps. -/
def eightS6 : PP := state% 2 11200
/-- The lines left after 11200 steps. -/
def eightL6 : List Line := rest% 2 11200
theorem eight_6 : advance sourcesT 1600 eightS5 eightL5 = some (eightO6, eightS6, eightL6) := by kernel_refl

/-- Lines of steps 11200 to 12462. -/
def eightO7 : List (List Tok) := out% 2 11200 1262
/-- The state after 12462 steps. -/
def eightS7 : PP := state% 2 12462
/-- The lines left after 12462 steps. -/
def eightL7 : List Line := rest% 2 12462
theorem eight_7 : advance sourcesT 1262 eightS6 eightL6 = some (eightO7, eightS7, eightL7) := by kernel_refl

/-- All lines. -/
def eightLines : List (List Tok) :=
  eightO0 ++ (eightO1 ++ (eightO2 ++ (eightO3 ++ (eightO4 ++ (eightO5 ++ (eightO6 ++ (eightO7 ++ ([]))))))))

theorem eight_lines : preprocess sourcesT fileFuel begin_ (linesOf sourcesT eight.file) = eightLines :=
  (preprocess_advance 18400 1600 eight_0).trans (congrArg (eightO0 ++ ·) ((preprocess_advance 16800 1600 eight_1).trans (congrArg (eightO1 ++ ·) ((preprocess_advance 15200 1600 eight_2).trans (congrArg (eightO2 ++ ·) ((preprocess_advance 13600 1600 eight_3).trans (congrArg (eightO3 ++ ·) ((preprocess_advance 12000 1600 eight_4).trans (congrArg (eightO4 ++ ·) ((preprocess_advance 10400 1600 eight_5).trans (congrArg (eightO5 ++ ·) ((preprocess_advance 8800 1600 eight_6).trans (congrArg (eightO6 ++ ·) ((preprocess_advance 7538 1262 eight_7).trans (congrArg (eightO7 ++ ·) (rfl))))))))))))))))

end Mammon.Nasm
