import Verif.Proofs.AsmSteps
/-!
# The kernel preprocesses ssz/sha256_avx.asm
-/

namespace Mammon.Nasm

/-- Lines of steps 0 to 1500. -/
def fourO0 : List (List Tok) := out% 1 0 1500
/-- The state after 1500 steps. -/
def fourS0 : PP := state% 1 1500
/-- The lines left after 1500 steps. -/
def fourL0 : List Line := rest% 1 1500
theorem four_0 : advance sourcesT 1500 begin_ (linesOf sourcesT four.file) = some (fourO0, fourS0, fourL0) := by kernel_refl

/-- Lines of steps 1500 to 3000. -/
def fourO1 : List (List Tok) := out% 1 1500 1500
/-- The state after 3000 steps. -/
def fourS1 : PP := state% 1 3000
/-- The lines left after 3000 steps. -/
def fourL1 : List Line := rest% 1 3000
theorem four_1 : advance sourcesT 1500 fourS0 fourL0 = some (fourO1, fourS1, fourL1) := by kernel_refl

/-- Lines of steps 3000 to 4500. -/
def fourO2 : List (List Tok) := out% 1 3000 1500
/-- The state after 4500 steps. -/
def fourS2 : PP := state% 1 4500
/-- The lines left after 4500 steps. -/
def fourL2 : List Line := rest% 1 4500
theorem four_2 : advance sourcesT 1500 fourS1 fourL1 = some (fourO2, fourS2, fourL2) := by kernel_refl

/-- Lines of steps 4500 to 6000. -/
def fourO3 : List (List Tok) := out% 1 4500 1500
/-- The state after 6000 steps. -/
def fourS3 : PP := state% 1 6000
/-- The lines left after 6000 steps. -/
def fourL3 : List Line := rest% 1 6000
theorem four_3 : advance sourcesT 1500 fourS2 fourL2 = some (fourO3, fourS3, fourL3) := by kernel_refl

/-- Lines of steps 6000 to 7500. -/
def fourO4 : List (List Tok) := out% 1 6000 1500
/-- The state after 7500 steps. -/
def fourS4 : PP := state% 1 7500
/-- The lines left after 7500 steps. -/
def fourL4 : List Line := rest% 1 7500
theorem four_4 : advance sourcesT 1500 fourS3 fourL3 = some (fourO4, fourS4, fourL4) := by kernel_refl

/-- Lines of steps 7500 to 9000. -/
def fourO5 : List (List Tok) := out% 1 7500 1500
/-- The state after 9000 steps. -/
def fourS5 : PP := state% 1 9000
/-- The lines left after 9000 steps. -/
def fourL5 : List Line := rest% 1 9000
theorem four_5 : advance sourcesT 1500 fourS4 fourL4 = some (fourO5, fourS5, fourL5) := by kernel_refl

/-- Lines of steps 9000 to 10500. -/
def fourO6 : List (List Tok) := out% 1 9000 1500
/-- The state after 10500 steps. -/
def fourS6 : PP := state% 1 10500
/-- The lines left after 10500 steps. -/
def fourL6 : List Line := rest% 1 10500
theorem four_6 : advance sourcesT 1500 fourS5 fourL5 = some (fourO6, fourS6, fourL6) := by kernel_refl

/-- Lines of steps 10500 to 11787. -/
def fourO7 : List (List Tok) := out% 1 10500 1287
/-- The state after 11787 steps. -/
def fourS7 : PP := state% 1 11787
/-- The lines left after 11787 steps. -/
def fourL7 : List Line := rest% 1 11787
theorem four_7 : advance sourcesT 1287 fourS6 fourL6 = some (fourO7, fourS7, fourL7) := by kernel_refl

/-- All lines. -/
def fourLines : List (List Tok) :=
  fourO0 ++ (fourO1 ++ (fourO2 ++ (fourO3 ++ (fourO4 ++ (fourO5 ++ (fourO6 ++ (fourO7 ++ ([]))))))))

theorem four_lines : preprocess sourcesT fileFuel begin_ (linesOf sourcesT four.file) = fourLines :=
  (preprocess_advance 18500 1500 four_0).trans (congrArg (fourO0 ++ ·) ((preprocess_advance 17000 1500 four_1).trans (congrArg (fourO1 ++ ·) ((preprocess_advance 15500 1500 four_2).trans (congrArg (fourO2 ++ ·) ((preprocess_advance 14000 1500 four_3).trans (congrArg (fourO3 ++ ·) ((preprocess_advance 12500 1500 four_4).trans (congrArg (fourO4 ++ ·) ((preprocess_advance 11000 1500 four_5).trans (congrArg (fourO5 ++ ·) ((preprocess_advance 9500 1500 four_6).trans (congrArg (fourO6 ++ ·) ((preprocess_advance 8213 1287 four_7).trans (congrArg (fourO7 ++ ·) (rfl))))))))))))))))

end Mammon.Nasm
