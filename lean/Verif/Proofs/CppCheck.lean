import Verif.Proofs.CppPack
/-!
# Reading the classes, evaluated by the kernel
-/

namespace Mammon.Cpp
open Nasm

theorem classesOf_check : classDeclsOf filesD = some Source.all := by kernel_refl

theorem classes_check : classDecls files = some Source.all := by
  rw [classDecls, files_read]
  exact classesOf_check

end Mammon.Cpp
