import Verif.Model.Sha256One
import Verif.Model.Sha256Lanes
import Verif.Model.Sha256Shani
/-!
# The four SHA-256 routines as one program
-/

namespace Mammon.X86

/-- The code at every label: `sha256_1_avx` (ssz/sha256_avx_one_block.asm), `sha256_4_avx` (ssz/sha256_avx.asm), `sha256_8_avx2`
(ssz/sha256_avx2.asm), `sha256_shani` (ssz/sha256_shani.asm). -/
def code : Label → Block
  | .one => One.block
  | .four => Four.code .four
  | .fourLoop => Four.code .fourLoop
  | .fourBlocks => Four.code .fourBlocks
  | .fourXX => Four.code .fourXX
  | .fourMid => Four.code .fourMid
  | .fourPad => Four.code .fourPad
  | .fourTail => Four.code .fourTail
  | .fourCall => Four.code .fourCall
  | .fourBack => Four.code .fourBack
  | .fourDone => Four.code .fourDone
  | .eight => Eight.code .eight
  | .eightLoop => Eight.code .eightLoop
  | .eightBlocks => Eight.code .eightBlocks
  | .eightXX => Eight.code .eightXX
  | .eightMid => Eight.code .eightMid
  | .eightPad => Eight.code .eightPad
  | .eightTail => Eight.code .eightTail
  | .eightBack => Eight.code .eightBack
  | .shani => Shani.code .shani
  | .shaniLoop => Shani.code .shaniLoop
  | .shaniTwo => Shani.code .shaniTwo
  | .shaniTail => Shani.code .shaniTail
  | .shaniOne => Shani.code .shaniOne
  | .shaniDone => Shani.code .shaniDone

/-- The contents of the data sections of the four files. `.shaniRw` starts with four saved vectors which are overwritten before use, so its
initial contents (ssz/sha256_shani.asm:1021-1024) do not matter. -/
def sectionData : Region → List (BitVec 32)
  | .one => One.data
  | .four => Four.data
  | .eight => Eight.data
  | .shaniRo => Shani.data
  | _ => []

end Mammon.X86
