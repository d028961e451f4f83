import Verif.Model.CppTextMore
import Verif.Proofs.CppPack
/-!
# The text of common/bitlist.hpp as numbers, tokens and declarations

As `CppPack.lean`.
-/

set_option Elab.async false

namespace Mammon.Cpp
open Nasm Lean

/-- The tokens of common/bitlist.hpp. -/
elab "bitlistTokens%" : term => return toExpr (tokens (codes Text.bitlistHpp))
/-- The declarations of common/bitlist.hpp. -/
elab "bitlistDecls%" : term => return toExpr ((read (codes Text.bitlistHpp)).getD [])

def bitlistHppP : List Nat := packed% Text.bitlistHpp
def bitlistHppT : List Tok := bitlistTokens%
def bitlistHppD : List Top := bitlistDecls%
theorem bitlistHpp_packed : Text.bitlistHpp = ofPacked bitlistHppP := by kernel_refl
theorem bitlistHpp_lexed : tokens (bitlistHppP.map (unpack 200)) = bitlistHppT := by kernel_refl
theorem bitlistHpp_parsed : parse bitlistHppT = some bitlistHppD := by kernel_refl
theorem bitlistHpp_read : read (codes Text.bitlistHpp) = some bitlistHppD := read_of bitlistHpp_packed bitlistHpp_lexed bitlistHpp_parsed

end Mammon.Cpp
