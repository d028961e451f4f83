import Verif.Proofs.CppPack
/-!
# Reading the constants and the names of types, evaluated by the kernel
-/

namespace Mammon.Cpp
open Nasm

/-- The names of the basic types as numbers. -/
def aliasList : List (Nat × Ty) :=
  [(name% "Slot", .uint64), (name% "Epoch", .uint64), (name% "Counter", .uint64), (name% "UnixTime", .uint64), (name% "CommitteeIndex", .uint64),
   (name% "ValidatorIndex", .uint64), (name% "DepositIndex", .uint64), (name% "Gwei", .uint64), (name% "Boolean", .boolean),
   (name% "Bytes1", .bytes 1), (name% "Bytes4", .bytes 4), (name% "Bytes8", .bytes 8), (name% "Bytes20", .bytes 20), (name% "Bytes32", .bytes 32),
   (name% "Bytes48", .bytes 48), (name% "Bytes96", .bytes 96), (name% "Hash32", .bytes 32), (name% "Root", .bytes 32), (name% "Version", .bytes 4),
   (name% "DomainType", .bytes 4), (name% "ForkDigest", .bytes 4), (name% "Domain", .bytes 32), (name% "BLSPubkey", .bytes 48),
   (name% "BLSSignature", .bytes 96), (name% "Eth1Address", .bytes 20)]

theorem aliasesOf_check : aliasesOf (aliasesOf [(name% "Slot", .uint64)] slotD ++ [(name% "Boolean", .boolean)]) bytesD = aliasList := by kernel_refl

theorem aliases_check : aliases (codes Text.slot) (codes Text.bytes) = some aliasList := by
  rw [aliases, slot_read, bytes_read]
  exact congrArg some aliasesOf_check

theorem constants_eq {t : List String} {l : List Top} (h : read (codes t) = some l) :
    constants (codes Text.slot) (codes Text.bytes) (codes t) = constantsOf aliasList l := by
  rw [constants, aliases_check, h]

theorem mainnet_check : constantsOf aliasList mainnetD = some Config.mainnetDecls := by kernel_refl
theorem minimal_check : constantsOf aliasList minimalD = some Config.minimalDecls := by kernel_refl
theorem constants_check : constantsOf aliasList constantsD = some Config.constantDecls := by kernel_refl
theorem ssz_check : constantsOf aliasList sszD = some Config.sszDecls := by kernel_refl

end Mammon.Cpp
