import Verif.Proofs.AsmPack
import Verif.Model.Cpp
/-!
# The text of the C++ files as numbers, tokens and declarations

As `AsmPack.lean` for the assembly files.
-/

set_option Elab.async false

namespace Mammon.Cpp
open Nasm Lean

deriving instance ToExpr for Tok
deriving instance ToExpr for Decl
deriving instance ToExpr for Top

/-- The files by name. -/
def fileText : Lean.Name → List String
  | `slot => Text.slot
  | `bytes => Text.bytes
  | `containers => Text.containers
  | `attestationHpp => Text.attestationHpp
  | `attestationCpp => Text.attestationCpp
  | `eth1Data => Text.eth1Data
  | `beaconBlockHpp => Text.beaconBlockHpp
  | `beaconBlockCpp => Text.beaconBlockCpp
  | `deposits => Text.deposits
  | `validatorHpp => Text.validatorHpp
  | `validatorCpp => Text.validatorCpp
  | `beaconStateHpp => Text.beaconStateHpp
  | `beaconStateCpp => Text.beaconStateCpp
  | `mainnet => Text.mainnet
  | `minimal => Text.minimal
  | `constants => Text.constants
  | `ssz => Text.ssz
  | `boolean => Text.boolean
  | `math => Text.math
  | `containerCpp => Text.containerCpp
  | `hashtreeCpp => Text.hashtreeCpp
  | `hashtreeHpp => Text.hashtreeHpp
  | `bitlistCpp => Text.bitlistCpp
  | `bitvector => Text.bitvector
  | `hasherCpp => Text.hasherCpp
  | `containerHpp => Text.containerHpp
  | `bytesToInt => Text.bytesToInt
  | `hasherHpp => Text.hasherHpp
  | _ => []

/-- `lexedCpp% f`: the tokens of the file. -/
elab "lexedCpp% " i:ident : term => return toExpr (tokens (codes (fileText i.getId)))
/-- `parsedCpp% f`: the declarations of the file. -/
elab "parsedCpp% " i:ident : term => return toExpr ((read (codes (fileText i.getId))).getD [])

theorem read_of {t : List String} {p : List Nat} {ts : List Tok} {l : List Top} (hp : t = ofPacked p) (ht : tokens (p.map (unpack 200)) = ts)
    (hl : parse ts = some l) : read (codes t) = some l := by rw [hp, codes_ofPacked, read, ht, hl]

def slotP : List Nat := packed% Text.slot
def slotT : List Tok := lexedCpp% slot
def slotD : List Top := parsedCpp% slot
theorem slot_packed : Text.slot = ofPacked slotP := by kernel_refl
theorem slot_lexed : tokens (slotP.map (unpack 200)) = slotT := by kernel_refl
theorem slot_parsed : parse slotT = some slotD := by kernel_refl
theorem slot_read : read (codes Text.slot) = some slotD := read_of slot_packed slot_lexed slot_parsed

def bytesP : List Nat := packed% Text.bytes
def bytesT : List Tok := lexedCpp% bytes
def bytesD : List Top := parsedCpp% bytes
theorem bytes_packed : Text.bytes = ofPacked bytesP := by kernel_refl
theorem bytes_lexed : tokens (bytesP.map (unpack 200)) = bytesT := by kernel_refl
theorem bytes_parsed : parse bytesT = some bytesD := by kernel_refl
theorem bytes_read : read (codes Text.bytes) = some bytesD := read_of bytes_packed bytes_lexed bytes_parsed

def containersP : List Nat := packed% Text.containers
def containersT : List Tok := lexedCpp% containers
def containersD : List Top := parsedCpp% containers
theorem containers_packed : Text.containers = ofPacked containersP := by kernel_refl
theorem containers_lexed : tokens (containersP.map (unpack 200)) = containersT := by kernel_refl
theorem containers_parsed : parse containersT = some containersD := by kernel_refl
theorem containers_read : read (codes Text.containers) = some containersD := read_of containers_packed containers_lexed containers_parsed

def attestationHppP : List Nat := packed% Text.attestationHpp
def attestationHppT : List Tok := lexedCpp% attestationHpp
def attestationHppD : List Top := parsedCpp% attestationHpp
theorem attestationHpp_packed : Text.attestationHpp = ofPacked attestationHppP := by kernel_refl
theorem attestationHpp_lexed : tokens (attestationHppP.map (unpack 200)) = attestationHppT := by kernel_refl
theorem attestationHpp_parsed : parse attestationHppT = some attestationHppD := by kernel_refl
theorem attestationHpp_read : read (codes Text.attestationHpp) = some attestationHppD := read_of attestationHpp_packed attestationHpp_lexed attestationHpp_parsed

def attestationCppP : List Nat := packed% Text.attestationCpp
def attestationCppT : List Tok := lexedCpp% attestationCpp
def attestationCppD : List Top := parsedCpp% attestationCpp
theorem attestationCpp_packed : Text.attestationCpp = ofPacked attestationCppP := by kernel_refl
theorem attestationCpp_lexed : tokens (attestationCppP.map (unpack 200)) = attestationCppT := by kernel_refl
theorem attestationCpp_parsed : parse attestationCppT = some attestationCppD := by kernel_refl
theorem attestationCpp_read : read (codes Text.attestationCpp) = some attestationCppD := read_of attestationCpp_packed attestationCpp_lexed attestationCpp_parsed

def eth1DataP : List Nat := packed% Text.eth1Data
def eth1DataT : List Tok := lexedCpp% eth1Data
def eth1DataD : List Top := parsedCpp% eth1Data
theorem eth1Data_packed : Text.eth1Data = ofPacked eth1DataP := by kernel_refl
theorem eth1Data_lexed : tokens (eth1DataP.map (unpack 200)) = eth1DataT := by kernel_refl
theorem eth1Data_parsed : parse eth1DataT = some eth1DataD := by kernel_refl
theorem eth1Data_read : read (codes Text.eth1Data) = some eth1DataD := read_of eth1Data_packed eth1Data_lexed eth1Data_parsed

def beaconBlockHppP : List Nat := packed% Text.beaconBlockHpp
def beaconBlockHppT : List Tok := lexedCpp% beaconBlockHpp
def beaconBlockHppD : List Top := parsedCpp% beaconBlockHpp
theorem beaconBlockHpp_packed : Text.beaconBlockHpp = ofPacked beaconBlockHppP := by kernel_refl
theorem beaconBlockHpp_lexed : tokens (beaconBlockHppP.map (unpack 200)) = beaconBlockHppT := by kernel_refl
theorem beaconBlockHpp_parsed : parse beaconBlockHppT = some beaconBlockHppD := by kernel_refl
theorem beaconBlockHpp_read : read (codes Text.beaconBlockHpp) = some beaconBlockHppD := read_of beaconBlockHpp_packed beaconBlockHpp_lexed beaconBlockHpp_parsed

def beaconBlockCppP : List Nat := packed% Text.beaconBlockCpp
def beaconBlockCppT : List Tok := lexedCpp% beaconBlockCpp
def beaconBlockCppD : List Top := parsedCpp% beaconBlockCpp
theorem beaconBlockCpp_packed : Text.beaconBlockCpp = ofPacked beaconBlockCppP := by kernel_refl
theorem beaconBlockCpp_lexed : tokens (beaconBlockCppP.map (unpack 200)) = beaconBlockCppT := by kernel_refl
theorem beaconBlockCpp_parsed : parse beaconBlockCppT = some beaconBlockCppD := by kernel_refl
theorem beaconBlockCpp_read : read (codes Text.beaconBlockCpp) = some beaconBlockCppD := read_of beaconBlockCpp_packed beaconBlockCpp_lexed beaconBlockCpp_parsed

def depositsP : List Nat := packed% Text.deposits
def depositsT : List Tok := lexedCpp% deposits
def depositsD : List Top := parsedCpp% deposits
theorem deposits_packed : Text.deposits = ofPacked depositsP := by kernel_refl
theorem deposits_lexed : tokens (depositsP.map (unpack 200)) = depositsT := by kernel_refl
theorem deposits_parsed : parse depositsT = some depositsD := by kernel_refl
theorem deposits_read : read (codes Text.deposits) = some depositsD := read_of deposits_packed deposits_lexed deposits_parsed

def validatorHppP : List Nat := packed% Text.validatorHpp
def validatorHppT : List Tok := lexedCpp% validatorHpp
def validatorHppD : List Top := parsedCpp% validatorHpp
theorem validatorHpp_packed : Text.validatorHpp = ofPacked validatorHppP := by kernel_refl
theorem validatorHpp_lexed : tokens (validatorHppP.map (unpack 200)) = validatorHppT := by kernel_refl
theorem validatorHpp_parsed : parse validatorHppT = some validatorHppD := by kernel_refl
theorem validatorHpp_read : read (codes Text.validatorHpp) = some validatorHppD := read_of validatorHpp_packed validatorHpp_lexed validatorHpp_parsed

def validatorCppP : List Nat := packed% Text.validatorCpp
def validatorCppT : List Tok := lexedCpp% validatorCpp
def validatorCppD : List Top := parsedCpp% validatorCpp
theorem validatorCpp_packed : Text.validatorCpp = ofPacked validatorCppP := by kernel_refl
theorem validatorCpp_lexed : tokens (validatorCppP.map (unpack 200)) = validatorCppT := by kernel_refl
theorem validatorCpp_parsed : parse validatorCppT = some validatorCppD := by kernel_refl
theorem validatorCpp_read : read (codes Text.validatorCpp) = some validatorCppD := read_of validatorCpp_packed validatorCpp_lexed validatorCpp_parsed

def beaconStateHppP : List Nat := packed% Text.beaconStateHpp
def beaconStateHppT : List Tok := lexedCpp% beaconStateHpp
def beaconStateHppD : List Top := parsedCpp% beaconStateHpp
theorem beaconStateHpp_packed : Text.beaconStateHpp = ofPacked beaconStateHppP := by kernel_refl
theorem beaconStateHpp_lexed : tokens (beaconStateHppP.map (unpack 200)) = beaconStateHppT := by kernel_refl
theorem beaconStateHpp_parsed : parse beaconStateHppT = some beaconStateHppD := by kernel_refl
theorem beaconStateHpp_read : read (codes Text.beaconStateHpp) = some beaconStateHppD := read_of beaconStateHpp_packed beaconStateHpp_lexed beaconStateHpp_parsed

def beaconStateCppP : List Nat := packed% Text.beaconStateCpp
def beaconStateCppT : List Tok := lexedCpp% beaconStateCpp
def beaconStateCppD : List Top := parsedCpp% beaconStateCpp
theorem beaconStateCpp_packed : Text.beaconStateCpp = ofPacked beaconStateCppP := by kernel_refl
theorem beaconStateCpp_lexed : tokens (beaconStateCppP.map (unpack 200)) = beaconStateCppT := by kernel_refl
theorem beaconStateCpp_parsed : parse beaconStateCppT = some beaconStateCppD := by kernel_refl
theorem beaconStateCpp_read : read (codes Text.beaconStateCpp) = some beaconStateCppD := read_of beaconStateCpp_packed beaconStateCpp_lexed beaconStateCpp_parsed

def mainnetP : List Nat := packed% Text.mainnet
def mainnetT : List Tok := lexedCpp% mainnet
def mainnetD : List Top := parsedCpp% mainnet
theorem mainnet_packed : Text.mainnet = ofPacked mainnetP := by kernel_refl
theorem mainnet_lexed : tokens (mainnetP.map (unpack 200)) = mainnetT := by kernel_refl
theorem mainnet_parsed : parse mainnetT = some mainnetD := by kernel_refl
theorem mainnet_read : read (codes Text.mainnet) = some mainnetD := read_of mainnet_packed mainnet_lexed mainnet_parsed

def minimalP : List Nat := packed% Text.minimal
def minimalT : List Tok := lexedCpp% minimal
def minimalD : List Top := parsedCpp% minimal
theorem minimal_packed : Text.minimal = ofPacked minimalP := by kernel_refl
theorem minimal_lexed : tokens (minimalP.map (unpack 200)) = minimalT := by kernel_refl
theorem minimal_parsed : parse minimalT = some minimalD := by kernel_refl
theorem minimal_read : read (codes Text.minimal) = some minimalD := read_of minimal_packed minimal_lexed minimal_parsed

def constantsP : List Nat := packed% Text.constants
def constantsT : List Tok := lexedCpp% constants
def constantsD : List Top := parsedCpp% constants
theorem constants_packed : Text.constants = ofPacked constantsP := by kernel_refl
theorem constants_lexed : tokens (constantsP.map (unpack 200)) = constantsT := by kernel_refl
theorem constants_parsed : parse constantsT = some constantsD := by kernel_refl
theorem constants_read : read (codes Text.constants) = some constantsD := read_of constants_packed constants_lexed constants_parsed

def sszP : List Nat := packed% Text.ssz
def sszT : List Tok := lexedCpp% ssz
def sszD : List Top := parsedCpp% ssz
theorem ssz_packed : Text.ssz = ofPacked sszP := by kernel_refl
theorem ssz_lexed : tokens (sszP.map (unpack 200)) = sszT := by kernel_refl
theorem ssz_parsed : parse sszT = some sszD := by kernel_refl
theorem ssz_read : read (codes Text.ssz) = some sszD := read_of ssz_packed ssz_lexed ssz_parsed

/-- The declarations of the files. -/
def filesD : List (List Top) :=
  [containersD, attestationHppD, attestationCppD, eth1DataD, beaconBlockHppD, beaconBlockCppD, depositsD, validatorHppD, validatorCppD, beaconStateHppD, beaconStateCppD]

theorem allOf_cons {α β : Type} {f : α → Option β} {a : α} {b : β} {l : List α} {bs : List β} (h : f a = some b) (h' : allOf f l = some bs) :
    allOf f (a :: l) = some (b :: bs) := by rw [allOf, h, h']

theorem files_read : allOf read files = some filesD :=
  allOf_cons containers_read <| allOf_cons attestationHpp_read <| allOf_cons attestationCpp_read <| allOf_cons eth1Data_read <| allOf_cons beaconBlockHpp_read <| allOf_cons beaconBlockCpp_read <| allOf_cons deposits_read <| allOf_cons validatorHpp_read <| allOf_cons validatorCpp_read <| allOf_cons beaconStateHpp_read <| allOf_cons beaconStateCpp_read rfl

end Mammon.Cpp
