import Verif.Proofs.CppPackMore
import Verif.Model.CppRun
/-!
# The functions of the text

The functions as literals, and that they are what the text of the files says.
-/

set_option Elab.async false

namespace Mammon.Cpp
open Nasm Lean

deriving instance ToExpr for Op
deriving instance ToExpr for Ex, Exs, Stmt, Sts
deriving instance ToExpr for Param
deriving instance ToExpr for Func

/-- `free% f c n`: the function `n` of the class `c` outside of classes in the file `f`. -/
elab "free% " i:ident c:str n:str : term => do
  match (read (codes (fileText i.getId))).bind fun l => freeFunction l (nameOf (c.getString.toList.map Char.toNat)) (nameOf (n.getString.toList.map Char.toNat)) with
  | some f => return toExpr f
  | none => throwError "no function"
/-- `constructor% f c k`: the `k`-th constructor of the class `c` outside of it in the file `f`. -/
elab "constructor% " i:ident c:str k:num : term => do
  match (read (codes (fileText i.getId))).bind fun l => (constructors l (nameOf (c.getString.toList.map Char.toNat))).bind fun l => l[k.getNat]? with
  | some f => return toExpr f
  | none => throwError "no function"
/-- `member% f c n`: the function `n` in the class `c` in the file `f`. -/
elab "member% " i:ident c:str n:str : term => do
  match (read (codes (fileText i.getId))).bind fun l => memberFunction l (nameOf (c.getString.toList.map Char.toNat)) (nameOf (n.getString.toList.map Char.toNat)) with
  | some f => return toExpr f
  | none => throwError "no function"
/-- `constrained% f c n b`: the function `n` in the class `c` in the file `f` for basic objects (`true`) or others (`false`). -/
elab "constrained% " i:ident c:str n:str b:ident : term => do
  match (read (codes (fileText i.getId))).bind fun l => constrainedFunction l (nameOf (c.getString.toList.map Char.toNat)) (nameOf (n.getString.toList.map Char.toNat))
      (b.getId == `true) with
  | some f => return toExpr f
  | none => throwError "no function"

/-- `operator% f c o k`: the `k`-th operator `o` in the class `c` in the file `f`. -/
elab "operator% " i:ident c:str o:str k:num : term => do
  match (read (codes (fileText i.getId))).bind fun l => (operatorFunctions l (nameOf (c.getString.toList.map Char.toNat))
      (nameOf (o.getString.toList.map Char.toNat))).bind fun l => l[k.getNat]? with
  | some f => return toExpr f
  | none => throwError "no function"
/-- `maker% f c`: the constructor in the class `c` in the file `f`. -/
elab "maker% " i:ident c:str : term => do
  match (read (codes (fileText i.getId))).bind fun l => constructorIn l (nameOf (c.getString.toList.map Char.toNat)) with
  | some f => return toExpr f
  | none => throwError "no function"

theorem operator_of {t : List String} {l : List Top} {c n k : Nat} {f : Func} (h : read (codes t) = some l) (hf : ((operatorFunctions l c n).bind fun fs => fs[k]?) = some f) :
    (read (codes t)).bind (fun l => (operatorFunctions l c n).bind fun fs => fs[k]?) = some f := by rw [h]; exact hf

theorem maker_of {t : List String} {l : List Top} {c : Nat} {f : Func} (h : read (codes t) = some l) (hf : constructorIn l c = some f) :
    (read (codes t)).bind (fun l => constructorIn l c) = some f := by rw [h]; exact hf

theorem constrained_of {t : List String} {l : List Top} {c n : Nat} {b : Bool} {f : Func} (h : read (codes t) = some l) (hf : constrainedFunction l c n b = some f) :
    (read (codes t)).bind (fun l => constrainedFunction l c n b) = some f := by rw [h]; exact hf

theorem free_of {t : List String} {l : List Top} {c n : Nat} {f : Func} (h : read (codes t) = some l) (hf : freeFunction l c n = some f) :
    (read (codes t)).bind (fun l => freeFunction l c n) = some f := by rw [h]; exact hf

theorem member_of {t : List String} {l : List Top} {c n : Nat} {f : Func} (h : read (codes t) = some l) (hf : memberFunction l c n = some f) :
    (read (codes t)).bind (fun l => memberFunction l c n) = some f := by rw [h]; exact hf

def sqrtHelperF : Func := free% math "" "sqrt_helper"
theorem sqrtHelperF_read : (read (codes Text.math)).bind (fun l => freeFunction l 0 (name% "sqrt_helper")) = some sqrtHelperF :=
  free_of math_read (by kernel_refl)
def ctSqrtF : Func := free% math "" "ct_sqrt"
theorem ctSqrtF_read : (read (codes Text.math)).bind (fun l => freeFunction l 0 (name% "ct_sqrt")) = some ctSqrtF :=
  free_of math_read (by kernel_refl)
def integerSquarerootF : Func := free% math "" "integer_squareroot"
theorem integerSquarerootF_read : (read (codes Text.math)).bind (fun l => freeFunction l 0 (name% "integer_squareroot")) = some integerSquarerootF :=
  free_of math_read (by kernel_refl)
def log2ceilF : Func := free% math "" "log2ceil"
theorem log2ceilF_read : (read (codes Text.math)).bind (fun l => freeFunction l 0 (name% "log2ceil")) = some log2ceilF :=
  free_of math_read (by kernel_refl)
def computeFixedLengthF : Func := free% containerCpp "" "compute_fixed_length"
theorem computeFixedLengthF_read : (read (codes Text.containerCpp)).bind (fun l => freeFunction l 0 (name% "compute_fixed_length")) = some computeFixedLengthF :=
  free_of containerCpp_read (by kernel_refl)
def serializeF : Func := free% containerCpp "Container" "serialize_"
theorem serializeF_read : (read (codes Text.containerCpp)).bind (fun l => freeFunction l (name% "Container") (name% "serialize_")) = some serializeF :=
  free_of containerCpp_read (by kernel_refl)
def deserializeF : Func := free% containerCpp "Container" "deserialize_"
theorem deserializeF_read : (read (codes Text.containerCpp)).bind (fun l => freeFunction l (name% "Container") (name% "deserialize_")) = some deserializeF :=
  free_of containerCpp_read (by kernel_refl)
def bitlistSerializeF : Func := free% bitlistCpp "Bitlist" "serialize"
theorem bitlistSerializeF_read : (read (codes Text.bitlistCpp)).bind (fun l => freeFunction l (name% "Bitlist") (name% "serialize")) = some bitlistSerializeF :=
  free_of bitlistCpp_read (by kernel_refl)
def bitlistDeserializeF : Func := free% bitlistCpp "Bitlist" "deserialize"
theorem bitlistDeserializeF_read : (read (codes Text.bitlistCpp)).bind (fun l => freeFunction l (name% "Bitlist") (name% "deserialize")) = some bitlistDeserializeF :=
  free_of bitlistCpp_read (by kernel_refl)
def isActiveF : Func := free% validatorCpp "Validator" "is_active"
theorem isActiveF_read : (read (codes Text.validatorCpp)).bind (fun l => freeFunction l (name% "Validator") (name% "is_active")) = some isActiveF :=
  free_of validatorCpp_read (by kernel_refl)
def isEligibleF : Func := free% validatorCpp "Validator" "is_eligible_for_activation_queue"
theorem isEligibleF_read : (read (codes Text.validatorCpp)).bind (fun l => freeFunction l (name% "Validator") (name% "is_eligible_for_activation_queue")) = some isEligibleF :=
  free_of validatorCpp_read (by kernel_refl)
def isSlashableF : Func := free% validatorCpp "Validator" "is_slashable"
theorem isSlashableF_read : (read (codes Text.validatorCpp)).bind (fun l => freeFunction l (name% "Validator") (name% "is_slashable")) = some isSlashableF :=
  free_of validatorCpp_read (by kernel_refl)
def isSlashablePairF : Func := free% attestationCpp "AttestationData" "is_slashable"
theorem isSlashablePairF_read : (read (codes Text.attestationCpp)).bind (fun l => freeFunction l (name% "AttestationData") (name% "is_slashable")) = some isSlashablePairF :=
  free_of attestationCpp_read (by kernel_refl)
def isValidF : Func := free% attestationCpp "IndexedAttestation" "is_valid"
theorem isValidF_read : (read (codes Text.attestationCpp)).bind (fun l => freeFunction l (name% "IndexedAttestation") (name% "is_valid")) = some isValidF :=
  free_of attestationCpp_read (by kernel_refl)
def sseF : Func := free% hasherCpp "Hasher" "sha256_sse"
theorem sseF_read : (read (codes Text.hasherCpp)).bind (fun l => freeFunction l (name% "Hasher") (name% "sha256_sse")) = some sseF :=
  free_of hasherCpp_read (by kernel_refl)
def implementedF : Func := free% hasherCpp "Hasher" "implemented"
theorem implementedF_read : (read (codes Text.hasherCpp)).bind (fun l => freeFunction l (name% "Hasher") (name% "implemented")) = some implementedF :=
  free_of hasherCpp_read (by kernel_refl)
def bestF : Func := free% hasherCpp "Hasher" "best_sha256_implementation"
theorem bestF_read : (read (codes Text.hasherCpp)).bind (fun l => freeFunction l (name% "Hasher") (name% "best_sha256_implementation")) = some bestF :=
  free_of hasherCpp_read (by kernel_refl)
def bitvectorSerializeF : Func := member% bitvector "Bitvector" "serialize"
theorem bitvectorSerializeF_read : (read (codes Text.bitvector)).bind (fun l => memberFunction l (name% "Bitvector") (name% "serialize")) = some bitvectorSerializeF :=
  member_of bitvector_read (by kernel_refl)
def bitvectorDeserializeF : Func := member% bitvector "Bitvector" "deserialize"
theorem bitvectorDeserializeF_read : (read (codes Text.bitvector)).bind (fun l => memberFunction l (name% "Bitvector") (name% "deserialize")) = some bitvectorDeserializeF :=
  member_of bitvector_read (by kernel_refl)
def slotSerializeF : Func := member% slot "Slot" "serialize"
theorem slotSerializeF_read : (read (codes Text.slot)).bind (fun l => memberFunction l (name% "Slot") (name% "serialize")) = some slotSerializeF :=
  member_of slot_read (by kernel_refl)
def slotDeserializeF : Func := member% slot "Slot" "deserialize"
theorem slotDeserializeF_read : (read (codes Text.slot)).bind (fun l => memberFunction l (name% "Slot") (name% "deserialize")) = some slotDeserializeF :=
  member_of slot_read (by kernel_refl)
def booleanSerializeF : Func := member% boolean "Boolean" "serialize"
theorem booleanSerializeF_read : (read (codes Text.boolean)).bind (fun l => memberFunction l (name% "Boolean") (name% "serialize")) = some booleanSerializeF :=
  member_of boolean_read (by kernel_refl)
def booleanDeserializeF : Func := member% boolean "Boolean" "deserialize"
theorem booleanDeserializeF_read : (read (codes Text.boolean)).bind (fun l => memberFunction l (name% "Boolean") (name% "deserialize")) = some booleanDeserializeF :=
  member_of boolean_read (by kernel_refl)
def bytesSerializeF : Func := member% bytes "Bytes" "serialize"
theorem bytesSerializeF_read : (read (codes Text.bytes)).bind (fun l => memberFunction l (name% "Bytes") (name% "serialize")) = some bytesSerializeF :=
  member_of bytes_read (by kernel_refl)
def bytesDeserializeF : Func := member% bytes "Bytes" "deserialize"
theorem bytesDeserializeF_read : (read (codes Text.bytes)).bind (fun l => memberFunction l (name% "Bytes") (name% "deserialize")) = some bytesDeserializeF :=
  member_of bytes_read (by kernel_refl)
def vectorSerializeF : Func := member% containers "VectorFixedSizedParts" "serialize"
theorem vectorSerializeF_read : (read (codes Text.containers)).bind (fun l => memberFunction l (name% "VectorFixedSizedParts") (name% "serialize")) = some vectorSerializeF :=
  member_of containers_read (by kernel_refl)
def vectorDeserializeF : Func := member% containers "VectorFixedSizedParts" "deserialize"
theorem vectorDeserializeF_read : (read (codes Text.containers)).bind (fun l => memberFunction l (name% "VectorFixedSizedParts") (name% "deserialize")) = some vectorDeserializeF :=
  member_of containers_read (by kernel_refl)
def listFSerializeF : Func := member% containers "ListFixedSizedParts" "serialize"
theorem listFSerializeF_read : (read (codes Text.containers)).bind (fun l => memberFunction l (name% "ListFixedSizedParts") (name% "serialize")) = some listFSerializeF :=
  member_of containers_read (by kernel_refl)
def listFDeserializeF : Func := member% containers "ListFixedSizedParts" "deserialize"
theorem listFDeserializeF_read : (read (codes Text.containers)).bind (fun l => memberFunction l (name% "ListFixedSizedParts") (name% "deserialize")) = some listFDeserializeF :=
  member_of containers_read (by kernel_refl)
def listVSerializeF : Func := member% containers "ListVariableSizedParts" "serialize"
theorem listVSerializeF_read : (read (codes Text.containers)).bind (fun l => memberFunction l (name% "ListVariableSizedParts") (name% "serialize")) = some listVSerializeF :=
  member_of containers_read (by kernel_refl)
def listVDeserializeF : Func := member% containers "ListVariableSizedParts" "deserialize"
theorem listVDeserializeF_read : (read (codes Text.containers)).bind (fun l => memberFunction l (name% "ListVariableSizedParts") (name% "deserialize")) = some listVDeserializeF :=
  member_of containers_read (by kernel_refl)
def listVSizeF : Func := member% containers "ListVariableSizedParts" "size"
theorem listVSizeF_read : (read (codes Text.containers)).bind (fun l => memberFunction l (name% "ListVariableSizedParts") (name% "size")) = some listVSizeF :=
  member_of containers_read (by kernel_refl)

theorem constructors_of {t : List String} {l : List Top} {c : Nat} {f : List Func} (h : read (codes t) = some l) (hf : constructors l c = some f) :
    (read (codes t)).bind (fun l => constructors l c) = some f := by rw [h]; exact hf

def hash2F : Func := free% hashtreeCpp "" "hash_2_chunks"
theorem hash2F_read : (read (codes Text.hashtreeCpp)).bind (fun l => freeFunction l 0 (name% "hash_2_chunks")) = some hash2F :=
  free_of hashtreeCpp_read (by kernel_refl)
def zeroHashesF : Func := free% hashtreeCpp "" "zero_hash_array_helper"
theorem zeroHashesF_read : (read (codes Text.hashtreeCpp)).bind (fun l => freeFunction l 0 (name% "zero_hash_array_helper")) = some zeroHashesF :=
  free_of hashtreeCpp_read (by kernel_refl)
def packAndPadF : Func := free% hashtreeCpp "" "pack_and_pad"
theorem packAndPadF_read : (read (codes Text.hashtreeCpp)).bind (fun l => freeFunction l 0 (name% "pack_and_pad")) = some packAndPadF :=
  free_of hashtreeCpp_read (by kernel_refl)
def merkleizeF : Func := free% hashtreeCpp "" "merkleize"
theorem merkleizeF_read : (read (codes Text.hashtreeCpp)).bind (fun l => freeFunction l 0 (name% "merkleize")) = some merkleizeF :=
  free_of hashtreeCpp_read (by kernel_refl)
def mixInF : Func := free% hashtreeCpp "HashTree" "mix_in"
theorem mixInF_read : (read (codes Text.hashtreeCpp)).bind (fun l => freeFunction l (name% "HashTree") (name% "mix_in")) = some mixInF :=
  free_of hashtreeCpp_read (by kernel_refl)
def hashTreeRootF : Func := member% hashtreeHpp "HashTree" "hash_tree_root"
theorem hashTreeRootF_read : (read (codes Text.hashtreeHpp)).bind (fun l => memberFunction l (name% "HashTree") (name% "hash_tree_root")) = some hashTreeRootF :=
  member_of hashtreeHpp_read (by kernel_refl)
def treeOfChunksF : Func := constructor% hashtreeCpp "HashTree" 0
def treeOfBytesF : Func := constructor% hashtreeCpp "HashTree" 1
theorem treeF_read : (read (codes Text.hashtreeCpp)).bind (fun l => constructors l (name% "HashTree")) = some [treeOfChunksF, treeOfBytesF] :=
  constructors_of hashtreeCpp_read (by kernel_refl)
def slotTreeF : Func := member% slot "Slot" "hash_tree"
theorem slotTreeF_read : (read (codes Text.slot)).bind (fun l => memberFunction l (name% "Slot") (name% "hash_tree")) = some slotTreeF :=
  member_of slot_read (by kernel_refl)
def vectorTreeF : Func := member% containers "VectorFixedSizedParts" "hash_tree"
theorem vectorTreeF_read : (read (codes Text.containers)).bind (fun l => memberFunction l (name% "VectorFixedSizedParts") (name% "hash_tree")) = some vectorTreeF :=
  member_of containers_read (by kernel_refl)
def listFTreeF : Func := member% containers "ListFixedSizedParts" "hash_tree"
theorem listFTreeF_read : (read (codes Text.containers)).bind (fun l => memberFunction l (name% "ListFixedSizedParts") (name% "hash_tree")) = some listFTreeF :=
  member_of containers_read (by kernel_refl)
def listVTreeF : Func := member% containers "ListVariableSizedParts" "hash_tree"
theorem listVTreeF_read : (read (codes Text.containers)).bind (fun l => memberFunction l (name% "ListVariableSizedParts") (name% "hash_tree")) = some listVTreeF :=
  member_of containers_read (by kernel_refl)
def objectRootF : Func := member% containerHpp "Container" "hash_tree_root"
theorem objectRootF_read : (read (codes Text.containerHpp)).bind (fun l => memberFunction l (name% "Container") (name% "hash_tree_root")) = some objectRootF :=
  member_of containerHpp_read (by kernel_refl)
def bitlistTreeF : Func := free% bitlistCpp "Bitlist" "hash_tree"
theorem bitlistTreeF_read : (read (codes Text.bitlistCpp)).bind (fun l => freeFunction l (name% "Bitlist") (name% "hash_tree")) = some bitlistTreeF :=
  free_of bitlistCpp_read (by kernel_refl)
def objectTreeF : Func := free% containerCpp "Container" "hash_tree"
theorem objectTreeF_read : (read (codes Text.containerCpp)).bind (fun l => freeFunction l (name% "Container") (name% "hash_tree")) = some objectTreeF :=
  free_of containerCpp_read (by kernel_refl)
def partsTreeF : Func := free% containerCpp "Container" "hash_tree_"
theorem partsTreeF_read : (read (codes Text.containerCpp)).bind (fun l => freeFunction l (name% "Container") (name% "hash_tree_")) = some partsTreeF :=
  free_of containerCpp_read (by kernel_refl)
def vectorBasicF : Func := constrained% containers "VectorFixedSizedParts" "hash_tree_x" true
theorem vectorBasicF_read : (read (codes Text.containers)).bind (fun l => constrainedFunction l (name% "VectorFixedSizedParts") (name% "hash_tree_x") true) = some vectorBasicF :=
  constrained_of containers_read (by kernel_refl)
def vectorOtherF : Func := constrained% containers "VectorFixedSizedParts" "hash_tree_x" false
theorem vectorOtherF_read : (read (codes Text.containers)).bind (fun l => constrainedFunction l (name% "VectorFixedSizedParts") (name% "hash_tree_x") false) = some vectorOtherF :=
  constrained_of containers_read (by kernel_refl)
def listFBasicF : Func := constrained% containers "ListFixedSizedParts" "hash_tree_x" true
theorem listFBasicF_read : (read (codes Text.containers)).bind (fun l => constrainedFunction l (name% "ListFixedSizedParts") (name% "hash_tree_x") true) = some listFBasicF :=
  constrained_of containers_read (by kernel_refl)
def listFOtherF : Func := constrained% containers "ListFixedSizedParts" "hash_tree_x" false
theorem listFOtherF_read : (read (codes Text.containers)).bind (fun l => constrainedFunction l (name% "ListFixedSizedParts") (name% "hash_tree_x") false) = some listFOtherF :=
  constrained_of containers_read (by kernel_refl)
def xorF : Func := operator% bytes "Bytes" "^=" 0
theorem xorF_read : (read (codes Text.bytes)).bind (fun l => (operatorFunctions l (name% "Bytes") (name% "^=")).bind fun fs => fs[0]?) = some xorF :=
  operator_of bytes_read (by kernel_refl)
def equalF : Func := operator% bytes "Bytes" "==" 0
theorem equalF_read : (read (codes Text.bytes)).bind (fun l => (operatorFunctions l (name% "Bytes") (name% "==")).bind fun fs => fs[0]?) = some equalF :=
  operator_of bytes_read (by kernel_refl)
def equalVectorF : Func := operator% bytes "Bytes" "==" 1
theorem equalVectorF_read : (read (codes Text.bytes)).bind (fun l => (operatorFunctions l (name% "Bytes") (name% "==")).bind fun fs => fs[1]?) = some equalVectorF :=
  operator_of bytes_read (by kernel_refl)
def concatF : Func := operator% bytes "Bytes" "+" 0
theorem concatF_read : (read (codes Text.bytes)).bind (fun l => (operatorFunctions l (name% "Bytes") (name% "+")).bind fun fs => fs[0]?) = some concatF :=
  operator_of bytes_read (by kernel_refl)
def fromIntF : Func := member% bytes "Bytes" "bytes_from_int"
theorem fromIntF_read : (read (codes Text.bytes)).bind (fun l => memberFunction l (name% "Bytes") (name% "bytes_from_int")) = some fromIntF :=
  member_of bytes_read (by kernel_refl)
def fromStrF : Func := member% bytes "Bytes" "bytes_from_str"
theorem fromStrF_read : (read (codes Text.bytes)).bind (fun l => memberFunction l (name% "Bytes") (name% "bytes_from_str")) = some fromStrF :=
  member_of bytes_read (by kernel_refl)
def charsF : Func := member% bytes "Bytes" "chars_to_byte"
theorem charsF_read : (read (codes Text.bytes)).bind (fun l => memberFunction l (name% "Bytes") (name% "chars_to_byte")) = some charsF :=
  member_of bytes_read (by kernel_refl)
def strhexF : Func := free% bytesToInt "" "strhex2int"
theorem strhexF_read : (read (codes Text.bytesToInt)).bind (fun l => freeFunction l 0 (name% "strhex2int")) = some strhexF :=
  free_of bytesToInt_read (by kernel_refl)
def hextointF : Func := free% bytesToInt "" "hextoint"
theorem hextointF_read : (read (codes Text.bytesToInt)).bind (fun l => freeFunction l 0 (name% "hextoint")) = some hextointF :=
  free_of bytesToInt_read (by kernel_refl)
def tableF : Func := maker% bytesToInt "Table"
theorem tableF_read : (read (codes Text.bytesToInt)).bind (fun l => constructorIn l (name% "Table")) = some tableF :=
  maker_of bytesToInt_read (by kernel_refl)
def tableAtF : Func := operator% bytesToInt "Table" "[]" 0
theorem tableAtF_read : (read (codes Text.bytesToInt)).bind (fun l => (operatorFunctions l (name% "Table") (name% "[]")).bind fun fs => fs[0]?) = some tableAtF :=
  operator_of bytesToInt_read (by kernel_refl)
def bitlistHexF : Func := free% bitlistCpp "Bitlist" "from_hexstring"
theorem bitlistHexF_read : (read (codes Text.bitlistCpp)).bind (fun l => freeFunction l (name% "Bitlist") (name% "from_hexstring")) = some bitlistHexF :=
  free_of bitlistCpp_read (by kernel_refl)
def bitvectorHexF : Func := member% bitvector "Bitvector" "from_hexstring"
theorem bitvectorHexF_read : (read (codes Text.bitvector)).bind (fun l => memberFunction l (name% "Bitvector") (name% "from_hexstring")) = some bitvectorHexF :=
  member_of bitvector_read (by kernel_refl)
def bitlistStringF : Func := free% bitlistCpp "Bitlist" "to_string"
theorem bitlistStringF_read : (read (codes Text.bitlistCpp)).bind (fun l => freeFunction l (name% "Bitlist") (name% "to_string")) = some bitlistStringF :=
  free_of bitlistCpp_read (by kernel_refl)
def bitvectorStringF : Func := member% bitvector "Bitvector" "to_string"
theorem bitvectorStringF_read : (read (codes Text.bitvector)).bind (fun l => memberFunction l (name% "Bitvector") (name% "to_string")) = some bitvectorStringF :=
  member_of bitvector_read (by kernel_refl)
def hasherF : Func := constructor% hasherCpp "Hasher" 0
theorem hasherF_read : (read (codes Text.hasherCpp)).bind (fun l => (constructors l (name% "Hasher")).bind fun fs => fs[0]?) = some hasherF := by
  rw [hasherCpp_read]
  kernel_refl
def hasherDefaultF : Func := maker% hasherHpp "Hasher"
theorem hasherDefaultF_read : (read (codes Text.hasherHpp)).bind (fun l => constructorIn l (name% "Hasher")) = some hasherDefaultF :=
  maker_of hasherHpp_read (by kernel_refl)
def implOrF : Func := operator% hasherHpp "Hasher" "|" 0
theorem implOrF_read : (read (codes Text.hasherHpp)).bind (fun l => (operatorFunctions l (name% "Hasher") (name% "|")).bind fun fs => fs[0]?) = some implOrF :=
  operator_of hasherHpp_read (by kernel_refl)
def implAndF : Func := operator% hasherHpp "Hasher" "&" 0
theorem implAndF_read : (read (codes Text.hasherHpp)).bind (fun l => (operatorFunctions l (name% "Hasher") (name% "&")).bind fun fs => fs[0]?) = some implAndF :=
  operator_of hasherHpp_read (by kernel_refl)
def implNotF : Func := operator% hasherHpp "Hasher" "!" 0
theorem implNotF_read : (read (codes Text.hasherHpp)).bind (fun l => (operatorFunctions l (name% "Hasher") (name% "!")).bind fun fs => fs[0]?) = some implNotF :=
  operator_of hasherHpp_read (by kernel_refl)
theorem impl_read : (read (codes Text.hasherHpp)).bind (fun l => enumeratorsIn l (name% "Hasher") (name% "IMPL")) =
    some [(name% "NONE", 0), (name% "SSE", 1), (name% "AVX", 2), (name% "AVX2", 4), (name% "SHA", 8)] := by
  rw [hasherHpp_read]
  kernel_refl

end Mammon.Cpp
