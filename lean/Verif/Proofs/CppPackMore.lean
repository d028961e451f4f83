import Verif.Proofs.CppPack
/-!
# The text of the files with the bodies of the functions as numbers, tokens and declarations

As `CppPack.lean`.
-/

set_option Elab.async false

namespace Mammon.Cpp
open Nasm Lean

def booleanP : List Nat := packed% Text.boolean
def booleanT : List Tok := lexedCpp% boolean
def booleanD : List Top := parsedCpp% boolean
theorem boolean_packed : Text.boolean = ofPacked booleanP := by kernel_refl
theorem boolean_lexed : tokens (booleanP.map (unpack 200)) = booleanT := by kernel_refl
theorem boolean_parsed : parse booleanT = some booleanD := by kernel_refl
theorem boolean_read : read (codes Text.boolean) = some booleanD := read_of boolean_packed boolean_lexed boolean_parsed

def mathP : List Nat := packed% Text.math
def mathT : List Tok := lexedCpp% math
def mathD : List Top := parsedCpp% math
theorem math_packed : Text.math = ofPacked mathP := by kernel_refl
theorem math_lexed : tokens (mathP.map (unpack 200)) = mathT := by kernel_refl
theorem math_parsed : parse mathT = some mathD := by kernel_refl
theorem math_read : read (codes Text.math) = some mathD := read_of math_packed math_lexed math_parsed

def containerCppP : List Nat := packed% Text.containerCpp
def containerCppT : List Tok := lexedCpp% containerCpp
def containerCppD : List Top := parsedCpp% containerCpp
theorem containerCpp_packed : Text.containerCpp = ofPacked containerCppP := by kernel_refl
theorem containerCpp_lexed : tokens (containerCppP.map (unpack 200)) = containerCppT := by kernel_refl
theorem containerCpp_parsed : parse containerCppT = some containerCppD := by kernel_refl
theorem containerCpp_read : read (codes Text.containerCpp) = some containerCppD := read_of containerCpp_packed containerCpp_lexed containerCpp_parsed

def bitlistCppP : List Nat := packed% Text.bitlistCpp
def bitlistCppT : List Tok := lexedCpp% bitlistCpp
def bitlistCppD : List Top := parsedCpp% bitlistCpp
theorem bitlistCpp_packed : Text.bitlistCpp = ofPacked bitlistCppP := by kernel_refl
theorem bitlistCpp_lexed : tokens (bitlistCppP.map (unpack 200)) = bitlistCppT := by kernel_refl
theorem bitlistCpp_parsed : parse bitlistCppT = some bitlistCppD := by kernel_refl
theorem bitlistCpp_read : read (codes Text.bitlistCpp) = some bitlistCppD := read_of bitlistCpp_packed bitlistCpp_lexed bitlistCpp_parsed

def bitvectorP : List Nat := packed% Text.bitvector
def bitvectorT : List Tok := lexedCpp% bitvector
def bitvectorD : List Top := parsedCpp% bitvector
theorem bitvector_packed : Text.bitvector = ofPacked bitvectorP := by kernel_refl
theorem bitvector_lexed : tokens (bitvectorP.map (unpack 200)) = bitvectorT := by kernel_refl
theorem bitvector_parsed : parse bitvectorT = some bitvectorD := by kernel_refl
theorem bitvector_read : read (codes Text.bitvector) = some bitvectorD := read_of bitvector_packed bitvector_lexed bitvector_parsed

def hashtreeCppP : List Nat := packed% Text.hashtreeCpp
def hashtreeCppT : List Tok := lexedCpp% hashtreeCpp
def hashtreeCppD : List Top := parsedCpp% hashtreeCpp
theorem hashtreeCpp_packed : Text.hashtreeCpp = ofPacked hashtreeCppP := by kernel_refl
theorem hashtreeCpp_lexed : tokens (hashtreeCppP.map (unpack 200)) = hashtreeCppT := by kernel_refl
theorem hashtreeCpp_parsed : parse hashtreeCppT = some hashtreeCppD := by kernel_refl
theorem hashtreeCpp_read : read (codes Text.hashtreeCpp) = some hashtreeCppD := read_of hashtreeCpp_packed hashtreeCpp_lexed hashtreeCpp_parsed

def hashtreeHppP : List Nat := packed% Text.hashtreeHpp
def hashtreeHppT : List Tok := lexedCpp% hashtreeHpp
def hashtreeHppD : List Top := parsedCpp% hashtreeHpp
theorem hashtreeHpp_packed : Text.hashtreeHpp = ofPacked hashtreeHppP := by kernel_refl
theorem hashtreeHpp_lexed : tokens (hashtreeHppP.map (unpack 200)) = hashtreeHppT := by kernel_refl
theorem hashtreeHpp_parsed : parse hashtreeHppT = some hashtreeHppD := by kernel_refl
theorem hashtreeHpp_read : read (codes Text.hashtreeHpp) = some hashtreeHppD := read_of hashtreeHpp_packed hashtreeHpp_lexed hashtreeHpp_parsed

def containerHppP : List Nat := packed% Text.containerHpp
def containerHppT : List Tok := lexedCpp% containerHpp
def containerHppD : List Top := parsedCpp% containerHpp
theorem containerHpp_packed : Text.containerHpp = ofPacked containerHppP := by kernel_refl
theorem containerHpp_lexed : tokens (containerHppP.map (unpack 200)) = containerHppT := by kernel_refl
theorem containerHpp_parsed : parse containerHppT = some containerHppD := by kernel_refl
theorem containerHpp_read : read (codes Text.containerHpp) = some containerHppD := read_of containerHpp_packed containerHpp_lexed containerHpp_parsed

def bytesToIntP : List Nat := packed% Text.bytesToInt
def bytesToIntT : List Tok := lexedCpp% bytesToInt
def bytesToIntD : List Top := parsedCpp% bytesToInt
theorem bytesToInt_packed : Text.bytesToInt = ofPacked bytesToIntP := by kernel_refl
theorem bytesToInt_lexed : tokens (bytesToIntP.map (unpack 200)) = bytesToIntT := by kernel_refl
theorem bytesToInt_parsed : parse bytesToIntT = some bytesToIntD := by kernel_refl
theorem bytesToInt_read : read (codes Text.bytesToInt) = some bytesToIntD := read_of bytesToInt_packed bytesToInt_lexed bytesToInt_parsed

def hasherCppP : List Nat := packed% Text.hasherCpp
def hasherCppT : List Tok := lexedCpp% hasherCpp
def hasherCppD : List Top := parsedCpp% hasherCpp
theorem hasherCpp_packed : Text.hasherCpp = ofPacked hasherCppP := by kernel_refl
theorem hasherCpp_lexed : tokens (hasherCppP.map (unpack 200)) = hasherCppT := by kernel_refl
theorem hasherCpp_parsed : parse hasherCppT = some hasherCppD := by kernel_refl
theorem hasherCpp_read : read (codes Text.hasherCpp) = some hasherCppD := read_of hasherCpp_packed hasherCpp_lexed hasherCpp_parsed
def hasherHppP : List Nat := packed% Text.hasherHpp
def hasherHppT : List Tok := lexedCpp% hasherHpp
def hasherHppD : List Top := parsedCpp% hasherHpp
theorem hasherHpp_packed : Text.hasherHpp = ofPacked hasherHppP := by kernel_refl
theorem hasherHpp_lexed : tokens (hasherHppP.map (unpack 200)) = hasherHppT := by kernel_refl
theorem hasherHpp_parsed : parse hasherHppT = some hasherHppD := by kernel_refl
theorem hasherHpp_read : read (codes Text.hasherHpp) = some hasherHppD := read_of hasherHpp_packed hasherHpp_lexed hasherHpp_parsed

end Mammon.Cpp
