import Verif.Model.Objects
import Verif.Model.Codec
import Verif.Spec.Classes
/-!
# Concrete objects used in the examples beside the theorems
-/

namespace Mammon.Samples

/-- A 32-byte root `b, b + 1, ...`. -/
def root (b : Nat) : BytesN 32 := ⟨(List.range 32).map fun i => BitVec.ofNat 8 (b + i), by simp⟩

/-- A signature. -/
def signature (b : Nat) : BytesN 96 := ⟨(List.range 96).map fun i => BitVec.ofNat 8 (b + 3 * i), by simp⟩

/-- A checkpoint. -/
def checkpoint (e : Nat) : Objects.checkpoint.denote := (BitVec.ofNat 64 e, root e, ())

/-- Attestation data with source and target epochs `s` and `t`. -/
def attestationData (s t : Nat) : Objects.attestationData.denote :=
  (0x1122334455667788#64, 3#64, root 17, checkpoint s, checkpoint t, ())

/-- An attestation with the given aggregation bits. -/
def attestation (bits : List Bool) : (Objects.attestation mainnet).denote := (bits, attestationData 6 7, signature 9, ())

/-- An indexed attestation. -/
def indexedAttestation (l : List (BitVec 64)) : (Objects.indexedAttestation mainnet).denote :=
  (l, attestationData 6 7, signature 9, ())

/-- A pair of indexed attestations. -/
def attesterSlashing : (Objects.attesterSlashing mainnet).denote :=
  (indexedAttestation [1#64, 5#64, 9#64], indexedAttestation [5#64], ())

/-- A fork record. -/
def fork : Objects.fork.denote := (⟨[1#8, 2#8, 3#8, 4#8], rfl⟩, ⟨[5#8, 6#8, 7#8, 8#8], rfl⟩, 0x0102030405060708#64, ())

/-- A function on pairs of chunks in place of SHA-256. -/
def toyHash (a b : Chunk) : Chunk := ⟨List.zipWith (fun x y => 3#8 * x + 5#8 * y + 1#8) a.1 b.1, by rw [List.length_zipWith, a.2, b.2]; rfl⟩

/-- A block body with the given number of attester slashings. -/
def body (p : Preset) (n : Nat) : (Objects.beaconBlockBody p).denote :=
  (signature 3, (root 1, 77#64, root 5, ()), root 8, [], List.replicate n (Objects.attesterSlashing p).dflt, [], [], [], ())

end Mammon.Samples
