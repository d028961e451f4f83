import Verif.Model.Yaml
import Verif.Model.HashTreeRoot
import Verif.Model.Equality
/-!
# The conformance test driver, `test_ssz` (beacon-chain/test/test_ssz.cpp)

One iteration of the loops: the test of one directory. The files are given by their contents: the trees of `value.yaml` and `roots.yaml` and what
`serialized.ssz_snappy` decompresses to.
-/

namespace Mammon.TestDriver

open Yaml (Node Handle)

/-- The operations of the class under test that the driver uses, as functions. `decode` is on a newly constructed object; `deserialize` as well (the
object `T obj;` of line 73), and its result is ignored (line 75), so only the contents afterwards are given
(beacon-chain/test/test_ssz.cpp:48,49,55,75,77). -/
structure Ops (α : Type) where
  decode : Handle → Out (Bool × α)
  hashTreeRoot : α → Out Chunk
  serialize : α → Out (List Byte)
  deserialize : List Byte → Out α
  eq : α → α → Bool

/-- The operations of a class. `old` and `obj` are the contents of the newly constructed objects; they are arbitrary because `Bitvector` leaves its
bits uninitialised (common/bitvector.hpp:44). -/
def opsOf (H : Chunk → Chunk → Chunk) (t : Ty) (old obj : t.denote) : Ops t.denote where
  decode h := Yaml.decode t old h
  hashTreeRoot v := Mammon.hashTreeRoot H t v
  serialize v := Mammon.serialize t v
  deserialize bs := (Mammon.deserialize t obj bs).map (·.2)
  eq a b := eqOp t a b

/-- `node_root["root"].as<eth::Bytes32>()` (beacon-chain/test/test_ssz.cpp:51). A missing key gives a node that does not convert. -/
def readRoot (roots : Node) : Out Chunk :=
  (Yaml.subscript (some roots) (Yaml.chars "root")).bind fun
    | some n => Yaml.asT (fun h => Yaml.decode (.bytes 32) zeroHash h) n
    | none => .throws .yamlBadConversion

/-- `snappy::RawUncompress` into a buffer of `size` zero bytes (beacon-chain/test/test_ssz.cpp:67-71): writes the decompressed bytes to the beginning of the
buffer, past its end if they do not fit. `none` is a file that does not decompress; the buffer is taken to be untouched then. The exception is
`std::filesystem::filesystem_error`. -/
def uncompress (raw : Option (List Byte)) (size : Nat) : Out (List Byte) :=
  match raw with
  | none => .throws .filesystemError
  | some bs => if size < bs.length then .ub else .ok (bs ++ List.replicate (size - bs.length) 0#8)

/-- The results of the three `TEST_CHECK`s: the root (line 53), the deserialized object (line 77), the serialization (line 82)
(beacon-chain/test/test_ssz.cpp:53,77,82). -/
structure Checks where
  root : Bool
  object : Bool
  serialization : Bool
  deriving DecidableEq

/-- `test_ssz` on one directory (beacon-chain/test/test_ssz.cpp:47-86). -/
def run {α : Type} (ops : Ops α) (value roots : Node) (raw : Option (List Byte)) : Out Checks :=
  (Yaml.asT ops.decode value).bind fun v =>
  (ops.hashTreeRoot v).bind fun computed =>
  (readRoot roots).bind fun root =>
  (ops.serialize v).bind fun serialized =>
  (uncompress raw serialized.length).bind fun output =>
  (ops.deserialize output).bind fun obj =>
  .ok ⟨computed == root, ops.eq obj v, serialized == output⟩

/-- The files of one directory (beacon-chain/test/test_ssz.cpp:47,50,56). -/
structure Files where
  value : Node
  roots : Node
  raw : Option (List Byte)

/-- The loops of `test_ssz` over the directories (beacon-chain/test/test_ssz.cpp:44-46), in the order in which the file system lists them: a failed
check does not end the test, an exception does. -/
def runAll {α : Type} (ops : Ops α) : List Files → Out (List Checks)
  | [] => .ok []
  | d :: ds => (run ops d.value d.roots d.raw).bind fun c => (runAll ops ds).map fun cs => c :: cs

/-- `TEST_LIST` (beacon-chain/test/test_ssz.cpp:113-136) with the functions of beacon-chain/test/test_ssz.cpp:89-111: name of the test, class,
and directory. -/
def tests : List (String × String × String) :=
  [("serialize_fork", "Fork", "Fork"), ("serialize_forkdata", "ForkData", "ForkData"), ("serialize_checkpoint", "Checkpoint", "Checkpoint"),
   ("serialize_signingdata", "SigningData", "SigningData"), ("serialize_attestationdata", "AttestationData", "AttestationData"),
   ("serialize_indexedattestation", "IndexedAttestation", "IndexedAttestation"),
   ("serialize_pendingattestation", "PendingAttestation", "PendingAttestation"), ("serialize_attestation", "Attestation", "Attestation"),
   ("serialize_depositmessage", "DepositMessage", "DepositMessage"), ("serialize_depositdata", "DepositData", "DepositData"),
   ("serialize_deposit", "Deposit", "Deposit"), ("serialize_eth1data", "Eth1Data", "Eth1Data"),
   ("serialize_beaconblockheader", "BeaconBlockHeader", "BeaconBlockHeader"),
   ("serialize_beaconblockbody", "BeaconBlockBody", "BeaconBlockBody"), ("serialize_beaconblock", "BeaconBlock", "BeaconBlock"),
   ("serialize_signedbeaconblockheader", "SignedBeaconBlockHeader", "SignedBeaconBlockHeader"),
   ("serialize_signedbeaconblock", "SignedBeaconBlock", "SignedBeaconBlock"),
   ("serialize_proposerslashing", "ProposerSlashing", "ProposerSlashing"),
   ("serialize_attesterslashing", "AttesterSlashing", "AttesterSlashing"), ("serialize_voluntaryexit", "VoluntaryExit", "VoluntaryExit"),
   ("serialize_signedvoluntaryexit", "SignedVoluntaryExit", "SignedVoluntaryExit"), ("serialize_validator", "Validator", "Validator"),
   ("serialize_beaconstate", "BeaconState", "BeaconState")]

end Mammon.TestDriver
