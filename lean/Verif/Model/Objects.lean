import Verif.Model.Types
/-!
# The classes of the repository as types of the universe
-/

namespace Mammon

/-- The preset constants used in the declarations of the classes (config/mainnet.hpp.in, config/minimal.hpp.in; one of the
two becomes `include/config.hpp`, CMakeLists.txt:40-47). -/
structure Preset where
  MAX_VALIDATORS_PER_COMMITTEE : Nat
  SLOTS_PER_EPOCH : Nat
  EPOCHS_PER_ETH1_VOTING_PERIOD : Nat
  SLOTS_PER_HISTORICAL_ROOT : Nat
  EPOCHS_PER_HISTORICAL_VECTOR : Nat
  EPOCHS_PER_SLASHINGS_VECTOR : Nat
  HISTORICAL_ROOTS_LIMIT : Nat
  VALIDATOR_REGISTRY_LIMIT : Nat
  MAX_PROPOSER_SLASHINGS : Nat
  MAX_ATTESTER_SLASHINGS : Nat
  MAX_ATTESTATIONS : Nat
  MAX_DEPOSITS : Nat
  MAX_VOLUNTARY_EXITS : Nat
  deriving DecidableEq

/-- config/mainnet.hpp.in:63-89. -/
def mainnet : Preset where
  MAX_VALIDATORS_PER_COMMITTEE := 2048
  SLOTS_PER_EPOCH := 32
  EPOCHS_PER_ETH1_VOTING_PERIOD := 64
  SLOTS_PER_HISTORICAL_ROOT := 8192
  EPOCHS_PER_HISTORICAL_VECTOR := 65536
  EPOCHS_PER_SLASHINGS_VECTOR := 8192
  HISTORICAL_ROOTS_LIMIT := 16777216
  VALIDATOR_REGISTRY_LIMIT := 1099511627776
  MAX_PROPOSER_SLASHINGS := 16
  MAX_ATTESTER_SLASHINGS := 2
  MAX_ATTESTATIONS := 128
  MAX_DEPOSITS := 16
  MAX_VOLUNTARY_EXITS := 16

/-- config/minimal.hpp.in:64-90. -/
def minimal : Preset where
  MAX_VALIDATORS_PER_COMMITTEE := 2048
  SLOTS_PER_EPOCH := 8
  EPOCHS_PER_ETH1_VOTING_PERIOD := 4
  SLOTS_PER_HISTORICAL_ROOT := 64
  EPOCHS_PER_HISTORICAL_VECTOR := 64
  EPOCHS_PER_SLASHINGS_VECTOR := 64
  HISTORICAL_ROOTS_LIMIT := 16777216
  VALIDATOR_REGISTRY_LIMIT := 1099511627776
  MAX_PROPOSER_SLASHINGS := 16
  MAX_ATTESTER_SLASHINGS := 2
  MAX_ATTESTATIONS := 128
  MAX_DEPOSITS := 16
  MAX_VOLUNTARY_EXITS := 16

/-- `constants::DEPOSIT_CONTRACT_TREE_DEPTH` (config/constants.hpp:31). -/
abbrev DEPOSIT_CONTRACT_TREE_DEPTH : Nat := 0x20

/-- `constants::JUSTIFICATION_BITS_LENGTH` (config/constants.hpp:32). -/
abbrev JUSTIFICATION_BITS_LENGTH : Nat := 4

/-- A list of named parts (the lists of parts, as in common/containers.hpp:235-263). -/
def mkParts : List (String × Ty) → Parts
  | [] => .nil
  | (s, t) :: ps => .cons s t (mkParts ps)

namespace Objects

/-- `eth::Slot` and its aliases (common/slot.hpp:70-76). -/
abbrev slot : Ty := .uint64
/-- `eth::Root`, `Hash32`, `Domain`, `Bytes32` (common/bytes.hpp:168,173-178). -/
abbrev root : Ty := .bytes 32
/-- `eth::Version` (common/bytes.hpp:175). -/
abbrev version : Ty := .bytes 4
/-- `eth::BLSPubkey` (common/bytes.hpp:179). -/
abbrev blsPubkey : Ty := .bytes 48
/-- `eth::BLSSignature` (common/bytes.hpp:180). -/
abbrev blsSignature : Ty := .bytes 96

/-- `eth::Fork` (common/containers.hpp:235-263). -/
def fork : Ty := .container 16 true (mkParts [("previous_version", version), ("current_version", version), ("epoch", slot)])

/-- `eth::ForkData` (common/containers.hpp:265-290). -/
def forkData : Ty := .container 36 false (mkParts [("current_version", version), ("genesis_validators_root", root)])

/-- `eth::Checkpoint` (common/containers.hpp:292-307). -/
def checkpoint : Ty := .container 40 false (mkParts [("epoch", slot), ("root", root)])

/-- `eth::SigningData` (common/containers.hpp:309-327). -/
def signingData : Ty := .container 64 false (mkParts [("object_root", root), ("domain", root)])

/-- `eth::AttestationData` (beacon-chain/attestation.hpp:33-49, beacon-chain/attestation.cpp:27-55). -/
def attestationData : Ty := .container 128 false (mkParts
  [("slot", slot), ("index", slot), ("beacon_block_root", root), ("source", checkpoint), ("target", checkpoint)])

/-- `eth::IndexedAttestation` (beacon-chain/attestation.hpp:51-63, beacon-chain/attestation.cpp:57-80). -/
def indexedAttestation (p : Preset) : Ty := .container 0 false (mkParts
  [("attesting_indices", .listF slot p.MAX_VALIDATORS_PER_COMMITTEE), ("data", attestationData), ("signature", blsSignature)])

/-- `eth::PendingAttestation` (beacon-chain/attestation.hpp:65-77, beacon-chain/attestation.cpp:82-104). -/
def pendingAttestation (p : Preset) : Ty := .container 0 false (mkParts
  [("aggregation_bits", .bitlist p.MAX_VALIDATORS_PER_COMMITTEE), ("data", attestationData), ("inclusion_delay", slot),
   ("proposer_index", slot)])

/-- `eth::Attestation` (beacon-chain/attestation.hpp:79-90, beacon-chain/attestation.cpp:106-121). -/
def attestation (p : Preset) : Ty := .container 0 false (mkParts
  [("aggregation_bits", .bitlist p.MAX_VALIDATORS_PER_COMMITTEE), ("data", attestationData), ("signature", blsSignature)])

/-- `eth::Eth1Data` (beacon-chain/eth1data.hpp:27-50). -/
def eth1Data : Ty := .container 72 false (mkParts [("deposit_root", root), ("deposit_count", slot), ("block_hash", root)])

/-- `eth::BeaconBlockHeader` (beacon-chain/beacon_block.hpp:35-69). -/
def beaconBlockHeader : Ty := .container 112 true (mkParts
  [("slot", slot), ("proposer_index", slot), ("parent_root", root), ("state_root", root), ("body_root", root)])

/-- `eth::VoluntaryExit` (beacon-chain/beacon_block.hpp:71-90). -/
def voluntaryExit : Ty := .container 16 true (mkParts [("epoch", slot), ("validator_index", slot)])

/-- `eth::SignedVoluntaryExit` (beacon-chain/beacon_block.hpp:92-110). -/
def signedVoluntaryExit : Ty := .container 112 true (mkParts [("message", voluntaryExit), ("signature", blsSignature)])

/-- `eth::SignedBeaconBlockHeader` (beacon-chain/beacon_block.hpp:232-249). -/
def signedBeaconBlockHeader : Ty := .container 208 false (mkParts [("message", beaconBlockHeader), ("signature", blsSignature)])

/-- `eth::ProposerSlashing` (beacon-chain/beacon_block.hpp:251-268). -/
def proposerSlashing : Ty := .container 416 false (mkParts
  [("signed_header_1", signedBeaconBlockHeader), ("signed_header_2", signedBeaconBlockHeader)])

/-- `eth::AttesterSlashing` (beacon-chain/beacon_block.hpp:270-285). -/
def attesterSlashing (p : Preset) : Ty := .container 0 false (mkParts
  [("attestation_1", indexedAttestation p), ("attestation_2", indexedAttestation p)])

/-- `eth::DepositMessage` (beacon-chain/deposits.hpp:32-54). -/
def depositMessage : Ty := .container 88 false (mkParts
  [("pubkey", blsPubkey), ("withdrawal_credentials", root), ("amount", slot)])

/-- `eth::DepositData` (beacon-chain/deposits.hpp:56-87). -/
def depositData : Ty := .container 184 false (mkParts
  [("pubkey", blsPubkey), ("withdrawal_credentials", root), ("amount", slot), ("signature", blsSignature)])

/-- `eth::Deposit` (beacon-chain/deposits.hpp:89-104). -/
def deposit : Ty := .container (32 * DEPOSIT_CONTRACT_TREE_DEPTH + 216) false (mkParts
  [("proof", .vector root (DEPOSIT_CONTRACT_TREE_DEPTH + 1)), ("data", depositData)])

/-- `eth::Validator` (beacon-chain/validator.hpp:30-51, beacon-chain/validator.cpp:24-68). -/
def validator : Ty := .container 121 false (mkParts
  [("pubkey", blsPubkey), ("withdrawal_credentials", root), ("effective_balance", slot), ("slashed", .boolean),
   ("activation_eligibility_epoch", slot), ("activation_epoch", slot), ("exit_epoch", slot), ("withdrawable_epoch", slot)])

/-- `eth::BeaconBlockBody` (beacon-chain/beacon_block.hpp:115-183). -/
def beaconBlockBody (p : Preset) : Ty := .container 0 false (mkParts
  [("randao_reveal", blsSignature), ("eth1_data", eth1Data), ("graffiti", root),
   ("proposer_slashings", .listF proposerSlashing p.MAX_PROPOSER_SLASHINGS),
   ("attester_slashings", .listV (attesterSlashing p) p.MAX_ATTESTER_SLASHINGS),
   ("attestations", .listV (attestation p) p.MAX_ATTESTATIONS),
   ("deposits", .listF deposit p.MAX_DEPOSITS),
   ("voluntary_exits", .listF signedVoluntaryExit p.MAX_VOLUNTARY_EXITS)])

/-- `eth::BeaconBlock` (beacon-chain/beacon_block.hpp:185-230). -/
def beaconBlock (p : Preset) : Ty := .container 0 false (mkParts
  [("slot", slot), ("proposer_index", slot), ("parent_root", root), ("state_root", root), ("body", beaconBlockBody p)])

/-- `eth::SignedBeaconBlock` (beacon-chain/beacon_block.hpp:287-302). -/
def signedBeaconBlock (p : Preset) : Ty := .container 0 false (mkParts
  [("message", beaconBlock p), ("signature", blsSignature)])

/-- `eth::BeaconState` (beacon-chain/beacon_state.hpp:30-219). -/
def beaconState (p : Preset) : Ty := .container 0 true (mkParts
  [("genesis_time", slot), ("genesis_validators_root", root), ("slot", slot), ("fork", fork),
   ("latest_block_header", beaconBlockHeader),
   ("block_roots", .vector root p.SLOTS_PER_HISTORICAL_ROOT),
   ("state_roots", .vector root p.SLOTS_PER_HISTORICAL_ROOT),
   ("historical_roots", .listF root p.HISTORICAL_ROOTS_LIMIT),
   ("eth1_data", eth1Data),
   ("eth1_data_votes", .listF eth1Data (p.EPOCHS_PER_ETH1_VOTING_PERIOD * p.SLOTS_PER_EPOCH)),
   ("eth1_deposit_index", slot),
   ("validators", .listF validator p.VALIDATOR_REGISTRY_LIMIT),
   ("balances", .listF slot p.VALIDATOR_REGISTRY_LIMIT),
   ("randao_mixes", .vector root p.EPOCHS_PER_HISTORICAL_VECTOR),
   ("slashings", .vector slot p.EPOCHS_PER_SLASHINGS_VECTOR),
   ("previous_epoch_attestations", .listV (pendingAttestation p) (p.MAX_ATTESTATIONS * p.SLOTS_PER_EPOCH)),
   ("current_epoch_attestations", .listV (pendingAttestation p) (p.MAX_ATTESTATIONS * p.SLOTS_PER_EPOCH)),
   ("justification_bits", .bitvector JUSTIFICATION_BITS_LENGTH),
   ("previous_justified_checkpoint", checkpoint), ("current_justified_checkpoint", checkpoint),
   ("finalized_checkpoint", checkpoint)])

/-- All container classes of the repository, with their names (common/containers.hpp, beacon-chain/*.hpp). -/
def all (p : Preset) : List (String × Ty) :=
  [("Fork", fork), ("ForkData", forkData), ("Checkpoint", checkpoint), ("SigningData", signingData),
   ("AttestationData", attestationData), ("IndexedAttestation", indexedAttestation p),
   ("PendingAttestation", pendingAttestation p), ("Attestation", attestation p), ("Eth1Data", eth1Data),
   ("BeaconBlockHeader", beaconBlockHeader), ("VoluntaryExit", voluntaryExit),
   ("SignedVoluntaryExit", signedVoluntaryExit), ("SignedBeaconBlockHeader", signedBeaconBlockHeader),
   ("ProposerSlashing", proposerSlashing), ("AttesterSlashing", attesterSlashing p),
   ("DepositMessage", depositMessage), ("DepositData", depositData), ("Deposit", deposit), ("Validator", validator),
   ("BeaconBlockBody", beaconBlockBody p), ("BeaconBlock", beaconBlock p), ("SignedBeaconBlock", signedBeaconBlock p),
   ("BeaconState", beaconState p)]

end Objects

end Mammon
