/-!
# Phase 0 containers

Transcribed from the Ethereum consensus specification, phase 0 (`specs/phase0/beacon-chain.md`, sections "Custom types", "Preset" and
"Containers"), independently of the model: sizes are not declared but follow from the structure.
-/

namespace Mammon.Spec

/-- SSZ type expressions. -/
inductive Schema : Type
  | uint64
  | boolean
  | byteVector (n : Nat)
  | bitvector (n : Nat)
  | bitlist (limit : Nat)
  | vector (t : Schema) (n : Nat)
  | list (t : Schema) (limit : Nat)
  | nilC
  | fieldC (name : String) (t : Schema) (rest : Schema)
  deriving DecidableEq

namespace Schema

/-- The `i`-th entry of the list of fields as container. -/
def fields : List (String × Schema) → Schema
  | [] => .nilC
  | (s, t) :: fs => .fieldC s t (fields fs)

/-! ## Custom types -/
abbrev Slot := uint64
abbrev Epoch := uint64
abbrev CommitteeIndex := uint64
abbrev ValidatorIndex := uint64
abbrev Gwei := uint64
abbrev Root := byteVector 32
abbrev Hash32 := byteVector 32
abbrev Bytes32 := byteVector 32
abbrev Version := byteVector 4
abbrev Domain := byteVector 32
abbrev BLSPubkey := byteVector 48
abbrev BLSSignature := byteVector 96

/-! ## Presets (`presets/mainnet/phase0.yaml`, `presets/minimal/phase0.yaml`) -/

/-- The values that differ between the presets. -/
structure Preset where
  slotsPerEpoch : Nat
  epochsPerEth1VotingPeriod : Nat
  slotsPerHistoricalRoot : Nat
  epochsPerHistoricalVector : Nat
  epochsPerSlashingsVector : Nat

def mainnet : Preset := ⟨2 ^ 5, 2 ^ 6, 2 ^ 13, 2 ^ 16, 2 ^ 13⟩
def minimal : Preset := ⟨8, 4, 64, 64, 64⟩

/-! The values equal in both presets -/
abbrev MAX_VALIDATORS_PER_COMMITTEE := 2 ^ 11
abbrev HISTORICAL_ROOTS_LIMIT := 2 ^ 24
abbrev VALIDATOR_REGISTRY_LIMIT := 2 ^ 40
abbrev MAX_PROPOSER_SLASHINGS := 2 ^ 4
abbrev MAX_ATTESTER_SLASHINGS := 2 ^ 1
abbrev MAX_ATTESTATIONS := 2 ^ 7
abbrev MAX_DEPOSITS := 2 ^ 4
abbrev MAX_VOLUNTARY_EXITS := 2 ^ 4
abbrev DEPOSIT_CONTRACT_TREE_DEPTH := 2 ^ 5
abbrev JUSTIFICATION_BITS_LENGTH := 4

/-! ## Containers -/

def Fork := fields [("previous_version", Version), ("current_version", Version), ("epoch", Epoch)]

def ForkData := fields [("current_version", Version), ("genesis_validators_root", Root)]

def Checkpoint := fields [("epoch", Epoch), ("root", Root)]

def Validator := fields [("pubkey", BLSPubkey), ("withdrawal_credentials", Bytes32), ("effective_balance", Gwei), ("slashed", boolean),
  ("activation_eligibility_epoch", Epoch), ("activation_epoch", Epoch), ("exit_epoch", Epoch), ("withdrawable_epoch", Epoch)]

def AttestationData := fields [("slot", Slot), ("index", CommitteeIndex), ("beacon_block_root", Root), ("source", Checkpoint),
  ("target", Checkpoint)]

def IndexedAttestation := fields [("attesting_indices", list ValidatorIndex MAX_VALIDATORS_PER_COMMITTEE), ("data", AttestationData),
  ("signature", BLSSignature)]

def PendingAttestation := fields [("aggregation_bits", bitlist MAX_VALIDATORS_PER_COMMITTEE), ("data", AttestationData),
  ("inclusion_delay", Slot), ("proposer_index", ValidatorIndex)]

def Eth1Data := fields [("deposit_root", Root), ("deposit_count", uint64), ("block_hash", Hash32)]

def DepositMessage := fields [("pubkey", BLSPubkey), ("withdrawal_credentials", Bytes32), ("amount", Gwei)]

def DepositData := fields [("pubkey", BLSPubkey), ("withdrawal_credentials", Bytes32), ("amount", Gwei), ("signature", BLSSignature)]

def BeaconBlockHeader := fields [("slot", Slot), ("proposer_index", ValidatorIndex), ("parent_root", Root), ("state_root", Root),
  ("body_root", Root)]

def SigningData := fields [("object_root", Root), ("domain", Domain)]

def SignedBeaconBlockHeader := fields [("message", BeaconBlockHeader), ("signature", BLSSignature)]

def ProposerSlashing := fields [("signed_header_1", SignedBeaconBlockHeader), ("signed_header_2", SignedBeaconBlockHeader)]

def AttesterSlashing := fields [("attestation_1", IndexedAttestation), ("attestation_2", IndexedAttestation)]

def Attestation := fields [("aggregation_bits", bitlist MAX_VALIDATORS_PER_COMMITTEE), ("data", AttestationData), ("signature", BLSSignature)]

def Deposit := fields [("proof", vector Bytes32 (DEPOSIT_CONTRACT_TREE_DEPTH + 1)), ("data", DepositData)]

def VoluntaryExit := fields [("epoch", Epoch), ("validator_index", ValidatorIndex)]

def SignedVoluntaryExit := fields [("message", VoluntaryExit), ("signature", BLSSignature)]

def BeaconBlockBody := fields [("randao_reveal", BLSSignature), ("eth1_data", Eth1Data), ("graffiti", Bytes32),
  ("proposer_slashings", list ProposerSlashing MAX_PROPOSER_SLASHINGS), ("attester_slashings", list AttesterSlashing MAX_ATTESTER_SLASHINGS),
  ("attestations", list Attestation MAX_ATTESTATIONS), ("deposits", list Deposit MAX_DEPOSITS),
  ("voluntary_exits", list SignedVoluntaryExit MAX_VOLUNTARY_EXITS)]

def BeaconBlock := fields [("slot", Slot), ("proposer_index", ValidatorIndex), ("parent_root", Root), ("state_root", Root),
  ("body", BeaconBlockBody)]

def SignedBeaconBlock := fields [("message", BeaconBlock), ("signature", BLSSignature)]

def BeaconState (p : Preset) := fields [
  -- Versioning
  ("genesis_time", uint64), ("genesis_validators_root", Root), ("slot", Slot), ("fork", Fork),
  -- History
  ("latest_block_header", BeaconBlockHeader), ("block_roots", vector Root p.slotsPerHistoricalRoot),
  ("state_roots", vector Root p.slotsPerHistoricalRoot), ("historical_roots", list Root HISTORICAL_ROOTS_LIMIT),
  -- Eth1
  ("eth1_data", Eth1Data), ("eth1_data_votes", list Eth1Data (p.epochsPerEth1VotingPeriod * p.slotsPerEpoch)), ("eth1_deposit_index", uint64),
  -- Registry
  ("validators", list Validator VALIDATOR_REGISTRY_LIMIT), ("balances", list Gwei VALIDATOR_REGISTRY_LIMIT),
  -- Randomness
  ("randao_mixes", vector Bytes32 p.epochsPerHistoricalVector),
  -- Slashings
  ("slashings", vector Gwei p.epochsPerSlashingsVector),
  -- Attestations
  ("previous_epoch_attestations", list PendingAttestation (MAX_ATTESTATIONS * p.slotsPerEpoch)),
  ("current_epoch_attestations", list PendingAttestation (MAX_ATTESTATIONS * p.slotsPerEpoch)),
  -- Finality
  ("justification_bits", bitvector JUSTIFICATION_BITS_LENGTH), ("previous_justified_checkpoint", Checkpoint),
  ("current_justified_checkpoint", Checkpoint), ("finalized_checkpoint", Checkpoint)]

/-- The containers of the specification by name. -/
def containers (p : Preset) : List (String × Schema) :=
  [("Fork", Fork), ("ForkData", ForkData), ("Checkpoint", Checkpoint), ("SigningData", SigningData), ("AttestationData", AttestationData),
   ("IndexedAttestation", IndexedAttestation), ("PendingAttestation", PendingAttestation), ("Attestation", Attestation),
   ("Eth1Data", Eth1Data), ("BeaconBlockHeader", BeaconBlockHeader), ("VoluntaryExit", VoluntaryExit),
   ("SignedVoluntaryExit", SignedVoluntaryExit), ("SignedBeaconBlockHeader", SignedBeaconBlockHeader),
   ("ProposerSlashing", ProposerSlashing), ("AttesterSlashing", AttesterSlashing), ("DepositMessage", DepositMessage),
   ("DepositData", DepositData), ("Deposit", Deposit), ("Validator", Validator), ("BeaconBlockBody", BeaconBlockBody),
   ("BeaconBlock", BeaconBlock), ("SignedBeaconBlock", SignedBeaconBlock), ("BeaconState", BeaconState p)]

end Schema

end Mammon.Spec
