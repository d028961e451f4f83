import Verif.Model.Objects
/-!
# The declarations of the container classes as written

`Model/Objects.lean` keeps one list of parts per class. In the sources every class has five: the arguments of `serialize_`, `deserialize_`, `hash_tree_`,
`encode_` and `decode_`, besides the data members themselves, which a defaulted `operator==` compares. Here all of them are transcribed
(`tools/compare_classes.py` compares this file with the text of the sources), and what each operation works on is computed from its own
list.
-/

namespace Mammon.Source

/-- A constant expression in a declaration (beacon-chain/beacon_state.hpp:37-50, beacon-chain/deposits.hpp:90-93). -/
inductive CExpr
  | lit (n : Nat)
  | const (name : String)
  | add (a b : CExpr)
  | mul (a b : CExpr)
  deriving DecidableEq, Repr

/-- The type of a data member, with the argument of its initialiser (the limit of a list) (beacon-chain/beacon_state.hpp:33-52). -/
inductive CType
  /-- A class or an alias of a class. -/
  | named (name : String)
  /-- `Bitlist name{limit}` -/
  | bitlist (limit : CExpr)
  /-- `Bitvector<n>` -/
  | bitvector (n : CExpr)
  /-- `VectorFixedSizedParts<elem, n>` -/
  | vector (elem : String) (n : CExpr)
  /-- `ListFixedSizedParts<elem> name{limit}` -/
  | listFixed (elem : String) (limit : CExpr)
  /-- `ListVariableSizedParts<elem> name{limit}` -/
  | listVariable (elem : String) (limit : CExpr)
  deriving DecidableEq, Repr

/-- A class derived from `ssz::Container`: data members in the order of declaration; `ssz_size` if `get_ssz_size` is overridden to return it;
whether `operator==` is defaulted; the members handed to `serialize_`, `deserialize_`, `hash_tree_`; the pairs of key and member handed
to `encode_` and `decode_`; the accessors `T name() const { return member; }` with the members they return (for example
common/containers.hpp:235-263). -/
structure ClassDecl where
  name : String
  members : List (String × CType)
  sszSize : Option CExpr
  ownEq : Bool
  serialize : List String
  deserialize : List String
  hashTree : List String
  encode : List (String × String)
  decode : List (String × String)
  getters : List (String × String) := []
  deriving DecidableEq, Repr

/-- `eth::Fork` (common/containers.hpp:235-263). -/
def fork : ClassDecl where
  name := "Fork"
  members := [("previous_version", .named "Version"), ("current_version", .named "Version"), ("epoch", .named "Epoch")]
  sszSize := some (.lit 16)
  ownEq := true
  serialize := ["previous_version", "current_version", "epoch"]
  deserialize := ["previous_version", "current_version", "epoch"]
  hashTree := ["previous_version", "current_version", "epoch"]
  encode := [("previous_version", "previous_version"), ("current_version", "current_version"), ("epoch", "epoch")]
  decode := [("previous_version", "previous_version"), ("current_version", "current_version"), ("epoch", "epoch")]

/-- `eth::ForkData` (common/containers.hpp:265-290). -/
def forkData : ClassDecl where
  name := "ForkData"
  members := [("current_version", .named "Version"), ("genesis_validators_root", .named "Root")]
  sszSize := some (.lit 36)
  ownEq := false
  serialize := ["current_version", "genesis_validators_root"]
  deserialize := ["current_version", "genesis_validators_root"]
  hashTree := ["current_version", "genesis_validators_root"]
  encode := [("current_version", "current_version"), ("genesis_validators_root", "genesis_validators_root")]
  decode := [("current_version", "current_version"), ("genesis_validators_root", "genesis_validators_root")]

/-- `eth::Checkpoint` (common/containers.hpp:292-307). -/
def checkpoint : ClassDecl where
  name := "Checkpoint"
  members := [("epoch", .named "Epoch"), ("root", .named "Root")]
  sszSize := some (.lit 40)
  ownEq := false
  serialize := ["epoch", "root"]
  deserialize := ["epoch", "root"]
  hashTree := ["epoch", "root"]
  encode := [("epoch", "epoch"), ("root", "root")]
  decode := [("epoch", "epoch"), ("root", "root")]

/-- `eth::SigningData` (common/containers.hpp:309-327). -/
def signingData : ClassDecl where
  name := "SigningData"
  members := [("object_root", .named "Root"), ("domain", .named "Domain")]
  sszSize := some (.lit 64)
  ownEq := false
  serialize := ["object_root", "domain"]
  deserialize := ["object_root", "domain"]
  hashTree := ["object_root", "domain"]
  encode := [("object_root", "object_root"), ("domain", "domain")]
  decode := [("object_root", "object_root"), ("domain", "domain")]

/-- `eth::AttestationData` (beacon-chain/attestation.hpp:33-49, beacon-chain/attestation.cpp:27-55). -/
def attestationData : ClassDecl where
  name := "AttestationData"
  members := [("slot", .named "Slot"), ("index", .named "CommitteeIndex"), ("beacon_block_root", .named "Root"), ("source", .named "Checkpoint"),
    ("target", .named "Checkpoint")]
  sszSize := some (.lit 128)
  ownEq := false
  serialize := ["slot", "index", "beacon_block_root", "source", "target"]
  deserialize := ["slot", "index", "beacon_block_root", "source", "target"]
  hashTree := ["slot", "index", "beacon_block_root", "source", "target"]
  encode := [("slot", "slot"), ("index", "index"), ("beacon_block_root", "beacon_block_root"), ("source", "source"), ("target", "target")]
  decode := [("slot", "slot"), ("index", "index"), ("beacon_block_root", "beacon_block_root"), ("source", "source"), ("target", "target")]

/-- `eth::IndexedAttestation` (beacon-chain/attestation.hpp:51-63, beacon-chain/attestation.cpp:57-80). -/
def indexedAttestation : ClassDecl where
  name := "IndexedAttestation"
  members := [("attesting_indices", .listFixed "ValidatorIndex" (.const "MAX_VALIDATORS_PER_COMMITTEE")), ("data", .named "AttestationData"),
    ("signature", .named "BLSSignature")]
  sszSize := none
  ownEq := false
  serialize := ["attesting_indices", "data", "signature"]
  deserialize := ["attesting_indices", "data", "signature"]
  hashTree := ["attesting_indices", "data", "signature"]
  encode := [("attesting_indices", "attesting_indices"), ("data", "data"), ("signature", "signature")]
  decode := [("attesting_indices", "attesting_indices"), ("data", "data"), ("signature", "signature")]

/-- `eth::PendingAttestation` (beacon-chain/attestation.hpp:65-77, beacon-chain/attestation.cpp:82-104). -/
def pendingAttestation : ClassDecl where
  name := "PendingAttestation"
  members := [("aggregation_bits", .bitlist (.const "MAX_VALIDATORS_PER_COMMITTEE")), ("data", .named "AttestationData"),
    ("inclusion_delay", .named "Slot"), ("proposer_index", .named "ValidatorIndex")]
  sszSize := none
  ownEq := false
  serialize := ["aggregation_bits", "data", "inclusion_delay", "proposer_index"]
  deserialize := ["aggregation_bits", "data", "inclusion_delay", "proposer_index"]
  hashTree := ["aggregation_bits", "data", "inclusion_delay", "proposer_index"]
  encode := [("aggregation_bits", "aggregation_bits"), ("data", "data"), ("inclusion_delay", "inclusion_delay"), ("proposer_index", "proposer_index")]
  decode := [("aggregation_bits", "aggregation_bits"), ("data", "data"), ("inclusion_delay", "inclusion_delay"), ("proposer_index", "proposer_index")]

/-- `eth::Attestation` (beacon-chain/attestation.hpp:79-90, beacon-chain/attestation.cpp:106-121). -/
def attestation : ClassDecl where
  name := "Attestation"
  members := [("aggregation_bits", .bitlist (.const "MAX_VALIDATORS_PER_COMMITTEE")), ("data", .named "AttestationData"),
    ("signature", .named "BLSSignature")]
  sszSize := none
  ownEq := false
  serialize := ["aggregation_bits", "data", "signature"]
  deserialize := ["aggregation_bits", "data", "signature"]
  hashTree := ["aggregation_bits", "data", "signature"]
  encode := [("aggregation_bits", "aggregation_bits"), ("data", "data"), ("signature", "signature")]
  decode := [("aggregation_bits", "aggregation_bits"), ("data", "data"), ("signature", "signature")]

/-- `eth::Eth1Data` (beacon-chain/eth1data.hpp:27-50). -/
def eth1Data : ClassDecl where
  name := "Eth1Data"
  members := [("deposit_root", .named "Root"), ("deposit_count", .named "Counter"), ("block_hash", .named "Hash32")]
  sszSize := some (.lit 72)
  ownEq := false
  serialize := ["deposit_root", "deposit_count", "block_hash"]
  deserialize := ["deposit_root", "deposit_count", "block_hash"]
  hashTree := ["deposit_root", "deposit_count", "block_hash"]
  encode := [("deposit_root", "deposit_root"), ("deposit_count", "deposit_count"), ("block_hash", "block_hash")]
  decode := [("deposit_root", "deposit_root"), ("deposit_count", "deposit_count"), ("block_hash", "block_hash")]

/-- `eth::BeaconBlockHeader` (beacon-chain/beacon_block.hpp:35-69). -/
def beaconBlockHeader : ClassDecl where
  name := "BeaconBlockHeader"
  members := [("slot", .named "Slot"), ("proposer_index", .named "ValidatorIndex"), ("parent_root", .named "Root"), ("state_root", .named "Root"),
    ("body_root", .named "Root")]
  sszSize := some (.lit 112)
  ownEq := true
  serialize := ["slot", "proposer_index", "parent_root", "state_root", "body_root"]
  deserialize := ["slot", "proposer_index", "parent_root", "state_root", "body_root"]
  hashTree := ["slot", "proposer_index", "parent_root", "state_root", "body_root"]
  encode := [("slot", "slot"), ("proposer_index", "proposer_index"), ("parent_root", "parent_root"), ("state_root", "state_root"),
    ("body_root", "body_root")]
  decode := [("slot", "slot"), ("proposer_index", "proposer_index"), ("parent_root", "parent_root"), ("state_root", "state_root"),
    ("body_root", "body_root")]

/-- `eth::VoluntaryExit` (beacon-chain/beacon_block.hpp:71-90). -/
def voluntaryExit : ClassDecl where
  name := "VoluntaryExit"
  members := [("epoch", .named "Epoch"), ("validator_index", .named "ValidatorIndex")]
  sszSize := some (.lit 16)
  ownEq := true
  serialize := ["epoch", "validator_index"]
  deserialize := ["epoch", "validator_index"]
  hashTree := ["epoch", "validator_index"]
  encode := [("epoch", "epoch"), ("validator_index", "validator_index")]
  decode := [("epoch", "epoch"), ("validator_index", "validator_index")]

/-- `eth::SignedVoluntaryExit` (beacon-chain/beacon_block.hpp:92-110). -/
def signedVoluntaryExit : ClassDecl where
  name := "SignedVoluntaryExit"
  members := [("message", .named "VoluntaryExit"), ("signature", .named "BLSSignature")]
  sszSize := some (.lit 112)
  ownEq := true
  serialize := ["message", "signature"]
  deserialize := ["message", "signature"]
  hashTree := ["message", "signature"]
  encode := [("message", "message"), ("signature", "signature")]
  decode := [("message", "message"), ("signature", "signature")]

/-- `eth::BeaconBlockBody` (beacon-chain/beacon_block.hpp:115-183). -/
def beaconBlockBody : ClassDecl where
  name := "BeaconBlockBody"
  members := [("randao_reveal_", .named "BLSSignature"), ("eth1_data_", .named "Eth1Data"), ("graffiti_", .named "Bytes32"),
    ("proposer_slashings_", .listFixed "ProposerSlashing" (.const "MAX_PROPOSER_SLASHINGS")),
    ("attester_slashings_", .listVariable "AttesterSlashing" (.const "MAX_ATTESTER_SLASHINGS")),
    ("attestations_", .listVariable "Attestation" (.const "MAX_ATTESTATIONS")),
    ("deposits_", .listFixed "Deposit" (.const "MAX_DEPOSITS")),
    ("voluntary_exits_", .listFixed "SignedVoluntaryExit" (.const "MAX_VOLUNTARY_EXITS"))]
  sszSize := none
  ownEq := false
  serialize := ["randao_reveal_", "eth1_data_", "graffiti_", "proposer_slashings_", "attester_slashings_", "attestations_", "deposits_",
    "voluntary_exits_"]
  deserialize := ["randao_reveal_", "eth1_data_", "graffiti_", "proposer_slashings_", "attester_slashings_", "attestations_", "deposits_",
    "voluntary_exits_"]
  hashTree := ["randao_reveal_", "eth1_data_", "graffiti_", "proposer_slashings_", "attester_slashings_", "attestations_", "deposits_",
    "voluntary_exits_"]
  encode := [("randao_reveal", "randao_reveal_"), ("eth1_data", "eth1_data_"), ("graffiti", "graffiti_"),
    ("proposer_slashings", "proposer_slashings_"), ("attester_slashings", "attester_slashings_"), ("attestations", "attestations_"),
    ("deposits", "deposits_"), ("voluntary_exits", "voluntary_exits_")]
  decode := [("randao_reveal", "randao_reveal_"), ("eth1_data", "eth1_data_"), ("graffiti", "graffiti_"),
    ("proposer_slashings", "proposer_slashings_"), ("attester_slashings", "attester_slashings_"), ("attestations", "attestations_"),
    ("deposits", "deposits_"), ("voluntary_exits", "voluntary_exits_")]
  getters := [("randao_reveal", "randao_reveal_"), ("eth1_data", "eth1_data_"), ("graffiti", "graffiti_"),
    ("proposer_slashings", "proposer_slashings_"), ("attester_slashings", "attester_slashings_"), ("attestations", "attestations_"),
    ("deposits", "deposits_"), ("voluntary_exits", "voluntary_exits_")]

/-- `eth::BeaconBlock` (beacon-chain/beacon_block.hpp:185-230). -/
def beaconBlock : ClassDecl where
  name := "BeaconBlock"
  members := [("slot_", .named "Slot"), ("proposer_index_", .named "ValidatorIndex"), ("parent_root_", .named "Root"),
    ("state_root_", .named "Root"), ("body_", .named "BeaconBlockBody")]
  sszSize := none
  ownEq := false
  serialize := ["slot_", "proposer_index_", "parent_root_", "state_root_", "body_"]
  deserialize := ["slot_", "proposer_index_", "parent_root_", "state_root_", "body_"]
  hashTree := ["slot_", "proposer_index_", "parent_root_", "state_root_", "body_"]
  encode := [("slot", "slot_"), ("proposer_index", "proposer_index_"), ("parent_root", "parent_root_"), ("state_root", "state_root_"),
    ("body", "body_")]
  decode := [("slot", "slot_"), ("proposer_index", "proposer_index_"), ("parent_root", "parent_root_"), ("state_root", "state_root_"),
    ("body", "body_")]
  getters := [("slot", "slot_"), ("proposer_index", "proposer_index_"), ("parent_root", "parent_root_"), ("state_root", "state_root_"),
    ("body", "body_")]

/-- `eth::SignedBeaconBlockHeader` (beacon-chain/beacon_block.hpp:232-249). -/
def signedBeaconBlockHeader : ClassDecl where
  name := "SignedBeaconBlockHeader"
  members := [("message", .named "BeaconBlockHeader"), ("signature", .named "BLSSignature")]
  sszSize := some (.lit 208)
  ownEq := false
  serialize := ["message", "signature"]
  deserialize := ["message", "signature"]
  hashTree := ["message", "signature"]
  encode := [("message", "message"), ("signature", "signature")]
  decode := [("message", "message"), ("signature", "signature")]

/-- `eth::ProposerSlashing` (beacon-chain/beacon_block.hpp:251-268). -/
def proposerSlashing : ClassDecl where
  name := "ProposerSlashing"
  members := [("signed_header_1", .named "SignedBeaconBlockHeader"), ("signed_header_2", .named "SignedBeaconBlockHeader")]
  sszSize := some (.lit 416)
  ownEq := false
  serialize := ["signed_header_1", "signed_header_2"]
  deserialize := ["signed_header_1", "signed_header_2"]
  hashTree := ["signed_header_1", "signed_header_2"]
  encode := [("signed_header_1", "signed_header_1"), ("signed_header_2", "signed_header_2")]
  decode := [("signed_header_1", "signed_header_1"), ("signed_header_2", "signed_header_2")]

/-- `eth::AttesterSlashing` (beacon-chain/beacon_block.hpp:270-285). -/
def attesterSlashing : ClassDecl where
  name := "AttesterSlashing"
  members := [("attestation_1", .named "IndexedAttestation"), ("attestation_2", .named "IndexedAttestation")]
  sszSize := none
  ownEq := false
  serialize := ["attestation_1", "attestation_2"]
  deserialize := ["attestation_1", "attestation_2"]
  hashTree := ["attestation_1", "attestation_2"]
  encode := [("attestation_1", "attestation_1"), ("attestation_2", "attestation_2")]
  decode := [("attestation_1", "attestation_1"), ("attestation_2", "attestation_2")]

/-- `eth::SignedBeaconBlock` (beacon-chain/beacon_block.hpp:287-302). -/
def signedBeaconBlock : ClassDecl where
  name := "SignedBeaconBlock"
  members := [("message", .named "BeaconBlock"), ("signature", .named "BLSSignature")]
  sszSize := none
  ownEq := false
  serialize := ["message", "signature"]
  deserialize := ["message", "signature"]
  hashTree := ["message", "signature"]
  encode := [("message", "message"), ("signature", "signature")]
  decode := [("message", "message"), ("signature", "signature")]

/-- `eth::DepositMessage` (beacon-chain/deposits.hpp:32-54). -/
def depositMessage : ClassDecl where
  name := "DepositMessage"
  members := [("pubkey", .named "BLSPubkey"), ("withdrawal_credentials", .named "Bytes32"), ("amount", .named "Gwei")]
  sszSize := some (.lit 88)
  ownEq := false
  serialize := ["pubkey", "withdrawal_credentials", "amount"]
  deserialize := ["pubkey", "withdrawal_credentials", "amount"]
  hashTree := ["pubkey", "withdrawal_credentials", "amount"]
  encode := [("pubkey", "pubkey"), ("withdrawal_credentials", "withdrawal_credentials"), ("amount", "amount")]
  decode := [("pubkey", "pubkey"), ("withdrawal_credentials", "withdrawal_credentials"), ("amount", "amount")]

/-- `eth::DepositData` (beacon-chain/deposits.hpp:56-87). -/
def depositData : ClassDecl where
  name := "DepositData"
  members := [("pubkey", .named "BLSPubkey"), ("withdrawal_credentials", .named "Bytes32"), ("amount", .named "Gwei"),
    ("signature", .named "BLSSignature")]
  sszSize := some (.lit 184)
  ownEq := false
  serialize := ["pubkey", "withdrawal_credentials", "amount", "signature"]
  deserialize := ["pubkey", "withdrawal_credentials", "amount", "signature"]
  hashTree := ["pubkey", "withdrawal_credentials", "amount", "signature"]
  encode := [("pubkey", "pubkey"), ("withdrawal_credentials", "withdrawal_credentials"), ("amount", "amount"), ("signature", "signature")]
  decode := [("pubkey", "pubkey"), ("withdrawal_credentials", "withdrawal_credentials"), ("amount", "amount"), ("signature", "signature")]

/-- `eth::Deposit` (beacon-chain/deposits.hpp:89-104). -/
def deposit : ClassDecl where
  name := "Deposit"
  members := [("proof", .vector "Bytes32" (.add (.const "DEPOSIT_CONTRACT_TREE_DEPTH") (.lit 1))), ("data", .named "DepositData")]
  sszSize := some (.add (.mul (.lit 32) (.const "DEPOSIT_CONTRACT_TREE_DEPTH")) (.lit 216))
  ownEq := false
  serialize := ["proof", "data"]
  deserialize := ["proof", "data"]
  hashTree := ["proof", "data"]
  encode := [("proof", "proof"), ("data", "data")]
  decode := [("proof", "proof"), ("data", "data")]

/-- `eth::Validator` (beacon-chain/validator.hpp:30-51, beacon-chain/validator.cpp:24-68). -/
def validator : ClassDecl where
  name := "Validator"
  members := [("pubkey", .named "BLSPubkey"), ("withdrawal_credentials", .named "Bytes32"), ("effective_balance", .named "Gwei"),
    ("slashed", .named "Boolean"), ("activation_eligibility_epoch", .named "Epoch"), ("activation_epoch", .named "Epoch"),
    ("exit_epoch", .named "Epoch"), ("withdrawable_epoch", .named "Epoch")]
  sszSize := some (.lit 121)
  ownEq := false
  serialize := ["pubkey", "withdrawal_credentials", "effective_balance", "slashed", "activation_eligibility_epoch", "activation_epoch", "exit_epoch",
    "withdrawable_epoch"]
  deserialize := ["pubkey", "withdrawal_credentials", "effective_balance", "slashed", "activation_eligibility_epoch", "activation_epoch", "exit_epoch",
    "withdrawable_epoch"]
  hashTree := ["pubkey", "withdrawal_credentials", "effective_balance", "slashed", "activation_eligibility_epoch", "activation_epoch", "exit_epoch",
    "withdrawable_epoch"]
  encode := [("pubkey", "pubkey"), ("withdrawal_credentials", "withdrawal_credentials"), ("effective_balance", "effective_balance"),
    ("slashed", "slashed"), ("activation_eligibility_epoch", "activation_eligibility_epoch"), ("activation_epoch", "activation_epoch"),
    ("exit_epoch", "exit_epoch"), ("withdrawable_epoch", "withdrawable_epoch")]
  decode := [("pubkey", "pubkey"), ("withdrawal_credentials", "withdrawal_credentials"), ("effective_balance", "effective_balance"),
    ("slashed", "slashed"), ("activation_eligibility_epoch", "activation_eligibility_epoch"), ("activation_epoch", "activation_epoch"),
    ("exit_epoch", "exit_epoch"), ("withdrawable_epoch", "withdrawable_epoch")]

/-- `eth::BeaconState` (beacon-chain/beacon_state.hpp:30-219). -/
def beaconState : ClassDecl where
  name := "BeaconState"
  members := [("genesis_time_", .named "UnixTime"), ("genesis_validators_root_", .named "Root"), ("slot_", .named "Slot"), ("fork_", .named "Fork"),
    ("latest_block_header_", .named "BeaconBlockHeader"), ("block_roots_", .vector "Root" (.const "SLOTS_PER_HISTORICAL_ROOT")),
    ("state_roots_", .vector "Root" (.const "SLOTS_PER_HISTORICAL_ROOT")),
    ("historical_roots_", .listFixed "Root" (.const "HISTORICAL_ROOTS_LIMIT")), ("eth1_data_", .named "Eth1Data"),
    ("eth1_data_votes_", .listFixed "Eth1Data" (.mul (.const "EPOCHS_PER_ETH1_VOTING_PERIOD") (.const "SLOTS_PER_EPOCH"))),
    ("eth1_deposit_index_", .named "DepositIndex"), ("validators_", .listFixed "Validator" (.const "VALIDATOR_REGISTRY_LIMIT")),
    ("balances_", .listFixed "Gwei" (.const "VALIDATOR_REGISTRY_LIMIT")),
    ("randao_mixes_", .vector "Bytes32" (.const "EPOCHS_PER_HISTORICAL_VECTOR")),
    ("slashings_", .vector "Gwei" (.const "EPOCHS_PER_SLASHINGS_VECTOR")),
    ("previous_epoch_attestations_", .listVariable "PendingAttestation" (.mul (.const "MAX_ATTESTATIONS") (.const "SLOTS_PER_EPOCH"))),
    ("current_epoch_attestations_", .listVariable "PendingAttestation" (.mul (.const "MAX_ATTESTATIONS") (.const "SLOTS_PER_EPOCH"))),
    ("justification_bits_", .bitvector (.const "JUSTIFICATION_BITS_LENGTH")), ("previous_justified_checkpoint_", .named "Checkpoint"),
    ("current_justified_checkpoint_", .named "Checkpoint"), ("finalized_checkpoint_", .named "Checkpoint")]
  sszSize := none
  ownEq := true
  serialize := ["genesis_time_", "genesis_validators_root_", "slot_", "fork_", "latest_block_header_", "block_roots_", "state_roots_",
    "historical_roots_", "eth1_data_", "eth1_data_votes_", "eth1_deposit_index_", "validators_", "balances_", "randao_mixes_",
    "slashings_", "previous_epoch_attestations_", "current_epoch_attestations_", "justification_bits_", "previous_justified_checkpoint_",
    "current_justified_checkpoint_", "finalized_checkpoint_"]
  deserialize := ["genesis_time_", "genesis_validators_root_", "slot_", "fork_", "latest_block_header_", "block_roots_", "state_roots_",
    "historical_roots_", "eth1_data_", "eth1_data_votes_", "eth1_deposit_index_", "validators_", "balances_", "randao_mixes_",
    "slashings_", "previous_epoch_attestations_", "current_epoch_attestations_", "justification_bits_", "previous_justified_checkpoint_",
    "current_justified_checkpoint_", "finalized_checkpoint_"]
  hashTree := ["genesis_time_", "genesis_validators_root_", "slot_", "fork_", "latest_block_header_", "block_roots_", "state_roots_",
    "historical_roots_", "eth1_data_", "eth1_data_votes_", "eth1_deposit_index_", "validators_", "balances_", "randao_mixes_",
    "slashings_", "previous_epoch_attestations_", "current_epoch_attestations_", "justification_bits_", "previous_justified_checkpoint_",
    "current_justified_checkpoint_", "finalized_checkpoint_"]
  encode := [("genesis_time", "genesis_time_"), ("genesis_validators_root", "genesis_validators_root_"), ("slot", "slot_"), ("fork", "fork_"),
    ("latest_block_header", "latest_block_header_"), ("block_roots", "block_roots_"), ("state_roots", "state_roots_"),
    ("historical_roots", "historical_roots_"), ("eth1_data", "eth1_data_"), ("eth1_data_votes", "eth1_data_votes_"),
    ("eth1_deposit_index", "eth1_deposit_index_"), ("validators", "validators_"), ("balances", "balances_"),
    ("randao_mixes", "randao_mixes_"), ("slashings", "slashings_"), ("previous_epoch_attestations", "previous_epoch_attestations_"),
    ("current_epoch_attestations", "current_epoch_attestations_"), ("justification_bits", "justification_bits_"),
    ("previous_justified_checkpoint", "previous_justified_checkpoint_"), ("current_justified_checkpoint", "current_justified_checkpoint_"),
    ("finalized_checkpoint", "finalized_checkpoint_")]
  decode := [("genesis_time", "genesis_time_"), ("genesis_validators_root", "genesis_validators_root_"), ("slot", "slot_"), ("fork", "fork_"),
    ("latest_block_header", "latest_block_header_"), ("block_roots", "block_roots_"), ("state_roots", "state_roots_"),
    ("historical_roots", "historical_roots_"), ("eth1_data", "eth1_data_"), ("eth1_data_votes", "eth1_data_votes_"),
    ("eth1_deposit_index", "eth1_deposit_index_"), ("validators", "validators_"), ("balances", "balances_"),
    ("randao_mixes", "randao_mixes_"), ("slashings", "slashings_"), ("previous_epoch_attestations", "previous_epoch_attestations_"),
    ("current_epoch_attestations", "current_epoch_attestations_"), ("justification_bits", "justification_bits_"),
    ("previous_justified_checkpoint", "previous_justified_checkpoint_"), ("current_justified_checkpoint", "current_justified_checkpoint_"),
    ("finalized_checkpoint", "finalized_checkpoint_")]
  getters := [("genesis_time", "genesis_time_"), ("genesis_validators_root", "genesis_validators_root_"), ("slot", "slot_"), ("fork", "fork_"),
    ("latest_block_header", "latest_block_header_"), ("block_roots", "block_roots_"), ("state_roots", "state_roots_"),
    ("historical_roots", "historical_roots_"), ("eth1_data", "eth1_data_"), ("eth1_data_votes", "eth1_data_votes_"),
    ("eth1_deposit_index", "eth1_deposit_index_"), ("validators", "validators_"), ("balances", "balances_"), ("slashings", "slashings_"),
    ("randao_mixes", "randao_mixes_"), ("previous_epoch_attestations", "previous_epoch_attestations_"),
    ("current_epoch_attestations", "current_epoch_attestations_"), ("justification_bits", "justification_bits_"),
    ("previous_justified_checkpoint", "previous_justified_checkpoint_"), ("current_justified_checkpoint", "current_justified_checkpoint_"),
    ("finalized_checkpoint", "finalized_checkpoint_")]

/-- The container classes, in the order of the headers (common/containers.hpp:235-327, beacon-chain/*.hpp). -/
def all : List ClassDecl :=
  [fork, forkData, checkpoint, signingData, attestationData, indexedAttestation, pendingAttestation, attestation, eth1Data,
   beaconBlockHeader, voluntaryExit, signedVoluntaryExit, beaconBlockBody, beaconBlock, signedBeaconBlockHeader, proposerSlashing,
   attesterSlashing, signedBeaconBlock, depositMessage, depositData, deposit, validator, beaconState]

/-- The value of a constant (config/constants.hpp:31-32, config/mainnet.hpp.in:63-89, config/minimal.hpp.in:64-90). -/
def constant (p : Preset) (name : String) : Option Nat :=
  (([("DEPOSIT_CONTRACT_TREE_DEPTH", DEPOSIT_CONTRACT_TREE_DEPTH), ("JUSTIFICATION_BITS_LENGTH", JUSTIFICATION_BITS_LENGTH),
    ("MAX_VALIDATORS_PER_COMMITTEE", p.MAX_VALIDATORS_PER_COMMITTEE), ("SLOTS_PER_EPOCH", p.SLOTS_PER_EPOCH),
    ("EPOCHS_PER_ETH1_VOTING_PERIOD", p.EPOCHS_PER_ETH1_VOTING_PERIOD), ("SLOTS_PER_HISTORICAL_ROOT", p.SLOTS_PER_HISTORICAL_ROOT),
    ("EPOCHS_PER_HISTORICAL_VECTOR", p.EPOCHS_PER_HISTORICAL_VECTOR), ("EPOCHS_PER_SLASHINGS_VECTOR", p.EPOCHS_PER_SLASHINGS_VECTOR),
    ("HISTORICAL_ROOTS_LIMIT", p.HISTORICAL_ROOTS_LIMIT), ("VALIDATOR_REGISTRY_LIMIT", p.VALIDATOR_REGISTRY_LIMIT),
    ("MAX_PROPOSER_SLASHINGS", p.MAX_PROPOSER_SLASHINGS), ("MAX_ATTESTER_SLASHINGS", p.MAX_ATTESTER_SLASHINGS),
    ("MAX_ATTESTATIONS", p.MAX_ATTESTATIONS), ("MAX_DEPOSITS", p.MAX_DEPOSITS),
    ("MAX_VOLUNTARY_EXITS", p.MAX_VOLUNTARY_EXITS)] : List (String × Nat)).find? fun x => x.1 == name).map (·.2)

/-- The value of a constant expression: the arithmetic is in `unsigned int`, `unsigned long` or `unsigned long long`; no value of the two presets
comes
near the bound of its type (beacon-chain/beacon_state.hpp:37-50, beacon-chain/deposits.hpp:90-93). -/
def CExpr.eval (p : Preset) : CExpr → Option Nat
  | .lit n => some n
  | .const name => constant p name
  | .add a b => (a.eval p).bind fun x => (b.eval p).map fun y => x + y
  | .mul a b => (a.eval p).bind fun x => (b.eval p).map fun y => x * y

/-- The names of basic types (common/slot.hpp:32,70-76, common/boolean.hpp:32, common/bytes.hpp:164-181). -/
def aliases : List (String × Ty) :=
  [("Slot", .uint64), ("Epoch", .uint64), ("Counter", .uint64), ("UnixTime", .uint64), ("CommitteeIndex", .uint64),
   ("ValidatorIndex", .uint64), ("DepositIndex", .uint64), ("Gwei", .uint64), ("Boolean", .boolean),
   ("Bytes1", .bytes 1), ("Bytes4", .bytes 4), ("Bytes8", .bytes 8), ("Bytes20", .bytes 20), ("Bytes32", .bytes 32),
   ("Bytes48", .bytes 48), ("Bytes96", .bytes 96), ("Hash32", .bytes 32), ("Root", .bytes 32), ("Version", .bytes 4),
   ("DomainType", .bytes 4), ("ForkDigest", .bytes 4), ("Domain", .bytes 32), ("BLSPubkey", .bytes 48),
   ("BLSSignature", .bytes 96), ("Eth1Address", .bytes 20)]

/-- The operations of a class that go through its members (ssz/ssz_container.hpp:38-42,61). -/
inductive Op
  | serialize | deserialize | hashTree | encode | decode | equality
  deriving DecidableEq, Repr

/-- The name of a member outside the class: the key `encode_` gives it (ssz/ssz_container.hpp:32-33,40). -/
def ClassDecl.publicName (c : ClassDecl) (member : String) : String := ((c.encode.find? fun x => x.2 == member).map (·.1)).getD ""

/-- The members the operation works on, in order, with their keys (only `encode_` and `decode_` use the keys; for the other operations they
are the public names of the members) (ssz/ssz_container.hpp:38-42,61). -/
def ClassDecl.view (c : ClassDecl) : Op → List (String × String)
  | .serialize => c.serialize.map fun m => (c.publicName m, m)
  | .deserialize => c.deserialize.map fun m => (c.publicName m, m)
  | .hashTree => c.hashTree.map fun m => (c.publicName m, m)
  | .encode => c.encode
  | .decode => c.decode
  | .equality => c.members.map fun m => (c.publicName m.1, m.1)

/-- The parts with the given keys and members of `c`, the types of the members being given (ssz/ssz_container.hpp:38-42). -/
def partsOf (c : ClassDecl) (tyOf : CType → Option Ty) : List (String × String) → Option Parts
  | [] => some .nil
  | (key, m) :: l =>
    ((c.members.find? fun x => x.1 == m).bind fun x => tyOf x.2).bind fun t => (partsOf c tyOf l).map fun ps => .cons key t ps

/-- The type a name denotes, as seen by the operation `op`, which is called for the parts of the parts as well; `cs` are the classes, `names` the
names of basic types, `value` gives the values of constant expressions. The number bounds the depth of nesting
(ssz/ssz_container.cpp:58,84,94,104,121,129,134). -/
def resolve (cs : List ClassDecl) (names : List (String × Ty)) (value : CExpr → Option Nat) (op : Op) : Nat → String → Option Ty
  | 0, _ => none
  | k + 1, name =>
    ((names.find? fun x => x.1 == name).map (·.2)).or
      ((cs.find? fun c => c.name == name).bind fun c =>
        ((c.sszSize.map value).getD (some 0)).bind fun size =>
          (partsOf c (fun
            | .named n => resolve cs names value op k n
            | .bitlist limit => (value limit).map .bitlist
            | .bitvector n => (value n).map .bitvector
            | .vector elem n => (resolve cs names value op k elem).bind fun t => (value n).map (.vector t)
            | .listFixed elem limit => (resolve cs names value op k elem).bind fun t => (value limit).map (.listF t)
            | .listVariable elem limit => (resolve cs names value op k elem).bind fun t => (value limit).map (.listV t)) (c.view op)).map
            (.container size c.ownEq))

/-- The class of the given name as seen by an operation. Nesting is at most seven deep (common/containers.hpp:235-327, beacon-chain/*.hpp). -/
def classOf (op : Op) (p : Preset) (name : String) : Option Ty := resolve all aliases (·.eval p) op 8 name

/-- The names of the parts of a container (ssz/ssz_container.hpp:32-33). -/
def partNames : Parts → List String
  | .nil => []
  | .cons n _ ps => n :: partNames ps

/-- The data member number `i` of an object (beacon-chain/beacon_state.hpp:33-52). -/
def nthPart : (ps : Parts) → Nat → ps.denote → Option ((t : Ty) × t.denote)
  | .nil, _, _ => none
  | .cons _ t _, 0, v => some ⟨t, v.1⟩
  | .cons _ _ ps, i + 1, v => nthPart ps i v.2

/-- A call of an accessor (beacon-chain/beacon_block.hpp:128-135, beacon-chain/beacon_block.hpp:192-196, beacon-chain/beacon_state.hpp:54-74):
the data member in its `return` statement, found among the members by its place in the order of declaration. `none` if the class has no such
accessor or the accessor names no member. -/
def ClassDecl.get (c : ClassDecl) (name : String) : (x : (t : Ty) × t.denote) → Option ((t : Ty) × t.denote)
  | ⟨.container _ _ ps, v⟩ =>
    (c.getters.find? fun g => g.1 == name).bind fun g => (c.members.findIdx? fun m => m.1 == g.2).bind fun i => nthPart ps i v
  | _ => none

end Mammon.Source
