import Verif.Spec.Hex
/-!
# The constants of the consensus specifications, phase 0

Written down from the tables of the specifications (`specs/phase0/beacon-chain.md`, `ssz/simple-serialize.md`) and the files
`presets/{mainnet,minimal}/phase0.yaml`, `configs/{mainnet,minimal}.yaml`. Numbers that the tables give as powers are written as powers. A value of a
byte type is written `0x...` there and denotes the bytes in the order of its digits.
-/

namespace Mammon.Spec.Config

/-- The value of a constant: a number, or the hexadecimal digits of a byte string. -/
inductive Value
  | number (n : Nat)
  | digits (s : String)

/-- The bytes denoted by hexadecimal digits, the first two digits being the first byte. -/
def bytesOf (s : String) : List Nat := pairDigits (s.toList.filterMap fun c => hexDigit c.toNat)

/-- A row of the tables: the name, the value for mainnet and the value for the minimal configuration. -/
structure Row where
  name : String
  mainnet : Value
  minimal : Value

/-- A number that is the same in both configurations. -/
def same (name : String) (n : Nat) : Row := ⟨name, .number n, .number n⟩

/-- Two numbers. -/
def two (name : String) (m n : Nat) : Row := ⟨name, .number m, .number n⟩

/-- The value of a row in one of the configurations. -/
def Row.value (r : Row) (minimal : Bool) : Value := if minimal then r.minimal else r.mainnet

/-- `specs/phase0/beacon-chain.md`, sections "Constants": "Misc". -/
def misc : List Row :=
  [same "GENESIS_SLOT" 0,
   same "GENESIS_EPOCH" 0,
   same "FAR_FUTURE_EPOCH" (2 ^ 64 - 1),
   same "BASE_REWARDS_PER_EPOCH" 4,
   same "DEPOSIT_CONTRACT_TREE_DEPTH" (2 ^ 5),
   same "JUSTIFICATION_BITS_LENGTH" 4]

/-- `presets/{mainnet,minimal}/phase0.yaml`. -/
def presets : List Row :=
  [two "MAX_COMMITTEES_PER_SLOT" (2 ^ 6) 4,
   two "TARGET_COMMITTEE_SIZE" (2 ^ 7) 4,
   same "MAX_VALIDATORS_PER_COMMITTEE" (2 ^ 11),
   two "SHUFFLE_ROUND_COUNT" 90 10,
   same "HYSTERESIS_QUOTIENT" 4,
   same "HYSTERESIS_DOWNWARD_MULTIPLIER" 1,
   same "HYSTERESIS_UPWARD_MULTIPLIER" 5,
   two "SAFE_SLOTS_TO_UPDATE_JUSTIFIED" (2 ^ 3) 2,
   same "MIN_DEPOSIT_AMOUNT" (2 ^ 0 * 10 ^ 9),
   same "MAX_EFFECTIVE_BALANCE" (2 ^ 5 * 10 ^ 9),
   same "EFFECTIVE_BALANCE_INCREMENT" (2 ^ 0 * 10 ^ 9),
   same "MIN_ATTESTATION_INCLUSION_DELAY" (2 ^ 0),
   two "SLOTS_PER_EPOCH" (2 ^ 5) 8,
   same "MIN_SEED_LOOKAHEAD" (2 ^ 0),
   same "MAX_SEED_LOOKAHEAD" (2 ^ 2),
   two "EPOCHS_PER_ETH1_VOTING_PERIOD" (2 ^ 6) 4,
   two "SLOTS_PER_HISTORICAL_ROOT" (2 ^ 13) 64,
   same "MIN_EPOCHS_TO_INACTIVITY_PENALTY" (2 ^ 2),
   two "EPOCHS_PER_HISTORICAL_VECTOR" (2 ^ 16) 64,
   two "EPOCHS_PER_SLASHINGS_VECTOR" (2 ^ 13) 64,
   same "HISTORICAL_ROOTS_LIMIT" (2 ^ 24),
   same "VALIDATOR_REGISTRY_LIMIT" (2 ^ 40),
   same "BASE_REWARD_FACTOR" (2 ^ 6),
   same "WHISTLEBLOWER_REWARD_QUOTIENT" (2 ^ 9),
   same "PROPOSER_REWARD_QUOTIENT" (2 ^ 3),
   two "INACTIVITY_PENALTY_QUOTIENT" (2 ^ 26) (2 ^ 25),
   two "MIN_SLASHING_PENALTY_QUOTIENT" (2 ^ 7) (2 ^ 6),
   two "PROPORTIONAL_SLASHING_MULTIPLIER" 1 2,
   same "MAX_PROPOSER_SLASHINGS" (2 ^ 4),
   same "MAX_ATTESTER_SLASHINGS" (2 ^ 1),
   same "MAX_ATTESTATIONS" (2 ^ 7),
   same "MAX_DEPOSITS" (2 ^ 4),
   same "MAX_VOLUNTARY_EXITS" (2 ^ 4)]

/-- `configs/{mainnet,minimal}.yaml`: genesis, time parameters, validator cycle, deposit contract. -/
def configs : List Row :=
  [two "MIN_GENESIS_ACTIVE_VALIDATOR_COUNT" (2 ^ 14) 64,
   two "MIN_GENESIS_TIME" 1606824000 1578009600,
   ⟨"GENESIS_FORK_VERSION", .digits "00000000", .digits "00000001"⟩,
   two "GENESIS_DELAY" (7 * 24 * 60 * 60) (5 * 60),
   two "SECONDS_PER_SLOT" 12 6,
   same "SECONDS_PER_ETH1_BLOCK" 14,
   same "MIN_VALIDATOR_WITHDRAWABILITY_DELAY" (2 ^ 8),
   two "SHARD_COMMITTEE_PERIOD" (2 ^ 8) 64,
   two "ETH1_FOLLOW_DISTANCE" (2 ^ 11) 16,
   same "EJECTION_BALANCE" (2 ^ 4 * 10 ^ 9),
   same "MIN_PER_EPOCH_CHURN_LIMIT" (2 ^ 2),
   same "CHURN_LIMIT_QUOTIENT" (2 ^ 16),
   two "DEPOSIT_CHAIN_ID" 1 5,
   two "DEPOSIT_NETWORK_ID" 1 5,
   ⟨"DEPOSIT_CONTRACT_ADDRESS", .digits "00000000219ab540356cBB839Cbe05303d7705Fa", .digits "1234567890123456789012345678901234567890"⟩]

/-- `ssz/simple-serialize.md`, section "Constants". -/
def ssz : List Row :=
  [same "BYTES_PER_CHUNK" 32,
   same "BYTES_PER_LENGTH_OFFSET" 4,
   same "BITS_PER_BYTE" 8]

/-- All rows. -/
def table : List Row := misc ++ presets ++ configs ++ ssz

end Mammon.Spec.Config
