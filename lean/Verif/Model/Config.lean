import Verif.Model.BytesOps
import Verif.Model.Source
/-!
# The constants of the configuration (`config/*.hpp.in`, `config/constants.hpp`, `ssz/ssz.hpp`)

A declaration `constexpr T NAME = init;` (or `T NAME{init}`) is its name, its type and its initialiser; the value of the constant is what the
conversion or the constructor selected by the type makes of the initialiser. The two paths of test vectors (config/mainnet.hpp.in:58-59,
config/minimal.hpp.in:59-60) are left out: they are the arguments of the test driver.
-/

namespace Mammon.Config

/-- The types of the constants (config/mainnet.hpp.in:30-91, config/minimal.hpp.in:31-90, config/constants.hpp:27-36, ssz/ssz.hpp:27-29): `uint64_t`
(also `auto` initialised by an `unsigned long long`), `uint` (also `uint32_t` and `unsigned int`), `int`, `eth::Slot` with its other names
`eth::Epoch` and `eth::Gwei` (common/slot.hpp:70-76), and `eth::Bytes<N>` as `eth::Version` (`N = 4`) and `eth::Eth1Address` (`N = 20`;
common/bytes.hpp:175,181). -/
inductive Kind
  | uint64
  | uint
  | int
  | slot
  | bytes (N : Nat)
  deriving DecidableEq

/-- The initialisers (config/mainnet.hpp.in:30-91, config/minimal.hpp.in:31-90, config/constants.hpp:27-36, ssz/ssz.hpp:27-29): a decimal literal, a
hexadecimal one, a hexadecimal one with the suffix `ull`, and a string literal. -/
inductive Init
  | dec (n : Nat)
  | hex (n : Nat)
  | hexULL (n : Nat)
  | str (s : String)
  deriving DecidableEq

/-- A declaration `constexpr kind name = init;` (config/mainnet.hpp.in:30-91, config/minimal.hpp.in:31-90, config/constants.hpp:27-36,
ssz/ssz.hpp:27-29). -/
structure Decl where
  name : String
  kind : Kind
  init : Init
  deriving DecidableEq

/-- The value of a constant: an integer, or the bytes of an `eth::Bytes<N>` (std; config/mainnet.hpp.in:30-91). -/
inductive Value
  | int (n : Int)
  | bytes (bs : List Byte)
  deriving DecidableEq

/-- `sizeof` of the type of an integer literal (C++ [lex.icon]): the first of `int`, `long` for a decimal one and of `int`, `unsigned`, `long`,
`unsigned long` for a hexadecimal one that holds the value; used by the constructor of `Bytes` from integers (common/bytes.hpp:73-74). -/
def literalSize : Init → Nat
  | .dec n => if n < 2 ^ 31 then 4 else 8
  | .hex n => if n < 2 ^ 32 then 4 else 8
  | .hexULL _ => 8
  | .str _ => 0

/-- The characters of a string literal (config/mainnet.hpp.in:56, config/minimal.hpp.in:57); all of them are ASCII. -/
def chars (s : String) : List Byte := s.toList.map fun c => BitVec.ofNat 8 c.toNat

/-- The conversion of an integer literal to the declared type, or the constructor that it selects: `Slot(std::uint64_t)` (common/slot.hpp:37) or
`Bytes(std::integral auto)` (common/bytes.hpp:73-74). An integer that the target type does not hold is reduced modulo a power of two. -/
def ofLiteral (kind : Kind) (i : Init) (n : Nat) : Out Value :=
  match kind with
  | .uint64 => .ok (.int (BitVec.ofNat 64 n).toNat)
  | .slot => .ok (.int (BitVec.ofNat 64 n).toNat)
  | .uint => .ok (.int (BitVec.ofNat 32 n).toNat)
  | .int => .ok (.int (BitVec.ofNat 32 n).toInt)
  | .bytes N => (bytesFromInt N (literalSize i) n).map .bytes

/-- The value of a constant: as `ofLiteral`, or `Bytes(std::string_view &&)` (common/bytes.hpp:72) of a string literal
(config/mainnet.hpp.in:55-56, config/minimal.hpp.in:56-57). A number is not initialised by a string (it would not compile). -/
def Decl.value (d : Decl) : Out Value :=
  match d.init with
  | .dec n => ofLiteral d.kind d.init n
  | .hex n => ofLiteral d.kind d.init n
  | .hexULL n => ofLiteral d.kind d.init n
  | .str s =>
    match d.kind with
    | .bytes N => (bytesFromStr N (chars s)).map .bytes
    | _ => .ub

/-- The mainnet configuration (config/mainnet.hpp.in:30-91). -/
def mainnetDecls : List Decl :=
  [⟨"MIN_GENESIS_ACTIVE_VALIDATOR_COUNT", .uint64, .dec 16384⟩,
   ⟨"MIN_GENESIS_TIME", .uint64, .dec 1606824000⟩,
   ⟨"GENESIS_FORK_VERSION", .bytes 4, .hex 0x00000000⟩,
   ⟨"GENESIS_DELAY", .uint64, .dec 604800⟩,
   ⟨"SECONDS_PER_SLOT", .uint64, .dec 12⟩,
   ⟨"SECONDS_PER_ETH1_BLOCK", .uint64, .dec 14⟩,
   ⟨"MIN_VALIDATOR_WITHDRAWABILITY_DELAY", .uint64, .dec 256⟩,
   ⟨"SHARD_COMMITTEE_PERIOD", .uint64, .dec 256⟩,
   ⟨"ETH1_FOLLOW_DISTANCE", .uint64, .dec 2048⟩,
   ⟨"EJECTION_BALANCE", .slot, .dec 16000000000⟩,
   ⟨"MIN_PER_EPOCH_CHURN_LIMIT", .uint64, .dec 4⟩,
   ⟨"CHURN_LIMIT_QUOTIENT", .uint64, .dec 65536⟩,
   ⟨"DEPOSIT_CHAIN_ID", .int, .dec 1⟩,
   ⟨"DEPOSIT_NETWORK_ID", .int, .dec 1⟩,
   ⟨"DEPOSIT_CONTRACT_ADDRESS", .bytes 20, .str "0x00000000219ab540356cBB839Cbe05303d7705Fa"⟩,
   ⟨"MAX_COMMITTEES_PER_SLOT", .uint, .dec 64⟩,
   ⟨"TARGET_COMMITTEE_SIZE", .uint, .dec 128⟩,
   ⟨"MAX_VALIDATORS_PER_COMMITTEE", .uint, .dec 2048⟩,
   ⟨"SHUFFLE_ROUND_COUNT", .uint, .dec 90⟩,
   ⟨"HYSTERESIS_QUOTIENT", .uint, .dec 4⟩,
   ⟨"HYSTERESIS_DOWNWARD_MULTIPLIER", .uint, .dec 1⟩,
   ⟨"HYSTERESIS_UPWARD_MULTIPLIER", .uint, .dec 5⟩,
   ⟨"SAFE_SLOTS_TO_UPDATE_JUSTIFIED", .uint, .dec 8⟩,
   ⟨"SLOTS_PER_EPOCH", .uint, .dec 32⟩,
   ⟨"MIN_SEED_LOOKAHEAD", .uint, .dec 1⟩,
   ⟨"MAX_SEED_LOOKAHEAD", .uint, .dec 4⟩,
   ⟨"EPOCHS_PER_ETH1_VOTING_PERIOD", .uint, .dec 64⟩,
   ⟨"SLOTS_PER_HISTORICAL_ROOT", .uint, .dec 8192⟩,
   ⟨"MIN_EPOCHS_TO_INACTIVITY_PENALTY", .uint, .dec 4⟩,
   ⟨"EPOCHS_PER_HISTORICAL_VECTOR", .uint, .dec 65536⟩,
   ⟨"EPOCHS_PER_SLASHINGS_VECTOR", .uint, .dec 8192⟩,
   ⟨"HISTORICAL_ROOTS_LIMIT", .uint64, .dec 16777216⟩,
   ⟨"VALIDATOR_REGISTRY_LIMIT", .uint64, .dec 1099511627776⟩,
   ⟨"BASE_REWARD_FACTOR", .uint, .dec 64⟩,
   ⟨"WHISTLEBLOWER_REWARD_QUOTIENT", .uint, .dec 512⟩,
   ⟨"PROPOSER_REWARD_QUOTIENT", .uint, .dec 8⟩,
   ⟨"INACTIVITY_PENALTY_QUOTIENT", .uint64, .dec 67108864⟩,
   ⟨"MIN_SLASHING_PENALTY_QUOTIENT", .uint, .dec 128⟩,
   ⟨"PROPORTIONAL_SLASHING_MULTIPLIER", .uint, .dec 1⟩,
   ⟨"MAX_PROPOSER_SLASHINGS", .uint, .dec 16⟩,
   ⟨"MAX_ATTESTER_SLASHINGS", .uint, .dec 2⟩,
   ⟨"MAX_ATTESTATIONS", .uint, .dec 128⟩,
   ⟨"MAX_DEPOSITS", .uint, .dec 16⟩,
   ⟨"MAX_VOLUNTARY_EXITS", .uint, .dec 16⟩,
   ⟨"MAX_BYTES_PER_TRANSACTION", .uint64, .dec 1048576⟩]

/-- The minimal configuration (config/minimal.hpp.in:31-90). -/
def minimalDecls : List Decl :=
  [⟨"MIN_GENESIS_ACTIVE_VALIDATOR_COUNT", .uint64, .dec 64⟩,
   ⟨"MIN_GENESIS_TIME", .uint64, .dec 1578009600⟩,
   ⟨"GENESIS_FORK_VERSION", .bytes 4, .hex 0x00000001⟩,
   ⟨"GENESIS_DELAY", .uint64, .dec 300⟩,
   ⟨"SECONDS_PER_SLOT", .uint64, .dec 6⟩,
   ⟨"SECONDS_PER_ETH1_BLOCK", .uint64, .dec 14⟩,
   ⟨"MIN_VALIDATOR_WITHDRAWABILITY_DELAY", .uint64, .dec 256⟩,
   ⟨"SHARD_COMMITTEE_PERIOD", .uint64, .dec 64⟩,
   ⟨"ETH1_FOLLOW_DISTANCE", .uint64, .dec 16⟩,
   ⟨"EJECTION_BALANCE", .slot, .dec 16000000000⟩,
   ⟨"MIN_PER_EPOCH_CHURN_LIMIT", .uint64, .dec 4⟩,
   ⟨"CHURN_LIMIT_QUOTIENT", .uint64, .dec 65536⟩,
   ⟨"DEPOSIT_CHAIN_ID", .int, .dec 5⟩,
   ⟨"DEPOSIT_NETWORK_ID", .int, .dec 5⟩,
   ⟨"DEPOSIT_CONTRACT_ADDRESS", .bytes 20, .str "0x1234567890123456789012345678901234567890"⟩,
   ⟨"MAX_COMMITTEES_PER_SLOT", .uint, .dec 4⟩,
   ⟨"TARGET_COMMITTEE_SIZE", .uint, .dec 4⟩,
   ⟨"MAX_VALIDATORS_PER_COMMITTEE", .uint, .dec 2048⟩,
   ⟨"SHUFFLE_ROUND_COUNT", .uint, .dec 10⟩,
   ⟨"HYSTERESIS_QUOTIENT", .uint, .dec 4⟩,
   ⟨"HYSTERESIS_DOWNWARD_MULTIPLIER", .uint, .dec 1⟩,
   ⟨"HYSTERESIS_UPWARD_MULTIPLIER", .uint, .dec 5⟩,
   ⟨"SAFE_SLOTS_TO_UPDATE_JUSTIFIED", .uint, .dec 2⟩,
   ⟨"SLOTS_PER_EPOCH", .uint, .dec 8⟩,
   ⟨"MIN_SEED_LOOKAHEAD", .uint, .dec 1⟩,
   ⟨"MAX_SEED_LOOKAHEAD", .uint, .dec 4⟩,
   ⟨"EPOCHS_PER_ETH1_VOTING_PERIOD", .uint, .dec 4⟩,
   ⟨"SLOTS_PER_HISTORICAL_ROOT", .uint, .dec 64⟩,
   ⟨"MIN_EPOCHS_TO_INACTIVITY_PENALTY", .uint, .dec 4⟩,
   ⟨"EPOCHS_PER_HISTORICAL_VECTOR", .uint, .dec 64⟩,
   ⟨"EPOCHS_PER_SLASHINGS_VECTOR", .uint, .dec 64⟩,
   ⟨"HISTORICAL_ROOTS_LIMIT", .uint64, .dec 16777216⟩,
   ⟨"VALIDATOR_REGISTRY_LIMIT", .uint64, .dec 1099511627776⟩,
   ⟨"BASE_REWARD_FACTOR", .uint, .dec 64⟩,
   ⟨"WHISTLEBLOWER_REWARD_QUOTIENT", .uint, .dec 512⟩,
   ⟨"PROPOSER_REWARD_QUOTIENT", .uint, .dec 8⟩,
   ⟨"INACTIVITY_PENALTY_QUOTIENT", .uint64, .dec 33554432⟩,
   ⟨"MIN_SLASHING_PENALTY_QUOTIENT", .uint, .dec 64⟩,
   ⟨"PROPORTIONAL_SLASHING_MULTIPLIER", .uint, .dec 2⟩,
   ⟨"MAX_PROPOSER_SLASHINGS", .uint, .dec 16⟩,
   ⟨"MAX_ATTESTER_SLASHINGS", .uint, .dec 2⟩,
   ⟨"MAX_ATTESTATIONS", .uint, .dec 128⟩,
   ⟨"MAX_DEPOSITS", .uint, .dec 16⟩,
   ⟨"MAX_VOLUNTARY_EXITS", .uint, .dec 16⟩]

/-- The constants common to all configurations (config/constants.hpp:27-36). -/
def constantDecls : List Decl :=
  [⟨"GENESIS_SLOT", .slot, .dec 0⟩,
   ⟨"GENESIS_EPOCH", .slot, .dec 0⟩,
   ⟨"FAR_FUTURE_EPOCH", .slot, .hexULL 0xffffffffffffffff⟩,
   ⟨"BASE_REWARDS_PER_EPOCH", .uint64, .hexULL 0x4⟩,
   ⟨"DEPOSIT_CONTRACT_TREE_DEPTH", .uint64, .hexULL 0x20⟩,
   ⟨"JUSTIFICATION_BITS_LENGTH", .uint64, .hexULL 0x4⟩,
   ⟨"MAX_EFFECTIVE_BALANCE", .slot, .dec 32000000000⟩,
   ⟨"MIN_DEPOSIT_AMOUNT", .slot, .dec 1000000000⟩,
   ⟨"EFFECTIVE_BALANCE_INCREMENT", .slot, .dec 1000000000⟩,
   ⟨"MIN_ATTESTATION_INCLUSION_DELAY", .uint, .dec 1⟩]

/-- The constants of SSZ (ssz/ssz.hpp:27-29). -/
def sszDecls : List Decl :=
  [⟨"BYTES_PER_LENGTH_OFFSET", .uint, .dec 4⟩,
   ⟨"BYTES_PER_CHUNK", .uint, .dec 32⟩,
   ⟨"BITS_PER_BYTE", .uint, .dec 8⟩]

/-- The constants of a build (CMakeLists.txt:40-47): one of the two configurations becomes `config.hpp`. -/
def build (minimal : Bool) : List Decl := (if minimal then minimalDecls else mainnetDecls) ++ constantDecls ++ sszDecls

/-- The value of the constant called `name` (config/mainnet.hpp.in:28, config/minimal.hpp.in:29: the namespace `constants`). -/
def lookup (ds : List Decl) (name : String) : Option (Out Value) := (ds.find? fun d => d.name == name).map Decl.value

/-- The types that the constant expressions of the declarations of the classes have (C++ [expr.arith.conv]; beacon-chain/beacon_state.hpp:37-50,
beacon-chain/deposits.hpp:90-93): `int` for a literal, `uint` and `uint64_t` (or `unsigned long long`) for the constants. -/
inductive ArithType
  | int
  | uint
  | uint64
  deriving DecidableEq

/-- The usual arithmetic conversions (C++ [expr.arith.conv]; beacon-chain/beacon_state.hpp:40-49). -/
def ArithType.common : ArithType → ArithType → ArithType
  | .uint64, _ => .uint64
  | _, .uint64 => .uint64
  | .uint, _ => .uint
  | _, .uint => .uint
  | .int, .int => .int

/-- The result of an addition or multiplication done in the type `t`, if `n` is the exact result (C++ [basic.fundamental], [expr.pre]): unsigned types
wrap around, overflow of `int` is undefined (beacon-chain/beacon_state.hpp:40-49, beacon-chain/deposits.hpp:93). -/
def ArithType.result (t : ArithType) (n : Nat) : Out (ArithType × Nat) :=
  match t with
  | .int => if n < 2 ^ 31 then .ok (.int, n) else .ub
  | .uint => .ok (.uint, n % 2 ^ 32)
  | .uint64 => .ok (.uint64, n % 2 ^ 64)

/-- A constant as an operand (beacon-chain/beacon_state.hpp:37-50): its type and value. No constant of type `Slot` or `Bytes<N>` occurs in a declaration
of a class, and none is negative. -/
def operand (ds : List Decl) (name : String) : Out (ArithType × Nat) :=
  match ds.find? fun d => d.name == name with
  | none => .ub
  | some d =>
    d.value.bind fun v =>
    match d.kind, v with
    | .uint64, .int (.ofNat n) => .ok (.uint64, n)
    | .uint, .int (.ofNat n) => .ok (.uint, n)
    | .int, .int (.ofNat n) => .ok (.int, n)
    | _, _ => .ub

/-- The value of a constant expression as the compiler computes it (beacon-chain/beacon_state.hpp:37-50, beacon-chain/beacon_block.hpp:121-125,
beacon-chain/attestation.hpp:52-80, beacon-chain/deposits.hpp:90-93). -/
def eval (ds : List Decl) : Source.CExpr → Out (ArithType × Nat)
  | .lit n => if n < 2 ^ 31 then .ok (.int, n) else .ub
  | .const name => operand ds name
  | .add a b => (eval ds a).bind fun x => (eval ds b).bind fun y => (x.1.common y.1).result (x.2 + y.2)
  | .mul a b => (eval ds a).bind fun x => (eval ds b).bind fun y => (x.1.common y.1).result (x.2 * y.2)

/-- The constant expression in the type of a data member (common/containers.hpp:235-335, beacon-chain/beacon_state.hpp:35-52). -/
def memberExpr : Source.CType → Option Source.CExpr
  | .named _ => none
  | .bitlist e => some e
  | .bitvector e => some e
  | .vector _ e => some e
  | .listFixed _ e => some e
  | .listVariable _ e => some e

/-- All constant expressions in the declaration of a class (common/containers.hpp:235-335, beacon-chain/beacon_state.hpp:35-52): the sizes of its
members, the limits of its lists and its `ssz_size`. -/
def classExprs (c : Source.ClassDecl) : List Source.CExpr := c.members.filterMap (fun m => memberExpr m.2) ++ c.sszSize.toList

end Mammon.Config
