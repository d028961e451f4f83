import Verif.Model.Objects
/-!
# `operator==` of the classes, and the predicates of `AttestationData`, `IndexedAttestation` and `Validator`
-/

namespace Mammon

mutual
/-- `a == b`. The basic and bit types compare their contents (common/slot.hpp:62, common/boolean.hpp:50, common/bytes.hpp:119-123,
common/bitvector.hpp:91, common/bitlist.hpp:52; the limits of two bit lists of one `Ty` are equal). The vector and list classes and the structs
without an own `operator==` inherit `Container::operator==`, which returns true (ssz/ssz_container.hpp:61). A defaulted `operator==`
(common/containers.hpp:252, beacon-chain/beacon_block.hpp:52,83,103, beacon-chain/beacon_state.hpp:171) compares the base subobject (true) and then
the members in order with their own `==`. -/
def eqOp : (t : Ty) → t.denote → t.denote → Bool
  | .uint64, a, b => a == b
  | .boolean, a, b => a == b
  | .bytes _, a, b => a.1 == b.1
  | .bitvector _, a, b => a.1 == b.1
  | .bitlist _, a, b => (a : List Bool) == b
  | .vector _ _, _, _ => true
  | .listF _ _, _, _ => true
  | .listV _ _, _, _ => true
  | .container _ ownEq ps, a, b => if ownEq then eqParts ps a b else true

/-- Memberwise comparison of a defaulted `operator==` (common/containers.hpp:252, beacon-chain/beacon_block.hpp:52,83,103,
beacon-chain/beacon_state.hpp:171). -/
def eqParts : (ps : Parts) → ps.denote → ps.denote → Bool
  | .nil, _, _ => true
  | .cons _ t ps, a, b => eqOp t a.1 b.1 && eqParts ps a.2 b.2
end

/-- `Checkpoint::epoch` (common/containers.hpp:293). -/
def checkpointEpoch (c : Objects.checkpoint.denote) : BitVec 64 := c.1

/-- `AttestationData::source` (beacon-chain/attestation.hpp:38). -/
def dataSource (a : Objects.attestationData.denote) : Objects.checkpoint.denote := a.2.2.2.1

/-- `AttestationData::target` (beacon-chain/attestation.hpp:38). -/
def dataTarget (a : Objects.attestationData.denote) : Objects.checkpoint.denote := a.2.2.2.2.1

/-- `AttestationData::is_slashable` (beacon-chain/attestation.cpp:36-39). `a != b` is rewritten to `!(a == b)`. -/
def dataIsSlashable (a b : Objects.attestationData.denote) : Bool :=
  if !(eqOp Objects.attestationData a b) && checkpointEpoch (dataTarget a) == checkpointEpoch (dataTarget b) then true
  else decide (checkpointEpoch (dataSource a) < checkpointEpoch (dataSource b)) &&
    decide (checkpointEpoch (dataTarget a) > checkpointEpoch (dataTarget b))

/-- `std::is_sorted` over a range (std; used in beacon-chain/attestation.cpp:69): true unless some element is less than its predecessor. -/
def isSorted : List (BitVec 64) → Bool
  | a :: b :: l => if b < a then false else isSorted (b :: l)
  | _ => true

/-- `std::adjacent_find` (std; used in beacon-chain/attestation.cpp:70): index of the first element equal to its successor, or the length. -/
def adjacentFind : List (BitVec 64) → Nat
  | a :: b :: l => if a == b then 0 else adjacentFind (b :: l) + 1
  | l => l.length

/-- `IndexedAttestation::is_valid` (beacon-chain/attestation.cpp:67-72). The argument (the state) is not used by the code. -/
def indexedIsValid (p : Preset) (a : (Objects.indexedAttestation p).denote) : Bool :=
  let indices : List (BitVec 64) := a.1
  if indices.length = 0 then false
  else if !(isSorted indices) then false
  else adjacentFind indices == indices.length

/-- `constants::FAR_FUTURE_EPOCH` (config/constants.hpp:29). -/
abbrev FAR_FUTURE_EPOCH : BitVec 64 := 0xffffffffffffffff#64

/-- `constants::MAX_EFFECTIVE_BALANCE` (config/constants.hpp:33). -/
abbrev MAX_EFFECTIVE_BALANCE : BitVec 64 := 32000000000#64

/-! The members of `Validator` used below, by position (beacon-chain/validator.hpp:32-36). -/

/-- `Validator::effective_balance` (beacon-chain/validator.hpp:34). -/
def validatorEffectiveBalance (v : Objects.validator.denote) : BitVec 64 := v.2.2.1
/-- `Validator::slashed` (beacon-chain/validator.hpp:35). -/
def validatorSlashed (v : Objects.validator.denote) : Bool := v.2.2.2.1
/-- `Validator::activation_eligibility_epoch` (beacon-chain/validator.hpp:36). -/
def validatorEligibility (v : Objects.validator.denote) : BitVec 64 := v.2.2.2.2.1
/-- `Validator::activation_epoch` (beacon-chain/validator.hpp:36). -/
def validatorActivation (v : Objects.validator.denote) : BitVec 64 := v.2.2.2.2.2.1
/-- `Validator::exit_epoch` (beacon-chain/validator.hpp:36). -/
def validatorExit (v : Objects.validator.denote) : BitVec 64 := v.2.2.2.2.2.2.1
/-- `Validator::withdrawable_epoch` (beacon-chain/validator.hpp:36). -/
def validatorWithdrawable (v : Objects.validator.denote) : BitVec 64 := v.2.2.2.2.2.2.2.1

/-- `Validator::is_active` (beacon-chain/validator.cpp:38-40). -/
def validatorIsActive (v : Objects.validator.denote) (epoch : BitVec 64) : Bool :=
  decide (validatorActivation v ≤ epoch) && decide (epoch < validatorExit v)

/-- `Validator::is_eligible_for_activation_queue` (beacon-chain/validator.cpp:41-44). -/
def validatorIsEligible (v : Objects.validator.denote) : Bool :=
  validatorEligibility v == FAR_FUTURE_EPOCH && validatorEffectiveBalance v == MAX_EFFECTIVE_BALANCE

/-- `Validator::is_slashable` (beacon-chain/validator.cpp:45-47). -/
def validatorIsSlashable (v : Objects.validator.denote) (epoch : BitVec 64) : Bool :=
  !validatorSlashed v && decide (validatorActivation v ≤ epoch) && decide (epoch < validatorWithdrawable v)

end Mammon
