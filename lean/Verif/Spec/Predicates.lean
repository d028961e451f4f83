/-!
# Predicates of the phase 0 specification

Over plain records of unbounded naturals, with fields named as in `specs/phase0/beacon-chain.md` ("Predicates", "Misc"), independent of the
memory layout used by the model.
-/

namespace Mammon.Spec

/-- The parts of `AttestationData` the slashing conditions speak of; `rest` stands for all other contents. -/
structure Vote (α : Type) where
  sourceEpoch : Nat
  targetEpoch : Nat
  rest : α

/-- "Double vote: data_1 != data_2 and data_1.target.epoch == data_2.target.epoch". -/
def Vote.isDouble {α : Type} (a b : Vote α) : Prop := a ≠ b ∧ a.targetEpoch = b.targetEpoch

/-- "Surround vote: data_1.source.epoch < data_2.source.epoch and data_2.target.epoch < data_1.target.epoch". -/
def Vote.isSurround {α : Type} (a b : Vote α) : Prop := a.sourceEpoch < b.sourceEpoch ∧ b.targetEpoch < a.targetEpoch

/-- "len(indices) == 0 or not indices == sorted(set(indices))" fails: nonempty and strictly increasing. -/
def indicesValid (l : List Nat) : Prop := l ≠ [] ∧ ∀ i j : Nat, i < j → ∀ a ∈ l[i]?, ∀ b ∈ l[j]?, a < b

/-- The fields of `Validator` the predicates look at. -/
structure ValidatorRecord where
  effective_balance : Nat
  slashed : Bool
  activation_eligibility_epoch : Nat
  activation_epoch : Nat
  exit_epoch : Nat
  withdrawable_epoch : Nat

/-- `is_active_validator`. -/
def isActiveValidator (v : ValidatorRecord) (epoch : Nat) : Prop := v.activation_epoch ≤ epoch ∧ epoch < v.exit_epoch

/-- `is_eligible_for_activation_queue`, `FAR_FUTURE_EPOCH = 2**64 - 1`, `MAX_EFFECTIVE_BALANCE = 2**5 * 10**9`. -/
def isEligibleForActivationQueue (v : ValidatorRecord) : Prop :=
  v.activation_eligibility_epoch = 2 ^ 64 - 1 ∧ v.effective_balance = 2 ^ 5 * 10 ^ 9

/-- `is_slashable_validator`. -/
def isSlashableValidator (v : ValidatorRecord) (epoch : Nat) : Prop :=
  v.slashed = false ∧ v.activation_epoch ≤ epoch ∧ epoch < v.withdrawable_epoch

end Mammon.Spec
