import Verif.Model.Equality
import Verif.Spec.Predicates
import Verif.Spec.Members
import Verif.Props.Samples
/-!
# Equality and predicates: C34 - C37
-/

namespace Mammon

/-! ## C34 -/

mutual
/-- The types all of whose contents take part in `==`: basic and bit types, and structs with an own `operator==` over such types. -/
def comparesAll : Ty → Bool
  | .uint64 => true
  | .boolean => true
  | .bytes _ => true
  | .bitvector _ => true
  | .bitlist _ => true
  | .vector _ _ => false
  | .listF _ _ => false
  | .listV _ _ => false
  | .container _ ownEq ps => ownEq && comparesAllParts ps

/-- `comparesAll` for all parts. -/
def comparesAllParts : Parts → Bool
  | .nil => true
  | .cons _ t ps => comparesAll t && comparesAllParts ps
end

mutual
theorem eqOp_iff : (t : Ty) → comparesAll t = true → (a b : t.denote) → (eqOp t a b = true ↔ a = b)
  | .uint64, _, a, b => by simp [eqOp]
  | .boolean, _, a, b => by simp [eqOp]
  | .bytes _, _, a, b => by simp [eqOp, Subtype.ext_iff]
  | .bitvector _, _, a, b => by simp [eqOp, Subtype.ext_iff]
  | .bitlist _, _, a, b => by simp [eqOp]
  | .vector _ _, h, _, _ => by simp [comparesAll] at h
  | .listF _ _, h, _, _ => by simp [comparesAll] at h
  | .listV _ _, h, _, _ => by simp [comparesAll] at h
  | .container _ e ps, h, a, b => by
    simp only [comparesAll, Bool.and_eq_true] at h
    rw [eqOp, h.1, if_pos rfl]
    exact eqParts_iff ps h.2 a b

theorem eqParts_iff : (ps : Parts) → comparesAllParts ps = true → (a b : ps.denote) → (eqParts ps a b = true ↔ a = b)
  | .nil, _, a, b => by simp [eqParts]
  | .cons _ t ps, h, a, b => by
    simp only [comparesAllParts, Bool.and_eq_true] at h
    rw [eqParts, Bool.and_eq_true, eqOp_iff t h.1, eqParts_iff ps h.2, Prod.ext_iff]
end

mutual
theorem eqOp_refl : (t : Ty) → (a : t.denote) → eqOp t a a = true
  | .uint64, a => by simp [eqOp]
  | .boolean, a => by simp [eqOp]
  | .bytes _, a => by simp [eqOp]
  | .bitvector _, a => by simp [eqOp]
  | .bitlist _, a => by simp [eqOp]
  | .vector _ _, _ => rfl
  | .listF _ _, _ => rfl
  | .listV _ _, _ => rfl
  | .container _ e ps, a => by
    rw [eqOp]
    split
    · exact eqParts_refl ps a
    · rfl

theorem eqParts_refl : (ps : Parts) → (a : ps.denote) → eqParts ps a a = true
  | .nil, _ => rfl
  | .cons _ t ps, a => by rw [eqParts, eqOp_refl t, eqParts_refl ps]; rfl
end

/-- **C34**, what holds: `==` is equality for the types in `comparesAll`. Missing: false for all others, see `C34_always_true` and
`C34_state_equality`. -/
theorem C34_equality_partial (t : Ty) (h : comparesAll t = true) (a b : t.denote) : eqOp t a b = true ↔ a = b := eqOp_iff t h a b

example : comparesAll Objects.signedVoluntaryExit = true ∧
    eqOp Objects.voluntaryExit (1#64, 2#64, ()) (1#64, 2#64, ()) = true ∧ eqOp Objects.voluntaryExit (1#64, 2#64, ()) (1#64, 3#64, ()) = false := by
  decide +kernel

/-- The container classes for which `==` is equality. -/
theorem C34_covered : ∀ p ∈ [mainnet, minimal], ∀ x ∈ Objects.all p,
    comparesAll x.2 = true ↔ x.1 ∈ ["Fork", "BeaconBlockHeader", "VoluntaryExit", "SignedVoluntaryExit"] := by
  decide +kernel

/-- **C34**, for every type: equal objects compare equal. -/
theorem C34_reflexive (t : Ty) (a : t.denote) : eqOp t a a = true := eqOp_refl t a

example : eqOp Objects.fork Samples.fork Samples.fork = true := by decide +kernel

/-- **C34**, negation: vectors, lists and structs without an own `operator==` always compare equal. -/
theorem C34_always_true (t : Ty) (a b : t.denote)
    (h : (∃ u n, t = .vector u n) ∨ (∃ u n, t = .listF u n) ∨ (∃ u n, t = .listV u n) ∨ ∃ s ps, t = .container s false ps) :
    eqOp t a b = true := by
  rcases h with ⟨u, n, rfl⟩ | ⟨u, n, rfl⟩ | ⟨u, n, rfl⟩ | ⟨s, ps, rfl⟩ <;> rfl

-- different attestations compare equal
example : (∃ s ps, Objects.attestation mainnet = .container s false ps) ∧
    Samples.attestation [true] ≠ Samples.attestation [false] :=
  ⟨⟨_, _, rfl⟩, fun h => absurd (congrArg (fun x : (Objects.attestation mainnet).denote => (x.1 : List Bool)) h) (by decide)⟩

/-- The members that `==` of beacon states looks at, by position. -/
theorem state_members (p : Preset) (a : (Objects.beaconState p).denote) :
    Spec.member ⟨Objects.beaconState p, a⟩ "genesis_time" = some ⟨Objects.slot, a.1⟩ ∧
    Spec.member ⟨Objects.beaconState p, a⟩ "genesis_validators_root" = some ⟨Objects.root, a.2.1⟩ ∧
    Spec.member ⟨Objects.beaconState p, a⟩ "slot" = some ⟨Objects.slot, a.2.2.1⟩ ∧
    Spec.member ⟨Objects.beaconState p, a⟩ "fork" = some ⟨Objects.fork, a.2.2.2.1⟩ ∧
    Spec.member ⟨Objects.beaconState p, a⟩ "latest_block_header" = some ⟨Objects.beaconBlockHeader, a.2.2.2.2.1⟩ ∧
    Spec.member ⟨Objects.beaconState p, a⟩ "eth1_deposit_index" = some ⟨Objects.slot, a.2.2.2.2.2.2.2.2.2.2.1⟩ ∧
    Spec.member ⟨Objects.beaconState p, a⟩ "justification_bits" = some ⟨.bitvector JUSTIFICATION_BITS_LENGTH, a.2.2.2.2.2.2.2.2.2.2.2.2.2.2.2.2.2.1⟩ :=
  ⟨rfl, rfl, rfl, rfl, rfl, rfl, rfl⟩

theorem state_balances (p : Preset) (a : (Objects.beaconState p).denote) :
    Spec.natsAt (t := Objects.beaconState p) a ["balances"] = some ((a.2.2.2.2.2.2.2.2.2.2.2.2.1 : List (BitVec 64)).map (·.toNat)) := rfl

/-- **C34**, for the beacon state: `==` compares the genesis time, genesis validators root, slot, fork, latest block header, deposit index and
justification bits, and nothing else. -/
theorem C34_state_equality (p : Preset) (a b : (Objects.beaconState p).denote) : eqOp (Objects.beaconState p) a b = true ↔
    ∀ name ∈ ["genesis_time", "genesis_validators_root", "slot", "fork", "latest_block_header", "eth1_deposit_index", "justification_bits"],
      Spec.member ⟨Objects.beaconState p, a⟩ name = Spec.member ⟨Objects.beaconState p, b⟩ name := by
  have hf := eqOp_iff Objects.fork (by decide)
  have hh := eqOp_iff Objects.beaconBlockHeader (by decide)
  have h1 := eqOp_iff Objects.slot (by decide)
  have h2 := eqOp_iff Objects.root (by decide)
  have h3 := eqOp_iff (.bitvector JUSTIFICATION_BITS_LENGTH) rfl
  have hm : ∀ (t : Ty) (x y : t.denote), (some (⟨t, x⟩ : (t : Ty) × t.denote) = some ⟨t, y⟩) ↔ x = y := fun t x y => by
    rw [Option.some.injEq, Sigma.mk.injEq]
    exact ⟨fun h => eq_of_heq h.2, fun h => ⟨rfl, heq_of_eq h⟩⟩
  simp only [List.forall_mem_cons, List.not_mem_nil, false_imp_iff, implies_true, and_true]
  obtain ⟨a1, a2, a3, a4, a5, a6, a7⟩ := state_members p a
  obtain ⟨b1, b2, b3, b4, b5, b6, b7⟩ := state_members p b
  rw [a1, a2, a3, a4, a5, a6, a7, b1, b2, b3, b4, b5, b6, b7]
  rw [hm, hm, hm, hm, hm, hm, hm, ← h1, ← h2, ← h1, ← hf, ← hh, ← h1, ← h3]
  have h : eqOp (Objects.beaconState p) a b = (eqOp Objects.slot a.1 b.1 && (eqOp Objects.root a.2.1 b.2.1 && (eqOp Objects.slot a.2.2.1 b.2.2.1 && (eqOp Objects.fork a.2.2.2.1 b.2.2.2.1 && (eqOp Objects.beaconBlockHeader a.2.2.2.2.1 b.2.2.2.2.1 && (true && (true && (true && (true && (true && (eqOp Objects.slot a.2.2.2.2.2.2.2.2.2.2.1 b.2.2.2.2.2.2.2.2.2.2.1 && (true && (true && (true && (true && (true && (true && (eqOp (.bitvector JUSTIFICATION_BITS_LENGTH) a.2.2.2.2.2.2.2.2.2.2.2.2.2.2.2.2.2.1 b.2.2.2.2.2.2.2.2.2.2.2.2.2.2.2.2.2.1 && (true && (true && (true && true))))))))))))))))))))) := rfl
  rw [h]
  simp only [Bool.and_eq_true, true_and, and_true]

/-- **C34**, negation: every beacon state compares equal to a state with other balances. -/
theorem C34_state_differs (p : Preset) (a : (Objects.beaconState p).denote) :
    ∃ b : (Objects.beaconState p).denote, eqOp (Objects.beaconState p) a b = true ∧
      Spec.natsAt (t := Objects.beaconState p) a ["balances"] ≠ Spec.natsAt (t := Objects.beaconState p) b ["balances"] := by
  obtain ⟨x1, x2, x3, x4, x5, x6, x7, x8, x9, x10, x11, x12, x13, x⟩ := a
  refine ⟨(x1, x2, x3, x4, x5, x6, x7, x8, x9, x10, x11, x12, (1#64 :: (x13 : List (BitVec 64)) : List (BitVec 64)), x), ?_, ?_⟩
  · refine (C34_state_equality p _ _).2 ?_
    simp only [List.forall_mem_cons, List.not_mem_nil, false_imp_iff, implies_true, and_true]
    generalize hb : ((x1, x2, x3, x4, x5, x6, x7, x8, x9, x10, x11, x12, (1#64 :: (x13 : List (BitVec 64)) : List (BitVec 64)), x) :
      (Objects.beaconState p).denote) = b
    generalize ha : ((x1, x2, x3, x4, x5, x6, x7, x8, x9, x10, x11, x12, x13, x) : (Objects.beaconState p).denote) = a
    obtain ⟨a1, a2, a3, a4, a5, a6, a7⟩ := state_members p a
    obtain ⟨b1, b2, b3, b4, b5, b6, b7⟩ := state_members p b
    rw [a1, a2, a3, a4, a5, a6, a7, b1, b2, b3, b4, b5, b6, b7]
    subst ha hb
    exact ⟨rfl, rfl, rfl, rfl, rfl, rfl, rfl⟩
  · intro h
    have h := ((state_balances p _).symm.trans h).trans (state_balances p _)
    have := congrArg (fun y => (y.getD []).length) h
    simp at this

example : eqOp (Objects.beaconState minimal) (Objects.beaconState minimal).dflt (Objects.beaconState minimal).dflt = true := C34_reflexive _ _

/-! ## C35 -/

/-- The vote in an attestation data object (the members exist, see `C35_members`). -/
def voteOf (a : Objects.attestationData.denote) : Spec.Vote Objects.attestationData.denote :=
  ⟨(Spec.natAt (t := Objects.attestationData) a ["source", "epoch"]).getD 0, (Spec.natAt (t := Objects.attestationData) a ["target", "epoch"]).getD 0, a⟩

theorem C35_members (a : Objects.attestationData.denote) :
    Spec.natAt (t := Objects.attestationData) a ["source", "epoch"] = some (voteOf a).sourceEpoch ∧
    Spec.natAt (t := Objects.attestationData) a ["target", "epoch"] = some (voteOf a).targetEpoch := ⟨rfl, rfl⟩

example : voteOf (Samples.attestationData 3 9) = ⟨3, 9, Samples.attestationData 3 9⟩ := rfl

theorem voteOf_eq (a : Objects.attestationData.denote) :
    voteOf a = ⟨(checkpointEpoch (dataSource a)).toNat, (checkpointEpoch (dataTarget a)).toNat, a⟩ := rfl

theorem voteOf_ne (a b : Objects.attestationData.denote) : voteOf a ≠ voteOf b ↔ a ≠ b :=
  not_congr ⟨fun h => congrArg Spec.Vote.rest h, fun h => by rw [h]⟩

/-- `is_slashable` recognises exactly the surround votes. -/
theorem C35_surround_partial (a b : Objects.attestationData.denote) :
    dataIsSlashable a b = true ↔ (voteOf a).isSurround (voteOf b) := by
  have h : eqOp Objects.attestationData a b = true := rfl
  rw [dataIsSlashable, h]
  simp [Spec.Vote.isSurround, voteOf_eq, BitVec.lt_def]

/-- **C35**, what holds: on pairs that are not double votes, `is_slashable` agrees with the specification. Missing: double votes, see
`C35_double_vote_missed`. -/
theorem C35_not_double_partial (a b : Objects.attestationData.denote) (h : ¬ (voteOf a).isDouble (voteOf b)) :
    dataIsSlashable a b = true ↔ (voteOf a).isDouble (voteOf b) ∨ (voteOf a).isSurround (voteOf b) := by
  rw [C35_surround_partial]
  exact ⟨Or.inr, fun h' => h'.resolve_left h⟩

-- a surround vote
example : dataIsSlashable (Samples.attestationData 3 9) (Samples.attestationData 4 8) = true ∧
    ¬ (voteOf (Samples.attestationData 3 9)).isDouble (voteOf (Samples.attestationData 4 8)) := by
  refine ⟨by decide +kernel, fun h => ?_⟩
  exact absurd h.2 (by decide +kernel)

/-- **C35**, negation: no double vote is ever recognised. -/
theorem C35_double_vote_missed (a b : Objects.attestationData.denote) (h : (voteOf a).isDouble (voteOf b)) : dataIsSlashable a b = false := by
  rw [← Bool.not_eq_true, C35_surround_partial]
  intro h'
  have h1 := h.2
  have h2 := h'.2
  omega

example : (voteOf (Samples.attestationData 3 9)).isDouble (voteOf (Samples.attestationData 4 9)) := by
  refine ⟨(voteOf_ne _ _).2 fun h => ?_, by decide +kernel⟩
  exact absurd (congrArg (fun x : Objects.attestationData.denote => checkpointEpoch (dataSource x)) h) (by decide +kernel)

/-! ## C36 -/

theorem isSorted_iff (l : List (BitVec 64)) : isSorted l = true ↔ l.Pairwise (· ≤ ·) := by
  fun_induction isSorted l with
  | case1 a b l h =>
    simp only [Bool.false_eq_true, List.pairwise_cons, List.mem_cons, false_iff, not_and]
    intro h1
    have := h1 b (Or.inl rfl)
    rw [BitVec.le_def] at this
    rw [BitVec.lt_def] at h
    omega
  | case2 a b l h ih =>
    rw [ih, List.pairwise_cons (a := a)]
    refine ⟨fun hp => ⟨fun c hc => ?_, hp⟩, fun h => h.2⟩
    have hab : a ≤ b := by rw [BitVec.le_def]; rw [BitVec.lt_def] at h; omega
    rcases List.mem_cons.1 hc with rfl | hc
    · exact hab
    · exact BitVec.le_trans hab ((List.pairwise_cons.1 hp).1 c hc)
  | case3 l h =>
    match l with
    | [] => simp
    | [a] => simp
    | a :: b :: l => exact absurd rfl (h a b l)

theorem adjacentFind_le (l : List (BitVec 64)) : adjacentFind l ≤ l.length := by
  fun_induction adjacentFind l with
  | case1 => exact Nat.zero_le _
  | case2 a b l h ih => simp only [List.length_cons] at *; omega
  | case3 l h => exact Nat.le_refl _

theorem adjacentFind_iff (l : List (BitVec 64)) (hs : l.Pairwise (· ≤ ·)) : adjacentFind l = l.length ↔ l.Pairwise (· < ·) := by
  fun_induction adjacentFind l with
  | case1 a b l h =>
    simp only [beq_iff_eq] at h
    subst h
    simp only [List.length_cons, List.pairwise_cons, List.mem_cons]
    constructor
    · intro h; omega
    · intro h
      have := h.1 a (Or.inl rfl)
      rw [BitVec.lt_def] at this
      exact absurd this (Nat.lt_irrefl _)
  | case2 a b l h ih =>
    have h : a ≠ b := by simpa using h
    obtain ⟨h1, h2⟩ := List.pairwise_cons.1 hs
    rw [List.length_cons, Nat.add_right_cancel_iff, ih h2, List.pairwise_cons (a := a)]
    refine ⟨fun hp => ⟨fun c hc => ?_, hp⟩, fun h => h.2⟩
    have hab : a < b := by
      have := h1 b (by simp)
      rw [BitVec.le_def] at this
      rw [BitVec.lt_def]
      have hne : a.toNat ≠ b.toNat := fun h' => h (BitVec.eq_of_toNat_eq h')
      omega
    rcases List.mem_cons.1 hc with rfl | hc
    · exact hab
    · exact BitVec.lt_trans hab ((List.pairwise_cons.1 hp).1 c hc)
  | case3 l h =>
    match l with
    | [] => simp
    | [a] => simp
    | a :: b :: l => exact absurd rfl (h a b l)

/-- **C36** `is_valid` accepts exactly the nonempty strictly increasing lists of indices. -/
theorem C36_is_valid (p : Preset) (a : (Objects.indexedAttestation p).denote) :
    ∃ l, Spec.natsAt (t := Objects.indexedAttestation p) a ["attesting_indices"] = some l ∧ (indexedIsValid p a = true ↔ Spec.indicesValid l) := by
  refine ⟨(a.1 : List (BitVec 64)).map (·.toNat), rfl, ?_⟩
  rw [indexedIsValid, Spec.indicesValid]
  generalize (a.1 : List (BitVec 64)) = l
  have hsp : (∀ i j : Nat, i < j → ∀ a ∈ (l.map (·.toNat))[i]?, ∀ b ∈ (l.map (·.toNat))[j]?, a < b) ↔ l.Pairwise (· < ·) := by
    rw [List.pairwise_iff_getElem]
    constructor
    · intro h i j hi hj hij
      rw [BitVec.lt_def]
      exact h i j hij _ (by simp [hi]) _ (by simp [hj])
    · intro h i j hij a ha b hb
      simp only [List.getElem?_map, Option.mem_def, Option.map_eq_some_iff] at ha hb
      obtain ⟨x, hx, rfl⟩ := ha
      obtain ⟨y, hy, rfl⟩ := hb
      obtain ⟨hi, rfl⟩ := List.getElem?_eq_some_iff.1 hx
      obtain ⟨hj, rfl⟩ := List.getElem?_eq_some_iff.1 hy
      have := h i j hi hj hij
      rwa [BitVec.lt_def] at this
  rw [hsp]
  by_cases h0 : l = []
  · subst h0; simp
  · rw [if_neg (by simpa using h0)]
    by_cases hs : isSorted l = true
    · rw [hs, if_neg (by simp), beq_iff_eq, adjacentFind_iff l ((isSorted_iff l).1 hs)]
      simp [h0]
    · rw [if_pos (by simpa using hs)]
      simp only [Bool.false_eq_true, false_iff, not_and]
      intro _ hp
      apply hs
      rw [isSorted_iff]
      exact hp.imp fun h => BitVec.le_of_lt h

example : indexedIsValid mainnet (Samples.indexedAttestation [1#64, 5#64, 9#64]) = true ∧
    indexedIsValid mainnet (Samples.indexedAttestation [1#64, 5#64, 5#64]) = false ∧
    indexedIsValid mainnet (Samples.indexedAttestation [2#64, 1#64]) = false ∧ indexedIsValid mainnet (Samples.indexedAttestation []) = false := by
  decide +kernel

/-! ## C37 -/

/-- The specification's view of a validator object (the members exist, see `C37_members`). -/
def validatorRecord (v : Objects.validator.denote) : Spec.ValidatorRecord where
  effective_balance := (Spec.natAt (t := Objects.validator) v ["effective_balance"]).getD 0
  slashed := (Spec.boolAt (t := Objects.validator) v ["slashed"]).getD false
  activation_eligibility_epoch := (Spec.natAt (t := Objects.validator) v ["activation_eligibility_epoch"]).getD 0
  activation_epoch := (Spec.natAt (t := Objects.validator) v ["activation_epoch"]).getD 0
  exit_epoch := (Spec.natAt (t := Objects.validator) v ["exit_epoch"]).getD 0
  withdrawable_epoch := (Spec.natAt (t := Objects.validator) v ["withdrawable_epoch"]).getD 0

theorem C37_members (v : Objects.validator.denote) :
    Spec.natAt (t := Objects.validator) v ["effective_balance"] = some (validatorRecord v).effective_balance ∧
    Spec.boolAt (t := Objects.validator) v ["slashed"] = some (validatorRecord v).slashed ∧
    Spec.natAt (t := Objects.validator) v ["activation_eligibility_epoch"] = some (validatorRecord v).activation_eligibility_epoch ∧
    Spec.natAt (t := Objects.validator) v ["activation_epoch"] = some (validatorRecord v).activation_epoch ∧
    Spec.natAt (t := Objects.validator) v ["exit_epoch"] = some (validatorRecord v).exit_epoch ∧
    Spec.natAt (t := Objects.validator) v ["withdrawable_epoch"] = some (validatorRecord v).withdrawable_epoch :=
  ⟨rfl, rfl, rfl, rfl, rfl, rfl⟩

example : (validatorRecord Objects.validator.dflt).slashed = false := rfl

theorem validatorRecord_eq (v : Objects.validator.denote) : validatorRecord v =
    { effective_balance := (validatorEffectiveBalance v).toNat, slashed := validatorSlashed v,
      activation_eligibility_epoch := (validatorEligibility v).toNat, activation_epoch := (validatorActivation v).toNat,
      exit_epoch := (validatorExit v).toNat, withdrawable_epoch := (validatorWithdrawable v).toNat } := rfl

/-- **C37** The three predicates decide the predicates of the specification. -/
theorem C37_predicates (v : Objects.validator.denote) (e : BitVec 64) :
    (validatorIsActive v e = true ↔ Spec.isActiveValidator (validatorRecord v) e.toNat) ∧
    (validatorIsEligible v = true ↔ Spec.isEligibleForActivationQueue (validatorRecord v)) ∧
    (validatorIsSlashable v e = true ↔ Spec.isSlashableValidator (validatorRecord v) e.toNat) := by
  rw [validatorRecord_eq]
  refine ⟨?_, ?_, ?_⟩
  · simp [validatorIsActive, Spec.isActiveValidator, BitVec.lt_def, BitVec.le_def]
  · simp only [validatorIsEligible, Spec.isEligibleForActivationQueue, Bool.and_eq_true, beq_iff_eq]
    rw [← BitVec.toNat_inj, ← BitVec.toNat_inj]
    exact Iff.rfl
  · simp [validatorIsSlashable, Spec.isSlashableValidator, BitVec.lt_def, BitVec.le_def, and_assoc]

/-- **C37** A validator that is active and not slashed can be slashed, provided it becomes withdrawable no earlier than it exits; a validator is
active on an interval of epochs: between two active epochs there is no inactive one. -/
theorem C37_intervals (v : Objects.validator.denote) (e f g : BitVec 64) :
    ((validatorRecord v).exit_epoch ≤ (validatorRecord v).withdrawable_epoch → validatorIsActive v e = true → (validatorRecord v).slashed = false →
      validatorIsSlashable v e = true) ∧
    (e ≤ f → f ≤ g → validatorIsActive v e = true → validatorIsActive v g = true → validatorIsActive v f = true) := by
  simp only [validatorRecord_eq, validatorIsActive, validatorIsSlashable, Bool.and_eq_true, decide_eq_true_eq, BitVec.le_def, BitVec.lt_def, Bool.not_eq_true']
  constructor
  · intro h1 h2 h3; exact ⟨⟨h3, h2.1⟩, by omega⟩
  · intro h1 h2 h3 h4; omega

-- a validator active from epoch 5 to 9, withdrawable from epoch 20
example : let v : Objects.validator.denote :=
      (⟨List.replicate 48 1#8, by decide⟩, Samples.root 1, 32000000000#64, false, 0xffffffffffffffff#64, 5#64, 10#64, 20#64, ())
    validatorIsActive v 5#64 = true ∧ validatorIsActive v 10#64 = false ∧ validatorIsEligible v = true ∧
    validatorIsSlashable v 19#64 = true ∧ validatorIsSlashable v 20#64 = false := by decide +kernel

end Mammon
