import Verif.Proofs.Reads
import Verif.Props.Encoding
/-!
# Properties of the reads of the decoder: C63, C64

The bytes of the buffer that `deserialize` reads. The decoder with the record of its reads is the decoder of all other theorems (`C63_same`).
-/

namespace Mammon

/-! ## C63 -/

/-- **C63** The record of the reads changes nothing in the decoder. -/
theorem C63_same (t : Ty) (old : t.denote) (base : Nat) (bs : List Byte) : (deserializeR t old base bs).out = deserialize t old bs :=
  deserializeR_out t old base bs

/-- **C63** Decoding reads every byte of the buffer at most once and no byte outside, whether or not it succeeds. -/
theorem C63_reads_once (t : Ty) (hw : Spec.wf t = true) (old : t.denote) (base : Nat) (bs : List Byte) (h : deserialize t old bs ≠ .ub) (a : Nat) :
    Spec.timesRead (deserializeR t old base bs).reads a ≤ if base ≤ a ∧ a < base + bs.length then 1 else 0 :=
  deserializeR_atMost t hw old base bs (by rw [C63_same]; exact h) a

/-- **C63** On the undefined inputs it may read outside: the empty bit list. -/
theorem C63_outside (limit : Nat) (old : List Bool) (base : Nat) (hb : 0 < base) :
    ∃ r ∈ (deserializeR (.bitlist limit) old base []).reads, r.addr < base :=
  ⟨⟨base - 1, 1, 1⟩, List.mem_singleton.2 rfl, by simp only []; omega⟩

theorem sum_covers (N : Nat) (r : Read) (h : r.addr + r.bytes ≤ N) :
    ((List.range N).map fun a => if r.addr ≤ a ∧ a < r.addr + r.bytes then 1 else 0).sum = r.bytes := by
  have key : ∀ N, ((List.range N).map fun a => if r.addr ≤ a ∧ a < r.addr + r.bytes then 1 else 0).sum = min N (r.addr + r.bytes) - r.addr := by
    intro N
    induction N with
    | zero => simp
    | succ N ih =>
      rw [List.range_succ, List.map_append, List.sum_append, ih]
      simp only [List.map_cons, List.map_nil, List.sum_cons, List.sum_nil]
      split <;> omega
  rw [key N]; omega

theorem sum_reads (N : Nat) : ∀ rs : List Read, (∀ r ∈ rs, r.addr + r.bytes ≤ N) →
    (rs.map (·.bytes)).sum = ((List.range N).map (Spec.timesRead rs)).sum
  | [], _ => by
    have : ((List.range N).map (Spec.timesRead [])) = List.replicate N 0 := by
      rw [List.eq_replicate_iff]
      simp [Spec.timesRead]
    rw [this]; simp
  | r :: rs, h => by
    rw [List.map_cons, List.sum_cons, sum_reads N rs fun x hx => h x (List.mem_cons_of_mem _ hx)]
    have h2 : ∀ l : List Nat, (l.map (Spec.timesRead (r :: rs))).sum =
        (l.map fun a => if r.addr ≤ a ∧ a < r.addr + r.bytes then 1 else 0).sum + (l.map (Spec.timesRead rs)).sum := by
      intro l
      induction l with
      | nil => rfl
      | cons a l ih =>
        simp only [List.map_cons, List.sum_cons, ih]
        have : Spec.timesRead (r :: rs) a = (if r.addr ≤ a ∧ a < r.addr + r.bytes then 1 else 0) + Spec.timesRead rs a := by
          simp only [Spec.timesRead, List.countP_cons, decide_eq_true_eq]; omega
        omega
    rw [h2, sum_covers N r (h r List.mem_cons_self)]

/-- **C63** Hence decoding takes time proportional to the length of the input: the sizes of all reads add up to at most that. -/
theorem C63_linear (t : Ty) (hw : Spec.wf t = true) (old : t.denote) (base : Nat) (bs : List Byte) (h : deserialize t old bs ≠ .ub) :
    ((deserializeR t old base bs).reads.map (·.bytes)).sum ≤ bs.length := by
  have h1 := C63_reads_once t hw old base bs h
  generalize (deserializeR t old base bs).reads = rs at h1
  have hpos : ∀ r ∈ rs, 0 < r.bytes → base ≤ r.addr ∧ r.addr + r.bytes ≤ base + bs.length := by
    intro r hr hb
    have hin : ∀ a, r.addr ≤ a → a < r.addr + r.bytes → base ≤ a ∧ a < base + bs.length := by
      intro a h2 h3
      have hc : 0 < Spec.timesRead rs a := List.countP_pos_iff.2 ⟨r, hr, by simp [h2, h3]⟩
      have := h1 a
      split at this
      · assumption
      · omega
    have ha := hin r.addr (Nat.le_refl _) (by omega)
    have hz := hin (r.addr + r.bytes - 1) (by omega) (by omega)
    omega
  have hs : (rs.map (·.bytes)).sum = ((rs.filter fun r => decide (0 < r.bytes)).map (·.bytes)).sum := by
    clear h1 hpos
    induction rs with
    | nil => rfl
    | cons r rs ih =>
      by_cases hb : 0 < r.bytes
      · rw [List.filter_cons_of_pos (by simpa using hb)]; simp [ih]
      · rw [List.filter_cons_of_neg (by simpa using hb)]; simp [ih]; omega
  rw [hs, sum_reads (base + bs.length) _ fun r hr => (hpos r (List.mem_filter.1 hr).1 (by simpa using (List.mem_filter.1 hr).2)).2]
  have hle : ∀ a, Spec.timesRead (rs.filter fun r => decide (0 < r.bytes)) a ≤ if base ≤ a ∧ a < base + bs.length then 1 else 0 := by
    intro a
    refine Nat.le_trans ?_ (h1 a)
    rw [Spec.timesRead, Spec.timesRead, List.countP_filter]
    exact List.countP_mono_left fun r _ h => by simp at h ⊢; omega
  have hsum : ∀ l : List Nat, (l.map (Spec.timesRead (rs.filter fun r => decide (0 < r.bytes)))).sum ≤
      (l.map fun a => if base ≤ a ∧ a < base + bs.length then 1 else 0).sum := by
    intro l
    induction l with
    | nil => exact Nat.le_refl _
    | cons a l ih => simp only [List.map_cons, List.sum_cons]; have := hle a; omega
  exact Nat.le_trans (hsum _) (Nat.le_of_eq (sum_covers (base + bs.length) ⟨base, bs.length, 1⟩ (Nat.le_refl _)))


/- An attester slashing, and bytes that are refused. -/
example : Spec.wf (Objects.attesterSlashing mainnet) = true ∧
    deserialize (Objects.attesterSlashing mainnet) (Objects.attesterSlashing mainnet).dflt [1#8, 2#8] ≠ .ub := ⟨by decide +kernel, fun h => by cases h⟩

/-! ## C64 -/

mutual
theorem integersAt_shift (d : Nat) : ∀ (t : Ty) (p : Nat), Spec.integersAt t (p + d) = (Spec.integersAt t p).map fun r => ⟨r.addr + d, r.bytes, r.align⟩
  | .uint64, p => rfl
  | .boolean, p => rfl
  | .bytes _, p => rfl
  | .bitvector _, p => rfl
  | .bitlist _, p => rfl
  | .vector t n, p => by
    rw [Spec.integersAt, Spec.integersAt, List.map_flatMap]
    refine congrArg (List.flatMap · _) (funext fun i => ?_)
    rw [← integersAt_shift d t, Nat.add_right_comm]
  | .listF _ _, p => rfl
  | .listV _ _, p => rfl
  | .container _ _ ps, p => by
    rw [Spec.integersAt, Spec.integersAt, Nat.add_right_comm, integersAtParts_shift]
theorem integersAtParts_shift (d : Nat) : ∀ (ps : Parts) (p q : Nat) (f : Bool),
    Spec.integersAtParts ps (p + d) (q + d) f = (Spec.integersAtParts ps p q f).map fun r => ⟨r.addr + d, r.bytes, r.align⟩
  | .nil, p, q, f => rfl
  | .cons _ t ps, p, q, f => by
    rw [Spec.integersAtParts, Spec.integersAtParts]
    split
    · rw [List.map_cons, List.map_append, ← integersAtParts_shift d ps, Nat.add_right_comm]
      split
      · rw [integersAt_shift d t]
      · rfl
    · rw [List.map_append, ← integersAtParts_shift d ps, ← integersAt_shift d t, Nat.add_right_comm]
end

theorem aligned_shift {r : Read} {d : Nat} (h : 8 % r.align = 0) (hd : d % 8 = 0) : Spec.Aligned ⟨r.addr + d, r.bytes, r.align⟩ = Spec.Aligned r := by
  have : d % r.align = 0 := Nat.mod_eq_zero_of_dvd (Nat.dvd_trans (Nat.dvd_of_mod_eq_zero h) (Nat.dvd_of_mod_eq_zero hd))
  simp only [Spec.Aligned]
  rw [Nat.add_mod, this, Nat.add_zero, Nat.mod_mod]

/-- The classes without misaligned reads. -/
def alignedClasses : List String :=
  ["Fork", "ForkData", "Checkpoint", "SigningData", "AttestationData", "Eth1Data", "BeaconBlockHeader", "VoluntaryExit", "SignedVoluntaryExit",
   "SignedBeaconBlockHeader", "ProposerSlashing", "DepositMessage", "DepositData", "Deposit"]

/-- The classes all of whose objects are decoded with misaligned reads. -/
def misalignedClasses : List String :=
  ["IndexedAttestation", "PendingAttestation", "Attestation", "AttesterSlashing", "Validator", "BeaconBlock", "SignedBeaconBlock", "BeaconState"]

theorem aligned_table : ∀ p ∈ [mainnet, minimal], ∀ x ∈ Objects.all p, x.1 ∈ alignedClasses → Spec.isVariable x.2 = false ∧
    (Spec.integersAt x.2 0).all (fun r => 8 % r.align == 0 && Spec.Aligned r) = true := by decide +kernel

theorem misaligned_table : ∀ p ∈ [mainnet, minimal], ∀ x ∈ Objects.all p, x.1 ∈ misalignedClasses →
    (Spec.integersAt x.2 0).any (fun r => 8 % r.align == 0 && !Spec.Aligned r) = true := by decide +kernel

/-- **C64** Fourteen of the classes: from a buffer aligned to eight bytes, all integers are read at aligned addresses, whatever the bytes are.
What is missing: the other nine. -/
theorem C64_aligned_partial {p : Preset} (hp : p ∈ [mainnet, minimal]) {x : String × Ty} (hx : x ∈ Objects.all p) (hc : x.1 ∈ alignedClasses)
    (old : x.2.denote) {base : Nat} (hb : base % 8 = 0) (bs : List Byte) : ∀ r ∈ (deserializeR x.2 old base bs).reads, Spec.Aligned r = true := by
  intro r hr
  obtain ⟨hv, ht⟩ := aligned_table p hp x hx hc
  rcases deserializeR_only x.2 (objects_wf p hp x hx) hv old base bs r hr with h | h
  · simp [Spec.Aligned, h, Nat.mod_one]
  · rw [← Nat.zero_add base, integersAt_shift, List.mem_map] at h
    obtain ⟨r', hr', rfl⟩ := h
    have := List.all_eq_true.1 ht r' hr'
    simp only [Bool.and_eq_true, beq_iff_eq] at this
    rw [aligned_shift this.1 hb]
    exact this.2

/-- **C64** fails for eight of the classes: whenever such an object is accepted, from a buffer aligned to eight bytes, some integer was read at a
misaligned address. -/
theorem C64_misaligned {p : Preset} (hp : p ∈ [mainnet, minimal]) {x : String × Ty} (hx : x ∈ Objects.all p) (hc : x.1 ∈ misalignedClasses)
    (old : x.2.denote) {base : Nat} (hb : base % 8 = 0) (bs : List Byte) {v : x.2.denote} (h : deserialize x.2 old bs = .ok (true, v)) :
    ∃ r ∈ (deserializeR x.2 old base bs).reads, Spec.Aligned r = false := by
  obtain ⟨r, hr, ha⟩ := List.any_eq_true.1 (misaligned_table p hp x hx hc)
  simp only [Bool.and_eq_true, beq_iff_eq, Bool.not_eq_true'] at ha
  refine ⟨⟨r.addr + base, r.bytes, r.align⟩, ?_, by rw [aligned_shift ha.1 hb]; exact ha.2⟩
  refine deserializeR_atLeast x.2 (objects_wf p hp x hx) old base bs v (by rw [C63_same]; exact h) _ ?_
  have h0 := integersAt_shift base x.2 0
  rw [Nat.zero_add] at h0
  rw [h0]
  exact List.mem_map.2 ⟨r, hr, rfl⟩

/-- Decoding of the block body of the examples with `n` attester slashings, from address 4096 on. -/
def bodyReads (n : Nat) : Traced (Bool × (Objects.beaconBlockBody mainnet).denote) :=
  deserializeR (Objects.beaconBlockBody mainnet) (Objects.beaconBlockBody mainnet).dflt 4096
    (Spec.encode (Objects.beaconBlockBody mainnet) (Samples.body mainnet n))

/-- **C64** For block bodies it depends on the value: without operations all reads are aligned; with an attester slashing they are not. Both are
accepted. -/
theorem C64_bodies : (∃ v, (bodyReads 0).out = .ok (true, v)) ∧ (∀ r ∈ (bodyReads 0).reads, Spec.Aligned r = true) ∧
    (∃ v, (bodyReads 1).out = .ok (true, v)) ∧ ∃ r ∈ (bodyReads 1).reads, Spec.Aligned r = false := by
  have key : ∀ n, (match (bodyReads n).out with | .ok (b, _) => b | _ => false) = true → ∃ v, (bodyReads n).out = .ok (true, v) := by
    intro n h
    revert h
    generalize (bodyReads n).out = x
    rcases x with ⟨b, v⟩ | _ | _
    · intro h
      obtain rfl : b = true := h
      exact ⟨v, rfl⟩
    · intro h; cases h
    · intro h; cases h
  exact ⟨key 0 (by decide +kernel), by decide +kernel, key 1 (by decide +kernel), by decide +kernel⟩

/-- The 23 classes: 14, 8 and the block body. -/
theorem C64_classes : ∀ p ∈ [mainnet, minimal], ∀ x ∈ Objects.all p, x.1 ∈ alignedClasses ∨ x.1 ∈ misalignedClasses ∨ x.1 = "BeaconBlockBody" := by
  decide +kernel

example : (match deserialize (Objects.attestation mainnet) (Objects.attestation mainnet).dflt
    (Spec.encode (Objects.attestation mainnet) (Samples.attestation [true, false])) with | .ok (b, _) => b | _ => false) = true := by decide +kernel

end Mammon
