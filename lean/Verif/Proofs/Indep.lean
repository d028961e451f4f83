import Verif.Proofs.Encode
/-! # The outcome of `deserialize` does not depend on the previous contents of the object -/

namespace Mammon

/-- Same outcome up to the contents left behind by a failure. -/
def Agree {α : Type} : Out (Bool × α) → Out (Bool × α) → Prop
  | .ok (true, a), .ok (true, b) => a = b
  | .ok (false, _), .ok (false, _) => True
  | .throws e, .throws e' => e = e'
  | .ub, .ub => True
  | _, _ => False

theorem Agree.refl {α : Type} (x : Out (Bool × α)) : Agree x x := by
  rcases x with ⟨b, a⟩ | _ | _
  · cases b <;> simp [Agree]
  · simp [Agree]
  · simp [Agree]

theorem Agree.fail {α : Type} (a b : α) : Agree (.ok (false, a)) (.ok (false, b)) := trivial

/-- Sequencing two agreeing computations. -/
theorem Agree.bind {α β : Type} {x y : Out (Bool × α)} {f g : Bool × α → Out (Bool × β)} (h : Agree x y)
    (ht : ∀ a, Agree (f (true, a)) (g (true, a))) (hf : ∀ a b, Agree (f (false, a)) (g (false, b))) :
    Agree (x >>= f) (y >>= g) := by
  rcases x with ⟨b, a⟩ | _ | _ <;> rcases y with ⟨b', a'⟩ | _ | _
  · cases b <;> cases b' <;> simp only [Agree] at h
    · exact hf _ _
    · subst h; exact ht _
  all_goals first | (cases b <;> simp [Agree] at h) | (cases b' <;> simp [Agree] at h) | skip
  · simpa [Agree] using h
  all_goals simp_all [Agree]

theorem agree_same_bind {α β : Type} (x : Out α) {f g : α → Out (Bool × β)} (h : ∀ a, Agree (f a) (g a)) :
    Agree (x >>= f) (x >>= g) := by
  cases x
  · exact h _
  · simp [Agree]
  · simp [Agree]

/-- The list produced by `vectorLoop`, without the length proof. -/
def vectorLoopL {α : Type} (elem : α → List Byte → Out (Bool × α)) (size : Nat) (bs : List Byte) (i : Nat) (old : List α) :
    Out (Bool × List α) := do
  let r ← vectorLoop elem size bs i old
  .ok (r.1, r.2.1)

theorem vectorLoopL_cons {α : Type} (elem : α → List Byte → Out (Bool × α)) (size : Nat) (bs : List Byte) (i : Nat) (x : α)
    (xs : List α) :
    vectorLoopL elem size bs i (x :: xs) = (do
      let s ← slice bs (i * size) ((i + 1) * size)
      let r ← elem x s
      if r.1 then
        let q ← vectorLoopL elem size bs (i + 1) xs
        .ok (q.1, r.2 :: q.2)
      else .ok (false, r.2 :: xs)) := by
  rw [vectorLoopL, vectorLoop]
  cases slice bs (i * size) ((i + 1) * size) with
  | ok s =>
    simp only [Out.ok_bind]
    cases elem x s with
    | ok r =>
      simp only [Out.ok_bind]
      split
      · rw [vectorLoopL]
        cases vectorLoop elem size bs (i + 1) xs <;> rfl
      · rfl
    | throws e => rfl
    | ub => rfl
  | throws e => rfl
  | ub => rfl

theorem vectorLoopL_agree {α : Type} (elem : α → List Byte → Out (Bool × α)) (size : Nat) (bs : List Byte)
    (he : ∀ o o' s, Agree (elem o s) (elem o' s)) (old old' : List α) (hl : old.length = old'.length) (i : Nat) :
    Agree (vectorLoopL elem size bs i old) (vectorLoopL elem size bs i old') := by
  induction old generalizing old' i with
  | nil =>
    cases old' with
    | nil => exact Agree.refl _
    | cons => simp at hl
  | cons x xs ih =>
    cases old' with
    | nil => simp at hl
    | cons y ys =>
      rw [vectorLoopL_cons, vectorLoopL_cons]
      refine agree_same_bind _ fun s => Agree.bind (he _ _ _) (fun a => ?_) (fun a b => ?_)
      · simp only [if_true]
        exact Agree.bind (ih ys (by simpa using hl) (i + 1)) (fun a => Agree.refl _) (fun a b => Agree.fail _ _)
      · simp [Agree]

theorem vectorLoop_agree {α : Type} (elem : α → List Byte → Out (Bool × α)) (size : Nat) (bs : List Byte)
    (he : ∀ o o' s, Agree (elem o s) (elem o' s)) (n : Nat) (old old' : Vec α n) :
    Agree (do let r ← vectorLoop elem size bs 0 old.1; .ok (r.1, (⟨r.2.1, r.2.2.trans old.2⟩ : Vec α n)))
      (do let r ← vectorLoop elem size bs 0 old'.1; .ok (r.1, (⟨r.2.1, r.2.2.trans old'.2⟩ : Vec α n))) := by
  have h := vectorLoopL_agree elem size bs he old.1 old'.1 (by rw [old.2, old'.2]) 0
  rw [vectorLoopL, vectorLoopL] at h
  revert h
  generalize vectorLoop elem size bs 0 old.1 = x
  generalize vectorLoop elem size bs 0 old'.1 = y
  intro h
  rcases x with ⟨b, a⟩ | _ | _ <;> rcases y with ⟨b', a'⟩ | _ | _ <;> try (simpa [Agree] using h)
  · cases b <;> cases b' <;> simp only [Agree, Out.ok_bind] at h ⊢
    exact Subtype.ext h

mutual
theorem deserialize_agree : (t : Ty) → Spec.wf t = true → (old old' : t.denote) → (bs : List Byte) →
    Agree (deserialize t old bs) (deserialize t old' bs)
  | .uint64, _, old, old', bs => by
    rw [deserialize, deserialize]; split <;> simp [Agree]
  | .boolean, _, old, old', bs => by
    rw [deserialize, deserialize]; split
    · simp [Agree]
    · split <;> simp [Agree]
  | .bytes n, _, old, old', bs => by
    rw [deserialize, deserialize]; split <;> simp [Agree]
  | .bitvector n, _, old, old', bs => by
    rw [deserialize, deserialize, bitvectorDeserialize, bitvectorDeserialize]; split
    · simp [Agree]
    · rename_i h
      simp only [ne_eq, Decidable.not_not, BITS_PER_BYTE] at h
      simp only [Agree]
      apply Subtype.ext
      simp only
      rw [bitvectorStore_eq _ _ _ old.2 (by rw [h]; congr 1), bitvectorStore_eq _ _ _ old'.2 (by rw [h]; congr 1)]
  | .bitlist n, _, old, old', bs => by rw [deserialize, deserialize]; exact Agree.refl _
  | .vector t n, hw, old, old', bs => by
    simp only [Spec.wf, Bool.and_eq_true] at hw
    rw [deserialize, deserialize]; split
    · simp [Agree]
    · exact vectorLoop_agree _ _ _ (fun o o' s => deserialize_agree t hw.1.1 o o' s) n old old'
  | .listF t n, _, old, old', bs => by rw [deserialize, deserialize]; exact Agree.refl _
  | .listV t n, _, old, old', bs => by rw [deserialize, deserialize]; exact Agree.refl _
  | .container s e ps, hw, old, old', bs => by
    simp only [Spec.wf, Bool.and_eq_true, decide_eq_true_eq] at hw
    obtain ⟨⟨⟨hw, h1⟩, h2⟩, h3⟩ := hw
    rw [deserialize, deserialize]
    refine Agree.bind (deserializeParts_agree ps hw old old' bs _ 0 0#32 _ _ _ _ ?_ (by simp) (fun _ => rfl))
      (fun a => Agree.refl _) (fun a b => Agree.fail _ _)
    rw [computeFixedLength_eq ps hw, BitVec.zero_add]
    intro h
    have := congrArg BitVec.toNat h
    rw [BitVec.toNat_ofNat, Nat.mod_eq_of_lt h2] at this
    simp at this; omega

theorem deserializeParts_agree : (ps : Parts) → Spec.wfParts ps = true → (old old' : ps.denote) → (bs : List Byte) → (fl : BitVec 32) → (it : Nat) →
    (last : BitVec 32) → {p : Ty} → (prev prev' : p.denote) → (desPrev desPrev' : List Byte → Out (Bool × p.denote)) →
    fl ≠ 0#32 → (last ≠ 0#32 → ∀ s, Agree (desPrev s) (desPrev' s)) → (last = 0#32 → prev = prev') →
    Agree (deserializeParts ps old bs fl it last prev desPrev) (deserializeParts ps old' bs fl it last prev' desPrev')
  | .nil, _, old, old', bs, fl, it, last, p, prev, prev', desPrev, desPrev', hfl, h1, h2 => by
    rw [deserializeParts, deserializeParts]
    split
    · rename_i h0
      exact agree_same_bind _ fun s => Agree.bind (h1 h0 s) (fun a => by simp [Agree]) (fun a b => Agree.fail _ _)
    · rename_i h0
      simp only [ne_eq, Decidable.not_not] at h0
      simp [Agree, h2 h0]
  | .cons _ t ps, hw, old, old', bs, fl, it, last, p, prev, prev', desPrev, desPrev', hfl, h1, h2 => by
    simp only [Spec.wfParts, Bool.and_eq_true] at hw
    rw [deserializeParts, deserializeParts]
    split
    · split
      · exact Agree.fail _ _
      refine agree_same_bind _ fun s => Agree.bind (deserialize_agree t hw.1 _ _ s) (fun a => ?_) (fun a b => Agree.fail _ _)
      simp only [if_true]
      exact Agree.bind (deserializeParts_agree ps hw.2 old.2 old'.2 _ _ _ _ _ _ _ _ hfl h1 h2) (fun a => Agree.refl _)
        (fun a b => Agree.fail _ _)
    · split
      · exact Agree.fail _ _
      refine agree_same_bind _ fun cur => ?_
      split
      · exact Agree.fail _ _
      split
      · rename_i hl0
        split
        · exact Agree.fail _ _
        rename_i hlt
        have hc0 : cur ≠ 0#32 := by
          rintro rfl
          apply hl0
          rw [BitVec.lt_def] at hlt
          apply BitVec.eq_of_toNat_eq
          simp at hlt ⊢; omega
        refine agree_same_bind _ fun s => Agree.bind (h1 hl0 s) (fun a => ?_) (fun a b => Agree.fail _ _)
        simp only [if_true]
        exact Agree.bind (deserializeParts_agree ps hw.2 old.2 old'.2 _ _ _ _ _ _ _ _ hfl (fun _ s => deserialize_agree t hw.1 _ _ s)
          (fun h => absurd h hc0)) (fun a => Agree.refl _) (fun a b => Agree.fail _ _)
      · rename_i hl0
        split
        · exact Agree.fail _ _
        · rename_i hcf
          simp only [ne_eq, Decidable.not_not] at hcf hl0
          rw [h2 hl0]
          exact Agree.bind (deserializeParts_agree ps hw.2 old.2 old'.2 _ _ _ _ _ _ _ _ hfl (fun _ s => deserialize_agree t hw.1 _ _ s)
            (fun h => absurd (hcf.symm.trans h) hfl)) (fun a => Agree.refl _) (fun a b => Agree.fail _ _)
end

end Mammon
