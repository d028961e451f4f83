import Verif.Spec.Fails
import Verif.Proofs.Accepts
/-!
# Trees that are not decoded
-/

namespace Mammon.Yaml

open Spec

/-- How an outcome of `decode` fails, if it does. -/
def failure {α : Type} : Out (Bool × α) → Option Failure
  | .ok (true, _) => none
  | .ok (false, _) => some .returnsFalse
  | .throws e => some (.throws e)
  | .ub => some .undefined

/-- How an outcome of a conversion fails, if it does. -/
def failureOf {α : Type} : Out α → Option Failure
  | .ok _ => none
  | .throws e => some (.throws e)
  | .ub => some .undefined

theorem failure_map_true {α β : Type} (x : Out α) (f : α → β) : failure (x.map fun a => (true, f a)) = failureOf x := by
  rcases x with _ | _ | _ <;> rfl

theorem failureOf_map {α β : Type} (x : Out α) (f : α → β) : failureOf (x.map f) = failureOf x := by
  rcases x with _ | _ | _ <;> rfl

theorem hexMarked_iff (s : List Byte) : HexMarked s ↔ s.take 2 = [0x30#8, 0x78#8] :=
  ⟨fun ⟨cs, h⟩ => by rw [h]; rfl, fun h => ⟨_, take_two h⟩⟩

theorem bytesFromStr_fails (k : Nat) (s : List Byte) (f : Failure) : failureOf (bytesFromStr k s) = some f ↔
    (f = .throws .invalidArgument ∧ ¬ HexMarked s) ∨ (f = .throws .outOfRange ∧ HexMarked s ∧ 2 * k + 2 < s.length) ∨
      (f = .undefined ∧ HexMarked s ∧ s.length ≤ 2 * k + 2 ∧ HasHigh s) := by
  rw [bytesFromStr_eq, hexMarked_iff, HasHigh]
  by_cases h1 : s.take 2 = [0x30#8, 0x78#8]
  · rw [if_neg (by simp [h1])]
    by_cases h2 : s.length > 2 * k + 2
    · rw [if_pos h2]
      simp only [failureOf, Option.some.injEq, h1, not_true_eq_false, and_false, false_or, true_and]
      constructor
      · rintro rfl; exact .inl ⟨rfl, h2⟩
      · rintro (⟨rfl, -⟩ | ⟨-, h, -⟩)
        · rfl
        · omega
    · rw [if_neg h2]
      by_cases h3 : ∀ c ∈ s.drop 2, c.toNat < 128
      · rw [if_pos h3]
        simp only [failureOf, h1, not_true_eq_false, and_false, false_or, true_and]
        constructor
        · intro h; cases h
        · rintro (⟨-, h⟩ | ⟨-, -, c, hc, h⟩)
          · omega
          · have := h3 c hc; omega
      · rw [if_neg h3]
        simp only [failureOf, Option.some.injEq, h1, not_true_eq_false, and_false, false_or, true_and]
        have h3 : ∃ c ∈ s.drop 2, 128 ≤ c.toNat := by
          simp only [Classical.not_forall] at h3
          obtain ⟨c, hc, h⟩ := h3
          exact ⟨c, hc, by omega⟩
        constructor
        · rintro rfl; exact .inr ⟨rfl, by omega, h3⟩
        · rintro (⟨-, h⟩ | ⟨rfl, -⟩)
          · omega
          · rfl
  · rw [if_pos (by simp [h1])]
    simp [failureOf, h1, eq_comm]

theorem hexString_fails (s : List Byte) (f : Failure) : failureOf (hexString s) = some f ↔ HexFails s f := by
  rw [HexFails, HasHigh, hexMarked_iff, hexString]
  by_cases h1 : s.take 2 = [0x30#8, 0x78#8]
  · rw [if_neg (by simp [h1])]
    by_cases h2 : s.length % 2 = 0
    · have h2' : ¬ s.length % 2 = 1 := by omega
      rw [if_neg (by simp [h2])]
      simp only [h1, h2, not_true_eq_false, false_or, true_and]
      by_cases h3 : 2 ^ 31 ≤ s.length
      · rw [if_pos h3]
        constructor
        · intro h
          cases h
          exact .inr ⟨rfl, .inl h3⟩
        · rintro (⟨-, h⟩ | ⟨rfl, -⟩)
          · omega
          · rfl
      · rw [if_neg h3, hexPairs_eq _ (by rw [List.length_drop]; omega)]
        by_cases h4 : ∀ c ∈ s.drop 2, c.toNat < 128
        · rw [if_pos h4]
          constructor
          · intro h; cases h
          · rintro (⟨-, h⟩ | ⟨-, h | ⟨c, hc, h⟩⟩)
            · omega
            · exact absurd h h3
            · have := h4 c hc; omega
        · rw [if_neg h4]
          have h4 : ∃ c ∈ s.drop 2, 128 ≤ c.toNat := by
            simp only [Classical.not_forall] at h4
            obtain ⟨c, hc, h⟩ := h4
            exact ⟨c, hc, by omega⟩
          constructor
          · intro h
            cases h
            exact .inr ⟨rfl, .inr h4⟩
          · rintro (⟨-, h⟩ | ⟨rfl, -⟩)
            · omega
            · rfl
    · rw [if_pos h2]
      have h2' : s.length % 2 = 1 := by omega
      simp [failureOf, h2', eq_comm]
  · rw [if_pos (by simp [h1])]
    simp [failureOf, h1, eq_comm]

theorem bitlistFromHex_fails (s : List Byte) (f : Failure) : failureOf (bitlistFromHex s) = some f ↔
    HexFails s f ∨ (f = .undefined ∧ HexMarked s ∧ s.length % 2 = 0 ∧ ¬ EndsNonzero (s.drop 2)) := by
  have hub : bitlistFromHex s = .ub ↔ HexMarked s ∧ s.length % 2 = 0 ∧ (2 ^ 31 ≤ s.length ∨ HasHigh s ∨ ¬ EndsNonzero (s.drop 2)) := by
    rw [bitlistFromHex_ub_iff, HexMarked]
    constructor
    · rintro ⟨cs, rfl, h1, h2⟩
      exact ⟨⟨cs, rfl⟩, by simp only [List.length_cons]; omega, h2⟩
    · rintro ⟨⟨cs, rfl⟩, h1, h2⟩
      exact ⟨cs, rfl, by simp only [List.length_cons] at h1; omega, h2⟩
  constructor
  · intro h
    rcases hq : bitlistFromHex s with v | e | _
    · rw [hq] at h; cases h
    · rw [hq] at h
      have : failureOf (hexString s) = some f := by
        rw [bitlistFromHex] at hq
        rcases hr : hexString s with bs | e' | _
        · rw [hr, Out.bind] at hq
          rcases hb : bitlistDeserialize bs with x | e' | _
          · rw [hb] at hq; cases hq
          · exfalso
            by_cases hne : bs = []
            · rw [hne, bitlistDeserialize_nil] at hb; cases hb
            by_cases hlast : bs.getLast hne = 0#8
            · rw [bitlistDeserialize_last_zero bs hne hlast] at hb; cases hb
            · rw [bitlistDeserialize_ok bs hne hlast] at hb; cases hb
          · rw [hb] at hq; cases hq
        · rw [hr] at hq; cases hq; exact h
        · rw [hr] at hq; cases hq
      exact .inl ((hexString_fails s f).1 this)
    · rw [hq] at h
      cases h
      obtain ⟨h1, h2, h3 | h3 | h3⟩ := hub.1 hq
      · exact .inl (.inr ⟨rfl, h1, h2, .inl h3⟩)
      · exact .inl (.inr ⟨rfl, h1, h2, .inr h3⟩)
      · exact .inr ⟨rfl, h1, h2, h3⟩
  · rintro (h | ⟨rfl, h1, h2, h3⟩)
    · have := (hexString_fails s f).2 h
      rw [bitlistFromHex]
      rcases hr : hexString s with bs | e' | _
      · rw [hr] at this; cases this
      · rw [hr] at this; exact this
      · rw [hr] at this; exact this
    · rw [hub.2 ⟨h1, h2, .inr (.inr h3)⟩]; rfl

theorem decodeElems_fails {α : Type} (g : Handle → Out (Bool × α)) (R : Node → Failure → Prop) :
    (l : List Node) → (∀ m ∈ l, ∀ h, failure (g (some m)) = some h ↔ R m h) → (f : Failure) →
    (failureOf (decodeElems g l) = some f ↔ SeqFails R l f)
  | [], _, f => by
    rw [SeqFails]
    constructor
    · intro h; cases h
    · rintro ⟨a, m, b, _, h, -⟩; simp at h
  | n :: ns, hR, f => by
    have ih := decodeElems_fails g R ns (fun m hm => hR m (by simp [hm])) f
    have hn := hR n (by simp)
    have key : failureOf (decodeElems g (n :: ns)) =
        match failure (g (some n)) with
        | none => failureOf (decodeElems g ns)
        | some h => some h.ofElement := by
      rw [decodeElems, asT]
      rcases g (some n) with ⟨_ | _, v⟩ | e | _
      · rfl
      · show failureOf ((decodeElems g ns).map _) = _
        rw [failureOf_map]; rfl
      · rfl
      · rfl
    rw [key]
    cases hc : failure (g (some n)) with
    | none =>
      simp only []
      have hno : ∀ h, ¬ R n h := fun h hr => by rw [(hn h).2 hr] at hc; cases hc
      rw [ih, SeqFails, SeqFails]
      constructor
      · rintro ⟨a, m, b, h, rfl, h1, h2, h3⟩
        refine ⟨n :: a, m, b, h, rfl, ?_, h2, h3⟩
        intro x hx
        rcases List.mem_cons.1 hx with rfl | hx
        · exact hno
        · exact h1 x hx
      · rintro ⟨a, m, b, h, e, h1, h2, h3⟩
        cases a with
        | nil => cases e; exact absurd h2 (hno h)
        | cons x a => cases e; exact ⟨a, m, b, h, rfl, fun y hy => h1 y (by simp [hy]), h2, h3⟩
    | some h =>
      simp only [Option.some.injEq]
      have hr := (hn h).1 hc
      constructor
      · rintro rfl
        exact ⟨[], n, ns, h, rfl, by simp, hr, rfl⟩
      · rintro ⟨a, m, b, h', e, h1, h2, h3⟩
        cases a with
        | nil =>
          cases e
          have := (hn h').2 h2
          rw [hc] at this
          cases this
          exact h3.symm
        | cons x a => cases e; exact absurd hr (h1 n (by simp) h)

mutual
theorem decode_fails : (t : Ty) → noEmpty t = true → (old : t.denote) → (node : Node) → (f : Failure) →
    (failure (decode t old (some node)) = some f ↔ Fails t node f)
  | .uint64, _, old, node, f => by
    rw [decode, Fails]
    cases node with
    | scalar s =>
      simp only [scalar?, Out.map, Node.scalar.injEq]
      have key : (∃ v, readU64 s old = (true, v)) ↔ ∃ s' k, s = s' ∧ IsNumeral s' k ∧ k < 2 ^ 64 := by
        constructor
        · rintro ⟨v, h⟩
          exact ⟨s, v.toNat, rfl, (readU64_iff s old v).1 h, v.isLt⟩
        · rintro ⟨_, k, rfl, h1, h2⟩
          exact ⟨BitVec.ofNat 64 k, (readU64_iff s old _).2 (by rw [BitVec.toNat_ofNat, Nat.mod_eq_of_lt h2]; exact h1)⟩
      rw [← key]
      rcases hr : readU64 s old with ⟨_ | _, v⟩
      · simp [failure, eq_comm]
      · simp [failure]
    | _ => simp [scalar?, Out.map, failure, eq_comm]
  | .boolean, _, old, node, f => by
    rw [decode, Fails]
    cases node with
    | scalar s =>
      simp only [scalar?, Out.map, Node.scalar.injEq]
      have key : (∃ b, readBool s = some b) ↔ ∃ b, ∃ w ∈ boolWords b, s = ascii w := by simp only [readBool_iff]
      rw [← key]
      cases readBool s with
      | none => simp [failure, eq_comm]
      | some b => simp [failure]
    | _ => simp [scalar?, Out.map, failure, eq_comm]
  | .bytes k, _, old, node, f => by
    rw [decode, Fails]
    cases node with
    | scalar s =>
      simp only [scalar?, Out.bind]
      rw [failure_map_true, bytesFromStr_fails]
      simp [NotScalar]
    | _ => simp [scalar?, Out.bind, failure, eq_comm, NotScalar]
  | .bitvector k, _, old, node, f => by
    rw [decode, Fails]
    cases node with
    | scalar s =>
      simp only [scalar?, Out.bind]
      rw [failure_map_true, bitvectorFromHex, failureOf_map, hexString_fails]
      simp [NotScalar]
    | _ => simp [scalar?, Out.bind, failure, eq_comm, NotScalar]
  | .bitlist k, _, old, node, f => by
    rw [decode, Fails]
    cases node with
    | scalar s =>
      simp only [scalar?, Out.bind]
      rw [failure_map_true, bitlistFromHex_fails]
      simp [NotScalar]
    | _ => simp [scalar?, Out.bind, failure, eq_comm, NotScalar]
  | .vector t k, ht, old, node, f => by
    rw [noEmpty] at ht
    rw [decode, Fails]
    cases node with
    | seq l =>
      have ih := decodeElems_fails (fun x => decode t t.dflt x) (fun m g => Fails t m g) l (fun m _ h => decode_fails t ht _ m h) f
      simp only [seq?, Out.bind, Node.seq.injEq, forall_eq', exists_eq_left']
      split
      · rename_i hl
        rw [failure_map_true, ih]
        simp [hl]
      · rename_i hl
        simp [failure, hl, eq_comm]
    | _ => simp [seq?, Out.bind, failure, eq_comm]
  | .listF t k, ht, old, node, f => by
    rw [noEmpty] at ht
    rw [decode, Fails]
    cases node with
    | seq l =>
      have ih := decodeElems_fails (fun x => decode t t.dflt x) (fun m g => Fails t m g) l (fun m _ h => decode_fails t ht _ m h) f
      simp only [seq?, Out.bind, Node.seq.injEq, exists_eq_left']
      rw [failure_map_true, ih]
      simp [NotSeq]
    | _ => simp [seq?, Out.bind, failure, eq_comm, NotSeq]
  | .listV t k, ht, old, node, f => by
    rw [noEmpty] at ht
    rw [decode, Fails]
    cases node with
    | seq l =>
      have ih := decodeElems_fails (fun x => decode t t.dflt x) (fun m g => Fails t m g) l (fun m _ h => decode_fails t ht _ m h) f
      simp only [seq?, Out.bind, Node.seq.injEq, exists_eq_left']
      rw [failure_map_true, ih]
      simp [NotSeq]
    | _ => simp [seq?, Out.bind, failure, eq_comm, NotSeq]
  | .container _ _ ps, ht, old, node, f => by
    rw [decode, Fails]
    cases ps with
    | nil => cases ht
    | cons name t ps =>
      have ht' : noEmptyParts (.cons name t ps) = true := ht
      have hne : ∀ a b, t ≠ .container a b .nil := by rintro a b rfl; simp [noEmpty] at ht
      cases node with
      | map l =>
        rw [decodeParts_fails _ ht' old l f]
        simp
      | null =>
        rw [decodeParts]
        simp only [subscript, Out.bind]
        rw [decode_missing t _ hne]
        simp [failure, eq_comm]
      | seq l =>
        rw [decodeParts]
        simp only [subscript, Out.bind]
        rw [decode_missing t _ hne]
        simp [failure, eq_comm]
      | scalar s =>
        rw [decodeParts]
        simp only [subscript, Out.bind, failure, Option.some.injEq]
        constructor
        · rintro rfl; exact .inr (.inl ⟨rfl, s, rfl⟩)
        · rintro (⟨-, h | ⟨l, h⟩⟩ | ⟨rfl, -⟩ | ⟨l, h, -⟩)
          · cases h
          · cases h
          · rfl
          · cases h

theorem decodeParts_fails : (ps : Parts) → noEmptyParts ps = true → (old : ps.denote) → (l : List (Node × Node)) → (f : Failure) →
    (failure (decodeParts ps old (some (.map l))) = some f ↔ FailsParts ps l f)
  | .nil, _, old, l, f => by
    rw [decodeParts, FailsParts]
    simp [failure]
  | .cons name t ps, ht, old, l, f => by
    rw [noEmptyParts, Bool.and_eq_true] at ht
    have hne : ∀ a b, t ≠ .container a b .nil := by rintro a b rfl; simp [noEmpty] at ht
    have ih2 := decodeParts_fails ps ht.2 old.2 l f
    rw [decodeParts, FailsParts, show chars name = ascii name from rfl]
    cases hq : (l.find? fun e => keyIs (ascii name) e.1) with
    | none =>
      have hs : subscript (some (.map l)) (ascii name) = .ok none := by rw [subscript, hq]; rfl
      have hno : ∀ e ∈ l, e.1 ≠ .scalar (ascii name) := by
        intro e he hk
        have := List.find?_eq_none.1 hq e he
        rw [(keyIs_iff _ _).2 hk] at this
        exact this rfl
      rw [hs, Out.bind, decode_missing t _ hne]
      simp only [Out.bind, failure, Option.some.injEq]
      constructor
      · rintro rfl; exact .inl ⟨rfl, hno⟩
      · rintro (⟨rfl, -⟩ | ⟨a, m, b, h1, -⟩)
        · rfl
        · exact absurd rfl (hno (.scalar (ascii name), m) (by rw [h1]; simp))
    | some e =>
      have hs : subscript (some (.map l)) (ascii name) = .ok (some e.2) := by rw [subscript, hq]; rfl
      obtain ⟨a, b, h1, h2⟩ := (subscript_iff l _ e.2).1 hs
      have huniq : ∀ a' m' b', l = a' ++ (.scalar (ascii name), m') :: b' → (∀ e ∈ a', e.1 ≠ .scalar (ascii name)) → m' = e.2 := by
        intro a' m' b' h1' h2'
        have := (subscript_iff l _ m').2 ⟨a', b', h1', h2'⟩
        rw [hs] at this
        cases this
        rfl
      have ih := decode_fails t ht.1 old.1 e.2
      rw [hs, Out.bind]
      have key : failure ((decode t old.1 (some e.2)).bind fun (b, v) =>
            if b then (decodeParts ps old.2 (some (.map l))).map fun (b, vs) => (b, (v, vs)) else .ok (false, (v, old.2))) =
          match failure (decode t old.1 (some e.2)) with
          | none => failure (decodeParts ps old.2 (some (.map l)))
          | some g => some g := by
        rcases decode t old.1 (some e.2) with ⟨_ | _, v⟩ | e | _
        · rfl
        · simp only [Out.bind, if_true, failure]
          rcases decodeParts ps old.2 (some (.map l)) with ⟨_ | _, v⟩ | e | _ <;> rfl
        · rfl
        · rfl
      refine (Eq.congr_left key).trans ?_
      have hin : ¬ ∀ e ∈ l, e.1 ≠ .scalar (ascii name) := fun h => absurd rfl (h (.scalar (ascii name), e.2) (by rw [h1]; simp))
      cases hc : failure (decode t old.1 (some e.2)) with
      | none =>
        have hno : ∀ g, ¬ Fails t e.2 g := fun g hg => by rw [(ih g).2 hg] at hc; cases hc
        simp only []
        rw [ih2]
        constructor
        · intro h
          exact .inr ⟨a, e.2, b, h1, h2, .inr ⟨hno, h⟩⟩
        · rintro (⟨-, h⟩ | ⟨a', m', b', h1', h2', h⟩)
          · exact absurd h hin
          · cases huniq a' m' b' h1' h2'
            rcases h with h | h
            · exact absurd h (hno f)
            · exact h.2
      | some g =>
        have hg := (ih g).1 hc
        simp only [Option.some.injEq]
        constructor
        · rintro rfl
          exact .inr ⟨a, e.2, b, h1, h2, .inl hg⟩
        · rintro (⟨-, h⟩ | ⟨a', m', b', h1', h2', h⟩)
          · exact absurd h hin
          · cases huniq a' m' b' h1' h2'
            rcases h with h | h
            · have := (ih f).2 h
              rw [hc] at this
              cases this; rfl
            · exact absurd hg (h.1 g)
end

end Mammon.Yaml
