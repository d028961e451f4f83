import Verif.Spec.YamlLeft
import Verif.Proofs.Fails
/-!
# What a failed YAML decode leaves
-/

namespace Mammon.Yaml

open Spec

theorem digitOf_none_iff (base : Nat) (c : Byte) : digitOf base c = none ↔ ∀ d, Spec.hexDigit c.toNat = some d → base ≤ d := by
  rw [digitOf_eq]
  cases h : Spec.hexDigit c.toNat with
  | none => simp
  | some d =>
    show (if d < base then some d else none) = none ↔ _
    split
    · rename_i hd
      constructor
      · intro h; cases h
      · intro h; exact absurd (h d rfl) (by omega)
    · rename_i hd
      exact ⟨fun _ d' h => by cases h; omega, fun _ => rfl⟩

theorem takeNumber_begins (s rest : List Byte) (n : Nat) : takeNumber s = (n, true, rest) ↔ Begins s n rest := by
  constructor
  · intro h
    unfold takeNumber at h
    split at h
    · rename_i cs
      obtain ⟨hs, r, ds, rfl, h1, h2⟩ := takeDigits_split 16 cs
      rw [takeDigits_eq 16 h1 r h2] at h
      simp only [Bool.false_or, Prod.mk.injEq, Bool.not_eq_true'] at h
      obtain ⟨rfl, h3, rfl⟩ := h
      exact ⟨16, [0x30#8, 0x78#8], hs, ds, rfl, h1, rfl, fun c hc => (digitOf_none_iff 16 c).1 (h2 c hc),
        .inl ⟨rfl, .inl rfl, by rintro rfl; simp at h3⟩⟩
    · rename_i cs
      obtain ⟨hs, r, ds, rfl, h1, h2⟩ := takeDigits_split 16 cs
      rw [takeDigits_eq 16 h1 r h2] at h
      simp only [Bool.false_or, Prod.mk.injEq, Bool.not_eq_true'] at h
      obtain ⟨rfl, h3, rfl⟩ := h
      exact ⟨16, [0x30#8, 0x58#8], hs, ds, rfl, h1, rfl, fun c hc => (digitOf_none_iff 16 c).1 (h2 c hc),
        .inl ⟨rfl, .inr rfl, by rintro rfl; simp at h3⟩⟩
    · rename_i cs hx1 hx2
      obtain ⟨hs, r, ds, rfl, h1, h2⟩ := takeDigits_split 8 cs
      rw [takeDigits_eq 8 h1 r h2] at h
      simp only [Bool.true_or, Prod.mk.injEq, true_and] at h
      obtain ⟨rfl, rfl⟩ := h
      refine ⟨8, [0x30#8], hs, ds, rfl, h1, rfl, fun c hc => (digitOf_none_iff 8 c).1 (h2 c hc), .inr (.inl ⟨rfl, rfl, fun c hc => ?_⟩)⟩
      cases hq : hs ++ r with
      | nil => rw [hq] at hc; cases hc
      | cons x xs =>
        rw [hq] at hc
        cases hc
        exact ⟨fun e => hx1 xs (by rw [hq, e]), fun e => hx2 xs (by rw [hq, e])⟩
    · rename_i hx1 hx2 hx3
      obtain ⟨hs, r, ds, rfl, h1, h2⟩ := takeDigits_split 10 s
      rw [takeDigits_eq 10 h1 r h2] at h
      simp only [Bool.false_or, Prod.mk.injEq, Bool.not_eq_true'] at h
      obtain ⟨rfl, h3, rfl⟩ := h
      refine ⟨10, [], hs, ds, rfl, h1, rfl, fun c hc => (digitOf_none_iff 10 c).1 (h2 c hc),
        .inr (.inr ⟨rfl, rfl, by rintro rfl; simp at h3, fun hh => ?_⟩)⟩
      cases hs with
      | nil => cases hh
      | cons x xs => cases hh; exact hx3 (xs ++ r) rfl
  · rintro ⟨base, pre, hs, ds, rfl, h1, rfl, h2, h⟩
    have h2' : ∀ c ∈ rest.head?, digitOf base c = none := fun c hc => (digitOf_none_iff base c).2 (h2 c hc)
    rcases h with ⟨rfl, hp, hn⟩ | ⟨rfl, rfl, hn⟩ | ⟨rfl, rfl, hn, h0⟩
    · have he : hs.isEmpty = false := by cases hs with | nil => exact absurd rfl hn | cons => rfl
      rcases hp with rfl | rfl
      · show takeDigits 16 (hs ++ rest) 0 false = _
        rw [takeDigits_eq 16 h1 rest h2', he]; rfl
      · show takeDigits 16 (hs ++ rest) 0 false = _
        rw [takeDigits_eq 16 h1 rest h2', he]; rfl
    · have : takeNumber (0x30#8 :: (hs ++ rest)) = takeDigits 8 (hs ++ rest) 0 true := by
        rw [takeNumber]
        · intro x e
          have := (hn 0x78#8 (by rw [e]; rfl)).1
          exact this rfl
        · intro x e
          have := (hn 0x58#8 (by rw [e]; rfl)).2
          exact this rfl
      show takeNumber (0x30#8 :: (hs ++ rest)) = _
      rw [this, takeDigits_eq 8 h1 rest h2']; rfl
    · cases hs with
      | nil => exact absurd rfl hn
      | cons c cs =>
        have hc0 : c ≠ 0x30#8 := fun e => h0 (by rw [e]; rfl)
        have : takeNumber (c :: cs ++ rest) = takeDigits 10 (c :: cs ++ rest) 0 false := by
          rw [List.cons_append, takeNumber]
          · exact fun x h => hc0 (List.cons.inj h).1
          · exact fun x h => hc0 (List.cons.inj h).1
          · exact fun x h => hc0 (List.cons.inj h).1
        show takeNumber (c :: cs ++ rest) = _
        rw [this, takeDigits_eq 10 h1 rest h2']; rfl

theorem readU64_unsigned (s : List Byte) (old : BitVec 64) : readU64 s old =
    if s.head? = some 0x2d#8 then (false, old) else
      match takeNumber (unsigned s) with
      | (_, false, _) => (false, 0#64)
      | (n, true, rest) => if 2 ^ 64 ≤ n then (false, BitVec.ofNat 64 (2 ^ 64 - 1)) else (rest.all isSpace, BitVec.ofNat 64 n) := by
  cases s with
  | nil => rfl
  | cons c cs =>
    by_cases h1 : c = 0x2d#8
    · subst h1; rfl
    rw [List.head?_cons, if_neg (fun e => h1 (Option.some.inj e)), unsigned, List.head?_cons]
    by_cases h2 : c = 0x2b#8
    · subst h2; rfl
    rw [if_neg (fun e => h2 (Option.some.inj e)), readU64]
    · rfl
    · exact fun x e => h1 (List.cons.inj e).1
    · exact fun x e => h2 (List.cons.inj e).1

theorem readU64_left (s : List Byte) (old w : BitVec 64) : readU64 s old = (false, w) ↔ IntLeft s old w := by
  rw [readU64_unsigned, IntLeft]
  by_cases h0 : s.head? = some 0x2d#8
  · rw [if_pos h0]
    simp [h0, eq_comm]
  rw [if_neg h0]
  rcases hq : takeNumber (unsigned s) with ⟨n, _ | _, rest⟩
  · have hno : ∀ m r, ¬ Begins (unsigned s) m r := fun m r hb => by
      rw [(takeNumber_begins _ _ _).2 hb] at hq; cases hq
    simp only [Prod.mk.injEq, true_and]
    constructor
    · rintro rfl; exact .inr (.inl ⟨h0, hno, rfl⟩)
    · rintro (⟨h, -⟩ | ⟨-, -, h⟩ | ⟨-, m, r, h, -⟩)
      · exact absurd h h0
      · exact BitVec.eq_of_toNat_eq h.symm
      · exact absurd h (hno m r)
  · have hb := (takeNumber_begins _ _ _).1 hq
    have hu : ∀ m r, Begins (unsigned s) m r → m = n ∧ r = rest := fun m r h => by
      rw [(takeNumber_begins _ _ _).2 h] at hq; cases hq; exact ⟨rfl, rfl⟩
    simp only []
    by_cases hn : 2 ^ 64 ≤ n
    · rw [if_pos hn]
      simp only [Prod.mk.injEq, true_and]
      constructor
      · rintro rfl; exact .inr (.inr ⟨h0, n, rest, hb, .inl ⟨hn, rfl⟩⟩)
      · rintro (⟨h, -⟩ | ⟨-, h, -⟩ | ⟨-, m, r, h, h'⟩)
        · exact absurd h h0
        · exact absurd hb (h n rest)
        · obtain ⟨rfl, rfl⟩ := hu m r h
          rcases h' with ⟨-, h'⟩ | ⟨h', -⟩
          · exact BitVec.eq_of_toNat_eq h'.symm
          · omega
    · rw [if_neg hn]
      have hv : (BitVec.ofNat 64 n).toNat = n := by rw [BitVec.toNat_ofNat, Nat.mod_eq_of_lt (by omega)]
      simp only [Prod.mk.injEq]
      constructor
      · rintro ⟨h1, rfl⟩
        refine .inr (.inr ⟨h0, n, rest, hb, .inr ⟨by omega, ?_, hv⟩⟩)
        obtain ⟨c, hc, h⟩ := List.all_eq_false.1 h1
        exact ⟨c, hc, fun hbl => h ((isSpace_iff c).2 hbl)⟩
      · rintro (⟨h, -⟩ | ⟨-, h, -⟩ | ⟨-, m, r, h, h'⟩)
        · exact absurd h h0
        · exact absurd hb (h n rest)
        · obtain ⟨rfl, rfl⟩ := hu m r h
          rcases h' with ⟨h', -⟩ | ⟨-, ⟨c, hc, hbl⟩, h'⟩
          · exact absurd h' hn
          · exact ⟨List.all_eq_false.2 ⟨c, hc, fun hs => hbl ((isSpace_iff c).1 hs)⟩, BitVec.eq_of_toNat_eq (hv.trans h'.symm)⟩

theorem map_true_ne {α β : Type} (x : Out α) (f : α → β) (w : β) : (x.map fun a => (true, f a)) ≠ .ok (false, w) := by
  rcases x with _ | _ | _ <;> intro h <;> cases h

mutual
theorem decode_left : (t : Ty) → noEmpty t = true → (old w : t.denote) → (node : Node) →
    (decode t old (some node) = .ok (false, w) ↔ Left t old node w)
  | .uint64, _, old, w, node => by
    rw [decode, Left]
    cases node with
    | scalar s =>
      simp only [scalar?, Out.map, Out.ok.injEq, NotScalar, Node.scalar.injEq, exists_eq_left']
      rw [readU64_left]
      constructor
      · exact .inr
      · rintro (⟨h, -⟩ | h)
        · exact absurd rfl (h s)
        · exact h
    | _ => simp [scalar?, Out.map, NotScalar, eq_comm]
  | .boolean, _, old, w, node => by
    rw [decode, Left]
    cases node with
    | scalar s =>
      simp only [scalar?, Out.map, Node.scalar.injEq]
      have key : (∃ b, readBool s = some b) ↔ ∃ b, ∃ w ∈ boolWords b, s = ascii w := by simp only [readBool_iff]
      rw [← key]
      cases readBool s with
      | none => simp [eq_comm]
      | some b => simp
    | _ => simp [scalar?, Out.map, eq_comm]
  | .bytes k, _, old, w, node => by
    rw [decode, Left]
    cases node with
    | scalar s =>
      simp only [scalar?, Out.bind, NotScalar]
      exact ⟨fun h => absurd h (map_true_ne _ _ _), fun h => absurd rfl (h.1 s)⟩
    | _ => simp [scalar?, Out.bind, NotScalar, eq_comm]
  | .bitvector k, _, old, w, node => by
    rw [decode, Left]
    cases node with
    | scalar s =>
      simp only [scalar?, Out.bind, NotScalar]
      exact ⟨fun h => absurd h (map_true_ne _ _ _), fun h => absurd rfl (h.1 s)⟩
    | _ => simp [scalar?, Out.bind, NotScalar, eq_comm]
  | .bitlist k, _, old, w, node => by
    rw [decode, Left]
    cases node with
    | scalar s =>
      simp only [scalar?, Out.bind, NotScalar]
      exact ⟨fun h => absurd h (map_true_ne _ _ _), fun h => absurd rfl (h.1 s)⟩
    | _ => simp [scalar?, Out.bind, NotScalar, eq_comm]
  | .vector t k, _, old, w, node => by
    rw [decode, Left]
    cases node with
    | seq l =>
      simp only [seq?, Out.bind, Node.seq.injEq, forall_eq']
      split
      · rename_i hl
        exact ⟨fun h => absurd h (map_true_ne _ _ _), fun h => absurd hl h.1⟩
      · rename_i hl
        simp [hl, eq_comm]
    | _ => simp [seq?, Out.bind, eq_comm]
  | .listF t k, _, old, w, node => by
    rw [decode, Left]
    cases node with
    | seq l =>
      simp only [seq?, Out.bind, NotSeq]
      exact ⟨fun h => absurd h (map_true_ne _ _ _), fun h => absurd rfl (h.1 l)⟩
    | _ => simp [seq?, Out.bind, NotSeq, eq_comm]
  | .listV t k, _, old, w, node => by
    rw [decode, Left]
    cases node with
    | seq l =>
      simp only [seq?, Out.bind, NotSeq]
      exact ⟨fun h => absurd h (map_true_ne _ _ _), fun h => absurd rfl (h.1 l)⟩
    | _ => simp [seq?, Out.bind, NotSeq, eq_comm]
  | .container _ _ ps, ht, old, w, node => by
    rw [decode, Left]
    cases ps with
    | nil => cases ht
    | cons name t ps =>
      have ht' : noEmptyParts (.cons name t ps) = true := ht
      have hne : ∀ a b, t ≠ .container a b .nil := by rintro a b rfl; simp [noEmpty] at ht
      cases node with
      | map l =>
        rw [decodeParts_left _ ht' old w l]
        simp
      | null =>
        rw [decodeParts]
        simp only [subscript, Out.bind]
        rw [decode_missing t _ hne]
        simp
      | seq l =>
        rw [decodeParts]
        simp only [subscript, Out.bind]
        rw [decode_missing t _ hne]
        simp
      | scalar s =>
        rw [decodeParts]
        simp [subscript, Out.bind]

theorem decodeParts_left : (ps : Parts) → noEmptyParts ps = true → (old w : ps.denote) → (l : List (Node × Node)) →
    (decodeParts ps old (some (.map l)) = .ok (false, w) ↔ LeftParts ps old l w)
  | .nil, _, old, w, l => by
    rw [decodeParts, LeftParts]
    simp
  | .cons name t ps, ht, old, w, l => by
    rw [noEmptyParts, Bool.and_eq_true] at ht
    have hne : ∀ a b, t ≠ .container a b .nil := by rintro a b rfl; simp [noEmpty] at ht
    have ih2 := fun w => decodeParts_left ps ht.2 old.2 w l
    rw [decodeParts, LeftParts, show chars name = ascii name from rfl]
    cases hq : (l.find? fun e => keyIs (ascii name) e.1) with
    | none =>
      have hs : subscript (some (.map l)) (ascii name) = .ok none := by rw [subscript, hq]; rfl
      rw [hs, Out.bind, decode_missing t _ hne]
      constructor
      · intro h; cases h
      · rintro ⟨a, m, b, h1, -⟩
        have := List.find?_eq_none.1 hq (.scalar (ascii name), m) (by rw [h1]; simp)
        rw [(keyIs_iff _ _).2 rfl] at this
        exact absurd rfl this
    | some e =>
      have hs : subscript (some (.map l)) (ascii name) = .ok (some e.2) := by rw [subscript, hq]; rfl
      obtain ⟨a, b, h1, h2⟩ := (subscript_iff l _ e.2).1 hs
      have ih := fun w => decode_left t ht.1 old.1 w e.2
      have ia := fun v => decode_iff t ht.1 v old.1 e.2
      rw [hs, Out.bind]
      have key : ((decode t old.1 (some e.2)).bind fun (b, v) =>
            if b then (decodeParts ps old.2 (some (.map l))).map fun (b, vs) => (b, (v, vs)) else .ok (false, (v, old.2))) = .ok (false, w) ↔
          (Left t old.1 e.2 w.1 ∧ w.2 = old.2) ∨ (Accepts t w.1 e.2 ∧ LeftParts ps old.2 l w.2) := by
        rw [← ih, ← ia, ← ih2]
        obtain ⟨w1, w2⟩ := w
        rcases decode t old.1 (some e.2) with ⟨_ | _, v⟩ | e | _
        · simp [Out.bind, eq_comm]
        · simp only [Out.bind, if_true]
          rcases decodeParts ps old.2 (some (.map l)) with ⟨_ | _, v⟩ | e | _ <;> simp [Out.map]
        · simp [Out.bind]
        · simp [Out.bind]
      refine key.trans ⟨fun h => ⟨a, e.2, b, h1, h2, h⟩, ?_⟩
      rintro ⟨a', m', b', h1', h2', h⟩
      have := (subscript_iff l _ m').2 ⟨a', b', h1', h2'⟩
      rw [hs] at this
      cases this
      exact h
end

end Mammon.Yaml
