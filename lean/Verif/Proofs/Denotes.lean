import Verif.Proofs.Yaml
/-!
# Decoding a tree that denotes a value
-/

namespace Mammon.Yaml

open Spec (Denotes DenotesParts IsDecimal IsHexText wellNamed wellNamedParts bitlistsShort bitlistsShortParts digitsValue ascii)

theorem digitsValue_eq (s : List Byte) : digitsValue s = decFold 0 s := by
  rw [digitsValue, decFold]
  congr 1
  funext a c
  omega

theorem readU64_isDecimal {s : List Byte} {v : BitVec 64} (h : IsDecimal s v.toNat) (old : BitVec 64) : readU64 s old = (true, v) := by
  obtain ⟨hne, hd, hz, hv⟩ := h
  rw [digitsValue_eq] at hv
  have ht := takeDigits_ten _ hd 0 false
  rw [hv] at ht
  cases hs : s with
  | nil => exact absurd hs hne
  | cons c cs =>
    subst hs
    have hc := hd c (by simp)
    by_cases hc0 : c = 0x30#8
    · subst hc0
      have := hz rfl
      simp only [List.length_cons] at this
      obtain rfl : cs = [] := List.eq_nil_of_length_eq_zero (by omega)
      obtain rfl : v = 0#64 := BitVec.eq_of_toNat_eq (by rw [← hv]; rfl)
      rfl
    · have hc1 : c ≠ 0x2d#8 := by rintro rfl; simp at hc
      have hc2 : c ≠ 0x2b#8 := by rintro rfl; simp at hc
      have hn : takeNumber (c :: cs) = takeDigits 10 (c :: cs) 0 false := by
        rw [takeNumber]
        · rintro x h; cases h; exact hc0 rfl
        · rintro x h; cases h; exact hc0 rfl
        · rintro x h; cases h; exact hc0 rfl
      have hbody : (match c :: cs with | 0x2b#8 :: cs => cs | cs => cs) = c :: cs := by
        split
        · rename_i h2; cases h2; exact absurd rfl hc2
        · rfl
      have hr : readU64 (c :: cs) old = match takeNumber (match c :: cs with | 0x2b#8 :: cs => cs | cs => cs) with
          | (_, false, _) => (false, 0#64)
          | (n, true, rest) => if 2 ^ 64 ≤ n then (false, BitVec.ofNat 64 (2 ^ 64 - 1)) else (rest.all isSpace, BitVec.ofNat 64 n) := by
        rw [readU64.eq_def]
        split
        · rename_i h2; cases h2; exact absurd rfl hc1
        · rfl
      rw [hr, hbody, hn, ht]
      have := v.isLt
      simp only [List.isEmpty_cons, Bool.not_false, Bool.or_true]
      rw [if_neg (by omega)]
      simp

theorem decodeElems_forall₂ {α : Type} {R : α → Node → Prop} {f : Handle → Out (Bool × α)} :
    ∀ {l : List α} {ns : List Node}, (∀ x ∈ l, ∀ n, R x n → f (some n) = .ok (true, x)) → List.Forall₂ R l ns → decodeElems f ns = .ok l
  | [], _, _, h => by cases h; rfl
  | x :: l, _, hf, h => by
    cases h with
    | cons h1 h2 =>
      rw [decodeElems, (asT_iff f _ x).2 (hf x (by simp) _ h1), Out.bind, decodeElems_forall₂ (fun y hy => hf y (by simp [hy])) h2]
      rfl

theorem subscript_first {l a b : List (Node × Node)} {key : List Byte} {m : Node} (hl : l = a ++ (.scalar key, m) :: b)
    (ha : ∀ e ∈ a, e.1 ≠ .scalar key) : subscript (some (.map l)) key = .ok (some m) := by
  subst hl
  rw [subscript, List.find?_append, List.find?_eq_none.2]
  · simp [keyIs]
  · intro e he h
    have := ha e he
    revert h this
    rcases e with ⟨_ | s | _ | _, _⟩ <;> simp [keyIs]

mutual
theorem decode_denotes : (t : Ty) → wellNamed t = true → (v : t.denote) → bitlistsShort t v = true → (node : Node) → Denotes t v node →
    (old : t.denote) → decode t old (some node) = .ok (true, v)
  | .uint64, _, v, _, node, hn, old => by
    rw [Denotes] at hn
    obtain ⟨s, rfl, hs⟩ := hn
    rw [decode]
    simp only [scalar?, Out.map]
    rw [readU64_isDecimal hs]
  | .boolean, _, v, _, node, hn, old => by
    rw [Denotes] at hn
    subst hn
    rw [decode]
    simp only [scalar?, Out.map]
    have : readBool (ascii (if v then "true" else "false")) = some v := by cases v <;> decide +kernel
    rw [this]
  | .bytes n, _, v, _, node, hn, old => by
    rw [Denotes] at hn
    obtain ⟨s, rfl, hs⟩ := hn
    rw [decode]
    simp only [scalar?, Out.bind]
    rw [bytesFromStr_hexText hs]
    simp only [Out.map]
    rw [toVec_val]
  | .bitvector n, hw, v, _, node, hn, old => by
    rw [wellNamed, decide_eq_true_eq] at hw
    rw [Denotes] at hn
    obtain ⟨s, rfl, hs⟩ := hn
    rw [← bitvectorSerialize_eq_spec _ _ v.2] at hs
    rw [decode]
    simp only [scalar?, Out.bind]
    rw [bitvector_hexText hw hs]
    rfl
  | .bitlist n, _, v, hb, node, hn, old => by
    rw [Denotes] at hn
    obtain ⟨s, rfl, hs⟩ := hn
    rw [← bitlistSerialize_eq_spec] at hs
    rw [bitlistsShort, decide_eq_true_eq] at hb
    rw [decode]
    simp only [scalar?, Out.bind]
    rw [bitlist_hexText hb hs]
    rfl
  | .vector t n, hw, v, hb, node, hn, old => by
    rw [wellNamed] at hw
    rw [bitlistsShort, List.all_eq_true] at hb
    rw [Denotes] at hn
    obtain ⟨l, rfl, hs⟩ := hn
    rw [decode]
    simp only [seq?, Out.bind]
    rw [if_pos (hs.length_eq.symm.trans v.2), decodeElems_forall₂ (fun x hx m hm => decode_denotes t hw x (hb x hx) m hm _) hs]
    simp only [Out.map]
    rw [toVec_val]
  | .listF t n, hw, v, hb, node, hn, old => by
    rw [wellNamed] at hw
    rw [bitlistsShort, List.all_eq_true] at hb
    rw [Denotes] at hn
    obtain ⟨l, rfl, hs⟩ := hn
    rw [decode]
    simp only [seq?, Out.bind]
    rw [decodeElems_forall₂ (fun x hx m hm => decode_denotes t hw x (hb x hx) m hm _) hs]
    rfl
  | .listV t n, hw, v, hb, node, hn, old => by
    rw [wellNamed] at hw
    rw [bitlistsShort, List.all_eq_true] at hb
    rw [Denotes] at hn
    obtain ⟨l, rfl, hs⟩ := hn
    rw [decode]
    simp only [seq?, Out.bind]
    rw [decodeElems_forall₂ (fun x hx m hm => decode_denotes t hw x (hb x hx) m hm _) hs]
    rfl
  | .container _ _ ps, hw, v, hb, node, hn, old => by
    rw [wellNamed] at hw
    rw [bitlistsShort] at hb
    rw [Denotes] at hn
    obtain ⟨l, rfl, hs⟩ := hn
    rw [decode]
    exact decodeParts_denotes ps hw v hb l hs old

theorem decodeParts_denotes : (ps : Parts) → wellNamedParts ps = true → (v : ps.denote) → bitlistsShortParts ps v = true →
    (l : List (Node × Node)) → DenotesParts ps v l → (old : ps.denote) → decodeParts ps old (some (.map l)) = .ok (true, v)
  | .nil, _, v, _, l, _, old => rfl
  | .cons name t ps, hw, v, hb, l, hl, old => by
    simp only [wellNamedParts, Bool.and_eq_true] at hw
    rw [bitlistsShortParts, Bool.and_eq_true] at hb
    rw [DenotesParts] at hl
    obtain ⟨⟨a, m, b, h1, h2, h3⟩, h4⟩ := hl
    rw [decodeParts, show chars name = ascii name from rfl, subscript_first h1 h2]
    simp only [Out.bind]
    rw [decode_denotes t hw.1.2 v.1 hb.1 m h3 old.1]
    simp only [if_true]
    rw [decodeParts_denotes ps hw.2 v.2 hb.2 l h4 old.2]
    rfl
end

/-! ## Every value is denoted by a tree -/

theorem decimal_isDecimal (n : Nat) : IsDecimal (decimal n) n := by
  refine ⟨decimal_ne_nil n, decimal_digits n, fun h => ?_, by rw [digitsValue_eq, decFold_decimal]⟩
  by_cases h0 : n = 0
  · subst h0; rw [decimal]; rfl
  · exact absurd rfl (decimal_head n (by omega) _ h)

theorem exists_forall₂ {α β : Type} {R : α → β → Prop} : ∀ (l : List α), (∀ x ∈ l, ∃ y, R x y) → ∃ m, List.Forall₂ R l m
  | [], _ => ⟨[], .nil⟩
  | x :: l, h => by
    obtain ⟨y, hy⟩ := h x (by simp)
    obtain ⟨m, hm⟩ := exists_forall₂ l fun z hz => h z (by simp [hz])
    exact ⟨y :: m, .cons hy hm⟩

section
variable (toText : List Byte → List Byte) (hT : ∀ bs, IsHexText (toText bs) bs)
include hT

mutual
theorem denotes_exists : (t : Ty) → wellNamed t = true → (v : t.denote) → ∃ node, Denotes t v node
  | .uint64, _, v => ⟨_, by rw [Denotes]; exact ⟨_, rfl, decimal_isDecimal _⟩⟩
  | .boolean, _, v => ⟨_, by rw [Denotes]⟩
  | .bytes n, _, v => ⟨_, by rw [Denotes]; exact ⟨_, rfl, hT _⟩⟩
  | .bitvector n, _, v => ⟨_, by rw [Denotes]; exact ⟨_, rfl, hT _⟩⟩
  | .bitlist n, _, v => ⟨_, by rw [Denotes]; exact ⟨_, rfl, hT _⟩⟩
  | .vector t n, hw, v => by
    rw [wellNamed] at hw
    obtain ⟨m, hm⟩ := exists_forall₂ v.1 fun x _ => denotes_exists t hw x
    exact ⟨.seq m, by rw [Denotes]; exact ⟨m, rfl, hm⟩⟩
  | .listF t n, hw, v => by
    rw [wellNamed] at hw
    obtain ⟨m, hm⟩ := exists_forall₂ v fun x _ => denotes_exists t hw x
    exact ⟨.seq m, by rw [Denotes]; exact ⟨m, rfl, hm⟩⟩
  | .listV t n, hw, v => by
    rw [wellNamed] at hw
    obtain ⟨m, hm⟩ := exists_forall₂ v fun x _ => denotes_exists t hw x
    exact ⟨.seq m, by rw [Denotes]; exact ⟨m, rfl, hm⟩⟩
  | .container _ _ ps, hw, v => by
    rw [wellNamed] at hw
    obtain ⟨es, he⟩ := denotesParts_exists ps hw v
    exact ⟨.map es, by rw [Denotes]; exact ⟨es, rfl, he [] (by simp)⟩⟩

theorem denotesParts_exists : (ps : Parts) → wellNamedParts ps = true → (v : ps.denote) →
    ∃ es, ∀ pre : List (Node × Node), (∀ e ∈ pre, ∀ n ∈ Spec.names ps, e.1 ≠ .scalar (ascii n)) → DenotesParts ps v (pre ++ es)
  | .nil, _, v => ⟨[], fun _ _ => by rw [DenotesParts]; trivial⟩
  | .cons name t ps, hw, v => by
    have hasc := wellNamedParts_ascii _ hw
    simp only [wellNamedParts, Bool.and_eq_true, decide_eq_true_eq, List.all_eq_true] at hw
    obtain ⟨m, hm⟩ := denotes_exists t hw.1.2 v.1
    obtain ⟨es, he⟩ := denotesParts_exists ps hw.2 v.2
    refine ⟨(.scalar (ascii name), m) :: es, fun pre hp => ?_⟩
    rw [DenotesParts]
    refine ⟨⟨pre, m, es, rfl, fun e h => hp e h name (by simp [Spec.names]), hm⟩, ?_⟩
    have := he (pre ++ [(.scalar (ascii name), m)]) fun e h n hn => by
      rcases List.mem_append.1 h with h | h
      · exact hp e h n (by simp [Spec.names, hn])
      · rw [List.mem_singleton] at h
        subst h
        intro heq
        have := chars_inj (hasc name (by simp [Spec.names])) (hasc n (by simp [Spec.names, hn])) (Node.scalar.inj heq)
        subst this
        exact hw.1.1.1 hn
    simpa using this
end
end

end Mammon.Yaml
