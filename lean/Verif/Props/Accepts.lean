import Verif.Proofs.Accepts
import Verif.Props.TestDriver
/-!
# Which YAML trees are decoded: property C59
-/

namespace Mammon

open Yaml (Node)

/-- The classes of the repository have members. -/
theorem InRepo.noEmpty {t : Ty} (h : InRepo t) : Spec.noEmpty t = true := by
  obtain ⟨p, hp, x, hx, rfl⟩ := h
  have : ∀ p ∈ [mainnet, minimal], ∀ x ∈ Objects.all p, Spec.noEmpty x.2 = true := by decide +kernel
  exact this p hp x hx

/-- **C59** Decoding a tree succeeds with a value if and only if the tree is one of those listed by `Spec.Accepts` for
that value. -/
theorem C59_accepts (t : Ty) (ht : Spec.noEmpty t = true) (v old : t.denote) (node : Node) :
    Yaml.decode t old (some node) = .ok (true, v) ↔ Spec.Accepts t v node := Yaml.decode_iff t ht v old node

/-- **C59** for the classes of the repository. -/
theorem C59_classes (t : Ty) (ht : InRepo t) (v old : t.denote) (node : Node) :
    Yaml.decode t old (some node) = .ok (true, v) ↔ Spec.Accepts t v node := Yaml.decode_iff t ht.noEmpty v old node

-- a checkpoint: "+0x1f" and blanks for the epoch, "0x" for the root
example : Spec.noEmpty Objects.checkpoint = true ∧ Spec.Accepts Objects.checkpoint (31#64, ⟨List.replicate 32 0#8, rfl⟩, ())
    (.map [(.scalar (Yaml.chars "root"), .scalar (Yaml.chars "0x")), (.scalar (Yaml.chars "epoch"), .scalar (Yaml.chars "+0x1f  "))]) := by
  refine ⟨by decide, ?_⟩
  show ∃ l, _ = Node.map l ∧ Spec.AcceptsParts (.cons "epoch" .uint64 (.cons "root" (.bytes 32) .nil)) _ l
  refine ⟨_, rfl, ?_⟩
  refine ⟨⟨[(.scalar (Yaml.chars "root"), .scalar (Yaml.chars "0x"))], _, [], rfl, ?_, ?_⟩, ⟨[], _, _, rfl, by simp, ?_⟩, trivial⟩
  · intro e he
    rw [List.mem_singleton.1 he]
    intro h
    exact absurd (Node.scalar.inj h) (by decide +kernel)
  · refine ⟨_, rfl, [0x2b#8], [0x30#8, 0x78#8, 0x31#8, 0x66#8], [0x20#8, 0x20#8], by decide +kernel, Or.inr rfl,
      Or.inr (Or.inl ⟨0x78#8, [0x31#8, 0x66#8], [1, 15], rfl, Or.inl rfl, by simp, ⟨by decide, by decide⟩, by decide⟩), ?_⟩
    simp [Spec.IsBlank]
  · exact ⟨_, [], rfl, ⟨[], by decide +kernel, by simp, rfl⟩, by simp, rfl⟩

/-- **C59** In particular a tree is decoded to one value at most, whatever the text of its scalars. -/
theorem C59_unique (t : Ty) (ht : Spec.noEmpty t = true) (v w : t.denote) (node : Node)
    (hv : Spec.Accepts t v node) (hw : Spec.Accepts t w node) : v = w := by
  have h1 := (Yaml.decode_iff t ht v v node).2 hv
  have h2 := (Yaml.decode_iff t ht w v node).2 hw
  rw [h1] at h2
  cases h2
  rfl

/-- **C59** The text of a bit vector may be of any even length below 2^31, but after 2^30 digits the bits are stored from the first one on again: for text of
2^30 digits and two more, whatever they are, the first 8 bits are those of the last two digits. -/
theorem C59_overwrites (n : Nat) (old : Vec Bool n) (cs : List Byte) (hc : cs.length = 2 ^ 30) (a b : Byte) (h7 : ∀ c ∈ cs ++ [a, b], c.toNat < 128) :
    ∃ v : Vec Bool n, Yaml.decode (.bitvector n) old (some (.scalar ([0x30#8, 0x78#8] ++ cs ++ [a, b]))) = .ok (true, v) ∧
      ∀ i < n, i < 8 → v.1[i]? = some ((BitVec.ofNat 8 (16 * (Spec.hexDigit a.toNat).getD 0 + (Spec.hexDigit b.toNat).getD 0)).getLsbD i) := by
  let f := fun c : Byte => (Spec.hexDigit c.toNat).getD 0
  have hpair : ∀ (l : List Nat), l.length % 2 = 0 → ∀ x y, Spec.pairDigits (l ++ [x, y]) = Spec.pairDigits l ++ [16 * x + y] := by
    intro l
    fun_induction Spec.pairDigits l with
    | case1 => intros; rfl
    | case2 d => intro h; simp at h
    | case3 d e ds ih =>
      intro h x y
      simp only [List.length_cons] at h
      simp only [List.cons_append, Spec.pairDigits]
      rw [ih (by omega)]
  have hl : (Spec.pairDigits (cs.map f)).length = 2 ^ 29 := by
    rw [length_pairDigits, List.length_map]
    omega
  let bs := (Spec.pairDigits ((cs ++ [a, b]).map f)).map (BitVec.ofNat 8)
  have hbs : bs = (Spec.pairDigits (cs.map f)).map (BitVec.ofNat 8) ++ [BitVec.ofNat 8 (16 * f a + f b)] := by
    show List.map _ (Spec.pairDigits (List.map f (cs ++ [a, b]))) = _
    rw [List.map_append]
    show List.map _ (Spec.pairDigits (_ ++ [f a, f b])) = _
    rw [hpair _ (by rw [List.length_map]; omega), List.map_append]
    rfl
  let v : Vec Bool n := ⟨(List.range n).map fun i => (Spec.storedByte bs (i / 8)).getLsbD (i % 8), by simp⟩
  have hv : ∀ i < n, v.1[i]? = some ((Spec.storedByte bs (i / 8)).getLsbD (i % 8)) := by
    intro i hi
    show (List.map _ (List.range n))[i]? = _
    rw [List.getElem?_map, List.getElem?_range hi]
    rfl
  refine ⟨v, ?_, fun i hi h8 => ?_⟩
  · rw [C59_accepts (.bitvector n) rfl, Spec.Accepts]
    have hlen : ([0x30#8, 0x78#8] ++ cs ++ [a, b] : List Byte).length = 2 ^ 30 + 4 := by simp [hc]
    exact ⟨_, bs, rfl, ⟨cs ++ [a, b], by simp, h7, rfl⟩, by omega, by omega, hv⟩
  · have e0 : i / 8 = 0 := by omega
    have e1 : i % 8 = i := by omega
    have hlb : bs.length = 2 ^ 29 + 1 := by rw [hbs, List.length_append, List.length_map, hl]; rfl
    rw [hv i hi, e0, e1, Spec.storedByte, if_neg (by decide), if_pos (by rw [hlb]; decide), Nat.add_zero, List.getD_eq_getElem?_getD, hbs,
      List.getElem?_append_right (by rw [List.length_map, hl]), List.length_map, hl, Nat.sub_self]
    rfl

-- 2^30 zeros and "0f"
example : (List.replicate (2 ^ 30) 0x30#8).length = 2 ^ 30 ∧ ∀ c ∈ List.replicate (2 ^ 30) 0x30#8 ++ [0x30#8, 0x66#8], c.toNat < 128 := by
  refine ⟨List.length_replicate, fun c hc => ?_⟩
  rcases List.mem_append.1 hc with h | h
  · rw [(List.mem_replicate.1 h).2]
    decide
  · simp only [List.mem_cons, List.not_mem_nil, or_false] at h
    rcases h with rfl | rfl <;> decide

/-- **C59** Shorter text is not overwritten. -/
theorem C59_short (n : Nat) (v old : Vec Bool n) (s : List Byte) (hs : s.length < 2 ^ 30) :
    Yaml.decode (.bitvector n) old (some (.scalar s)) = .ok (true, v) ↔
      ∃ bs, Spec.IsLooseHex s bs ∧ s.length % 2 = 0 ∧ ∀ i < n, v.1[i]? = some ((bs.getD (i / 8) 0#8).getLsbD (i % 8)) := by
  rw [C59_accepts (.bitvector n) rfl, Spec.Accepts]
  have key : ∀ bs, Spec.IsLooseHex s bs → bs.length ≤ 2 ^ 29 := by
    rintro bs ⟨cs, rfl, -, rfl⟩
    simp only [List.length_cons] at hs
    rw [List.length_map, length_pairDigits, List.length_map]
    omega
  constructor
  · rintro ⟨s', bs, hs', h1, h2, -, h3⟩
    cases hs'
    refine ⟨bs, h1, h2, fun i hi => ?_⟩
    rw [h3 i hi, Yaml.storedByte_short (key bs h1)]
  · rintro ⟨bs, h1, h2, h3⟩
    refine ⟨s, bs, rfl, h1, h2, by omega, fun i hi => ?_⟩
    rw [h3 i hi, Yaml.storedByte_short (key bs h1)]

-- four bits: "0x05"
example : Yaml.decode (.bitvector 4) ⟨[true, true, true, true], rfl⟩ (some (.scalar (Yaml.chars "0x05"))) =
    .ok (true, (⟨[true, false, true, false], rfl⟩ : Vec Bool 4)) := by decide +kernel

/-- **C59** Decimal text with a superfluous 0 in front is read as octal: rejected if there is a digit 8 or 9, otherwise another number is read. -/
theorem C59_leading_zero (cs : List Byte) (ds : List Nat) (h : Spec.IsDigits 10 cs ds) (v old : BitVec 64) :
    Yaml.decode .uint64 old (some (.scalar (0x30#8 :: cs))) = .ok (true, v) ↔ (∀ d ∈ ds, d < 8) ∧ v.toNat = Spec.value 8 ds := by
  obtain ⟨cs8, rest, ds8, hc, h8, hr⟩ := Yaml.takeDigits_split 8 cs
  have hn : Yaml.takeNumber (0x30#8 :: cs) = Yaml.takeDigits 8 cs 0 true := by
    cases cs with
    | nil => rfl
    | cons c cs =>
      have := Yaml.digit_head h (by decide)
      rw [Yaml.takeNumber]
      · rintro y e; cases e; simp at this
      · rintro y e; cases e; simp at this
  have hread : Yaml.readU64 (0x30#8 :: cs) old = match Yaml.takeNumber (0x30#8 :: cs) with
      | (_, false, _) => (false, 0#64)
      | (n, true, rest) => if 2 ^ 64 ≤ n then (false, BitVec.ofNat 64 (2 ^ 64 - 1)) else (rest.all Yaml.isSpace, BitVec.ofNat 64 n) := rfl
  have hdec : ∀ r, Yaml.decode .uint64 old (some (.scalar (0x30#8 :: cs))) = .ok r ↔ Yaml.readU64 (0x30#8 :: cs) old = r := by
    intro r
    rw [Yaml.decode]
    simp only [Yaml.scalar?, Out.map, Out.ok.injEq]
  have hv := v.isLt
  rw [hdec, hread, hn]
  constructor
  · intro e
    rw [hc, Yaml.takeDigits_eq 8 h8 rest hr] at e
    simp only [Bool.true_or] at e
    split at e
    · cases e
    · rename_i hlt
      simp only [Prod.mk.injEq] at e
      obtain ⟨e1, rfl⟩ := e
      have hrest : rest = [] := by
        cases rest with
        | nil => rfl
        | cons c rest =>
          simp only [List.all_cons, Bool.and_eq_true] at e1
          have hb := (Yaml.isSpace_iff c).1 e1.1
          have hd := Yaml.blank_not_digit hb 10
          have hm : c ∈ cs := by rw [hc]; simp
          obtain ⟨h1, h2⟩ := h
          obtain ⟨d, hd1, hd2⟩ := List.mem_map.1 (h1 ▸ List.mem_map_of_mem (f := fun c : Byte => Spec.hexDigit c.toNat) hm)
          rw [Yaml.digitOf_eq, ← hd2, Option.bind, if_pos (h2 d hd1)] at hd
          cases hd
      subst hrest
      rw [List.append_nil] at hc
      subst hc
      have hds : ds8 = ds := by
        have := h8.1.symm.trans h.1
        exact (List.map_inj_right fun _ _ e => Option.some.inj e).1 this
      subst hds
      refine ⟨h8.2, ?_⟩
      rw [BitVec.toNat_ofNat, Nat.mod_eq_of_lt (by omega)]
      rfl
  · rintro ⟨h1, h2⟩
    have := Yaml.takeDigits_eq 8 ⟨h.1, h1⟩ [] (by simp) 0 true
    rw [List.append_nil] at this
    rw [this]
    simp only [Bool.true_or]
    have e : List.foldl (fun n d => 8 * n + d) 0 ds = v.toNat := h2.symm
    rw [e, if_neg (by omega)]
    simp

-- "010" is 8, "08" is rejected
example : Yaml.decode .uint64 0#64 (some (.scalar (0x30#8 :: [0x31#8, 0x30#8]))) = .ok (true, 8#64) :=
  (C59_leading_zero [0x31#8, 0x30#8] [1, 0] ⟨by decide, by decide⟩ 8#64 0#64).2 ⟨by decide, by decide⟩
example (v : BitVec 64) : Yaml.decode .uint64 0#64 (some (.scalar (0x30#8 :: [0x38#8]))) ≠ .ok (true, v) := fun h =>
  absurd (((C59_leading_zero [0x38#8] [8] ⟨by decide, by decide⟩ v 0#64).1 h).1 8 (by simp)) (by decide)

/-- **C59** The limit of a list is not looked at: a sequence with more elements than the limit is decoded as well. -/
theorem C59_no_limit (t : Ty) (ht : Spec.noEmpty t = true) (limit limit' : Nat) (node : Node) (v old : (Ty.listF t limit).denote)
    (h : Yaml.decode (.listF t limit) old (some node) = .ok (true, v)) :
    Yaml.decode (.listF t limit') old (some node) = .ok (true, v) ∧ Yaml.decode (.listV t limit') old (some node) = .ok (true, v) := by
  rw [C59_accepts _ (by rw [Spec.noEmpty]; exact ht) _ _ _, Spec.Accepts] at h
  exact ⟨(C59_accepts (.listF t limit') (by rw [Spec.noEmpty]; exact ht) v old node).2 (by rw [Spec.Accepts]; exact h),
    (C59_accepts (.listV t limit') (by rw [Spec.noEmpty]; exact ht) v old node).2 (by rw [Spec.Accepts]; exact h)⟩

-- two elements, decoded for a limit of 5 and hence for a limit of 1
example : Yaml.decode (.listF .uint64 1) [] (some (.seq [.scalar [0x37#8], .scalar [0x38#8]])) = .ok (true, [7#64, 8#64]) := rfl

end Mammon
