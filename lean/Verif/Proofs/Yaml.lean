import Verif.Model.Yaml
import Verif.Spec.Yaml
import Verif.Proofs.BytesOps
import Verif.Proofs.Encode
import Verif.Proofs.Indep
/-!
# Lemmas on YAML encoding and decoding
-/

namespace Mammon.Yaml

open Spec (partsList noBitlist noBitlistParts HasScalar EndsNonzero noBits noBitsParts noBitsSet noBitsSetParts wellNamed wellNamedParts names IsHexText)

/-! ## Decimal numbers -/

/-- Continue a decimal number with the digits of a string. -/
def decFold (acc : Nat) (s : List Byte) : Nat := s.foldl (fun a c => a * 10 + (c.toNat - 0x30)) acc

theorem digitOf_ten {c : Byte} (h1 : 0x30 ≤ c.toNat) (h2 : c.toNat ≤ 0x39) : digitOf 10 c = some (c.toNat - 0x30) := by
  rw [digitOf, if_pos ⟨h1, h2⟩]
  simp only [Option.bind_some]
  rw [if_pos (by omega)]

theorem takeDigits_ten (s : List Byte) (h : ∀ c ∈ s, 0x30 ≤ c.toNat ∧ c.toNat ≤ 0x39) : ∀ acc found,
    takeDigits 10 s acc found = (decFold acc s, found || !s.isEmpty, []) := by
  induction s with
  | nil => intro acc found; simp [takeDigits, decFold]
  | cons c cs ih =>
    intro acc found
    have hc := h c (by simp)
    rw [takeDigits, digitOf_ten hc.1 hc.2]
    simp only
    rw [ih (fun x hx => h x (by simp [hx]))]
    simp [decFold]

theorem digit_toNat {d : Nat} (h : d < 10) : (BitVec.ofNat 8 (0x30 + d)).toNat = 0x30 + d := by
  rw [BitVec.toNat_ofNat]; omega

theorem decimal_digits (n : Nat) : ∀ c ∈ decimal n, 0x30 ≤ c.toNat ∧ c.toNat ≤ 0x39 := by
  fun_induction decimal n with
  | case1 n h =>
    intro c hc
    rw [List.mem_singleton] at hc
    subst hc
    rw [digit_toNat h]; omega
  | case2 n h ih =>
    intro c hc
    rcases List.mem_append.1 hc with hc | hc
    · exact ih c hc
    · rw [List.mem_singleton] at hc
      subst hc
      rw [digit_toNat (Nat.mod_lt _ (by decide))]
      have := Nat.mod_lt n (show 0 < 10 by decide)
      omega

theorem decFold_decimal (n : Nat) : decFold 0 (decimal n) = n := by
  fun_induction decimal n with
  | case1 n h =>
    simp only [decFold, List.foldl_cons, List.foldl_nil]
    rw [digit_toNat h]; omega
  | case2 n h ih =>
    rw [decFold, List.foldl_append, show List.foldl _ 0 (decimal (n / 10)) = n / 10 from ih]
    simp only [List.foldl_cons, List.foldl_nil]
    rw [digit_toNat (Nat.mod_lt _ (by decide))]
    omega

theorem decimal_ne_nil (n : Nat) : decimal n ≠ [] := by
  fun_induction decimal n with
  | case1 => simp
  | case2 n h ih => simp

theorem decimal_head (n : Nat) (h : 0 < n) : ∀ c ∈ (decimal n).head?, c ≠ 0x30#8 := by
  fun_induction decimal n with
  | case1 n hn =>
    intro c hc
    simp only [List.head?_cons, Option.mem_def, Option.some.injEq] at hc
    subst hc
    intro h'
    have := congrArg BitVec.toNat h'
    rw [digit_toNat hn] at this
    simp at this
    omega
  | case2 n hn ih =>
    intro c hc
    rw [List.head?_append] at hc
    cases h' : (decimal (n / 10)).head? with
    | none => exact absurd (List.head?_eq_none_iff.1 h') (decimal_ne_nil _)
    | some d =>
      rw [h'] at hc
      exact ih (by omega) c (by rw [h']; exact hc)

theorem readU64_decimal (v old : BitVec 64) : readU64 (decimal v.toNat) old = (true, v) := by
  by_cases h0 : v.toNat = 0
  · have hv : v = 0#64 := BitVec.eq_of_toNat_eq (by simpa using h0)
    subst hv
    have : decimal (0#64).toNat = [0x30#8] := by rw [decimal]; rfl
    rw [this]
    rfl
  · have hh := decimal_head v.toNat (by omega)
    have hd := decimal_digits v.toNat
    have ht := takeDigits_ten _ hd 0 false
    rw [decFold_decimal] at ht
    have hne := decimal_ne_nil v.toNat
    cases hs : decimal v.toNat with
    | nil => exact absurd hs hne
    | cons c cs =>
      rw [hs] at hh hd ht
      have hc0 : c ≠ 0x30#8 := hh c rfl
      have hc := hd c (by simp)
      have hc1 : c ≠ 0x2d#8 := by rintro rfl; simp at hc
      have hc2 : c ≠ 0x2b#8 := by rintro rfl; simp at hc
      have hn : takeNumber (c :: cs) = takeDigits 10 (c :: cs) 0 false := by
        rw [takeNumber]
        · rintro x h; cases h; exact hc0 rfl
        · rintro x h; cases h; exact hc0 rfl
        · rintro x h; cases h; exact hc0 rfl
      have hbody : (match c :: cs with | 0x2b#8 :: cs => cs | cs => cs) = c :: cs := by
        split
        · rename_i h2; cases h2; exact absurd rfl hc2
        · rfl
      have hr : readU64 (c :: cs) old = match takeNumber (match c :: cs with | 0x2b#8 :: cs => cs | cs => cs) with
          | (_, false, _) => (false, 0#64)
          | (n, true, rest) => if 2 ^ 64 ≤ n then (false, BitVec.ofNat 64 (2 ^ 64 - 1)) else (rest.all isSpace, BitVec.ofNat 64 n) := by
        rw [readU64.eq_def]
        split
        · rename_i h2; cases h2; exact absurd rfl hc1
        · rfl
      rw [hr, hbody, hn, ht]
      have := v.isLt
      simp only [List.isEmpty_cons, Bool.not_false, Bool.or_true]
      rw [if_neg (by omega)]
      simp

theorem readBool_writeBool (b : Bool) : readBool (writeBool b) = some b := by
  cases b <;> decide +kernel

/-! ## Bytes -/

theorem hexText_hexVal {s bs : List Byte} (h : IsHexText s bs) : ∃ cs, s = 0x30#8 :: 0x78#8 :: cs ∧ cs.length = 2 * bs.length ∧
    (∀ c ∈ cs, c.toNat < 128) ∧ hexBytes cs = bs := by
  obtain ⟨cs, ds, rfl, hd, hl, hp⟩ := h
  have key : ∀ (cs : List Byte) (ds : List Nat), cs.map (fun c => Spec.hexDigit c.toNat) = ds.map some →
      cs.map hexVal = ds ∧ ∀ c ∈ cs, c.toNat < 128 := by
    intro cs
    induction cs with
    | nil => intro ds h; cases ds <;> simp_all
    | cons c cs ih =>
      intro ds h
      cases ds with
      | nil => simp at h
      | cons d ds =>
        simp only [List.map_cons, List.cons.injEq] at h
        obtain ⟨h1, h2⟩ := ih ds h.2
        refine ⟨by rw [List.map_cons, h1, hexVal, h.1]; rfl, fun x hx => ?_⟩
        rcases List.mem_cons.1 hx with rfl | hx
        · have h' := h.1
          rw [Spec.hexDigit] at h'
          split at h'
          · omega
          · split at h'
            · omega
            · split at h'
              · omega
              · cases h'
        · exact h2 x hx
  obtain ⟨h1, h2⟩ := key cs ds hd
  refine ⟨cs, rfl, hl, h2, ?_⟩
  rw [hexBytes, h1, hp, List.map_map]
  simp [Function.comp_def]

theorem bytesFromStr_hexText {n : Nat} {s : List Byte} {v : BytesN n} (h : IsHexText s v.1) : bytesFromStr n s = .ok v.1 := by
  obtain ⟨cs, rfl, hl, h2, h3⟩ := hexText_hexVal h
  rw [bytesFromStr_eq, if_neg (by simp), if_neg (by simp [hl, v.2]), show (0x30#8 :: 0x78#8 :: cs).drop 2 = cs from rfl, if_pos h2, h3, v.2,
    Nat.sub_self]
  simp

/-! ## Sequences -/

theorem asT_iff {α : Type} (g : Handle → Out (Bool × α)) (n : Node) (x : α) : asT g n = .ok x ↔ g (some n) = .ok (true, x) := by
  rw [asT]
  rcases g (some n) with ⟨b, a⟩ | e | _
  · cases b <;> simp [Out.bind]
  · simp [Out.bind]
  · simp [Out.bind]

theorem elems_iff {α : Type} (f : α → Out Node) (g : Handle → Out (Bool × α)) (P : α → Bool) (l : List α)
    (h : ∀ x ∈ l, ∀ n, f x = .ok n → (g (some n) = .ok (true, x) ↔ P x = true)) (ns : List Node) (hns : encodeElems f l = .ok ns) :
    ns.length = l.length ∧ (decodeElems g ns = .ok l ↔ l.all P = true) := by
  induction l generalizing ns with
  | nil => cases hns; simp [decodeElems]
  | cons x xs ih =>
    rw [encodeElems] at hns
    cases hx : f x with
    | throws e => rw [hx] at hns; cases hns
    | ub => rw [hx] at hns; cases hns
    | ok n =>
      rw [hx, Out.bind] at hns
      cases hxs : encodeElems f xs with
      | throws e => rw [hxs] at hns; cases hns
      | ub => rw [hxs] at hns; cases hns
      | ok ms =>
        rw [hxs, Out.map] at hns
        cases hns
        obtain ⟨h1, h2⟩ := ih (fun y hy => h y (by simp [hy])) ms hxs
        have h3 := (asT_iff g n x).trans (h x (by simp) n hx)
        refine ⟨by simp [h1], ?_⟩
        rw [List.all_cons, Bool.and_eq_true, ← h2, ← h3, decodeElems]
        constructor
        · intro h4
          rcases ha : asT g n with y | e | _
          · rw [ha, Out.bind] at h4
            rcases hd : decodeElems g ms with ys | e | _
            · rw [hd, Out.map] at h4
              simp only [Out.ok.injEq, List.cons.injEq] at h4
              rw [h4.1, h4.2]
              exact ⟨rfl, rfl⟩
            · rw [hd] at h4; cases h4
            · rw [hd] at h4; cases h4
          · rw [ha] at h4; cases h4
          · rw [ha] at h4; cases h4
        · rintro ⟨h4, h5⟩
          rw [h4, Out.bind, h5, Out.map]

/-! ## Maps -/

/-- The node with the given entries, as `Container::encode_` builds it: null as long as nothing has been assigned. -/
def mk (l : List (Node × Node)) : Node := if l = [] then .null else .map l

theorem assignIn_new (key : List Byte) (value : Node) (l : List (Node × Node)) (h : ∀ e ∈ l, keyIs key e.1 = false) :
    assignIn key value l = l ++ [(.scalar key, value)] := by
  induction l with
  | nil => rfl
  | cons e es ih =>
    rw [assignIn, h e (by simp), ih fun x hx => h x (by simp [hx])]
    simp

theorem assign_new (key : List Byte) (value : Node) (l : List (Node × Node)) (h : ∀ e ∈ l, keyIs key e.1 = false) :
    assign (mk l) key value = mk (l ++ [(.scalar key, value)]) := by
  rw [mk, mk, if_neg (c := l ++ _ = []) (by simp)]
  by_cases hl : l = []
  · subst hl; rfl
  · rw [if_neg hl, assign, assignIn_new key value l h]

theorem subscript_new (key : List Byte) (value : Node) (l es : List (Node × Node)) (h : ∀ e ∈ l, keyIs key e.1 = false) :
    subscript (some (mk (l ++ (.scalar key, value) :: es))) key = .ok (some value) := by
  rw [mk, if_neg (by simp), subscript, List.find?_append, List.find?_eq_none.2 (by simpa using h)]
  simp [keyIs]

theorem chars_inj {a b : String} (ha : ∀ c ∈ a.toList, c.toNat < 128) (hb : ∀ c ∈ b.toList, c.toNat < 128) (h : chars a = chars b) : a = b := by
  have : ∀ (l m : List Char), (∀ c ∈ l, c.toNat < 128) → (∀ c ∈ m, c.toNat < 128) →
      l.map (fun c => BitVec.ofNat 8 c.toNat) = m.map (fun c => BitVec.ofNat 8 c.toNat) → l = m := by
    intro l
    induction l with
    | nil => intro m _ _ h; cases m <;> simp_all
    | cons x xs ih =>
      intro m hl hm h
      cases m with
      | nil => simp at h
      | cons y ys =>
        simp only [List.map_cons, List.cons.injEq] at h
        rw [ih ys (fun c hc => hl c (by simp [hc])) (fun c hc => hm c (by simp [hc])) h.2]
        have h1 := hl x (by simp)
        have h2 := hm y (by simp)
        have h3 := congrArg BitVec.toNat h.1
        rw [BitVec.toNat_ofNat, BitVec.toNat_ofNat] at h3
        rw [Char.toNat_inj.1 (show x.toNat = y.toNat by omega)]
  exact String.toList_inj.1 (this _ _ ha hb h)

/-- Every name in `ps` is made of 7-bit characters. -/
theorem wellNamedParts_ascii : ∀ (ps : Parts), wellNamedParts ps = true → ∀ n ∈ names ps, ∀ c ∈ n.toList, c.toNat < 128
  | .nil, _, n, hn => by simp [names] at hn
  | .cons m t ps, h, n, hn => by
    simp only [wellNamedParts, Bool.and_eq_true, decide_eq_true_eq, List.all_eq_true] at h
    rcases List.mem_cons.1 hn with rfl | hn
    · exact h.1.1.2
    · exact wellNamedParts_ascii ps h.2 n hn

theorem length_decodeElems {α : Type} {f : Handle → Out (Bool × α)} : ∀ {ns : List Node} {vs : List α}, decodeElems f ns = .ok vs → vs.length = ns.length
  | [], vs, h => by cases h; rfl
  | n :: ns, vs, h => by
    rw [decodeElems] at h
    cases hn : asT f n with
    | throws e => rw [hn, Out.bind] at h; cases h
    | ub => rw [hn, Out.bind] at h; cases h
    | ok v =>
      rw [hn, Out.bind] at h
      cases hs : decodeElems f ns with
      | throws e => rw [hs, Out.map] at h; cases h
      | ub => rw [hs, Out.map] at h; cases h
      | ok ws =>
        rw [hs, Out.map] at h
        cases h
        rw [List.length_cons, List.length_cons, length_decodeElems hs]

/-! ## Bit fields -/

theorem hexPairs_eq : ∀ (s : List Byte), s.length % 2 = 0 → hexPairs s = if ∀ c ∈ s, c.toNat < 128 then .ok (hexBytes s) else .ub
  | [], _ => by simp [hexPairs, hexBytes, Spec.pairDigits]
  | [_], h => by simp at h
  | c :: d :: s, h => by
    rw [hexPairs, hexPairs_eq s (by simp only [List.length_cons] at h; omega)]
    by_cases hc : c.toNat < 128
    · rw [hextoint_of_lt hc, Out.bind]
      by_cases hd : d.toNat < 128
      · rw [hextoint_of_lt hd, Out.bind]
        have hall : (∀ x ∈ c :: d :: s, x.toNat < 128) ↔ ∀ x ∈ s, x.toNat < 128 := by simp [hc, hd]
        by_cases hs : ∀ x ∈ s, x.toNat < 128
        · rw [if_pos hs, if_pos (hall.2 hs), Out.map]
          simp [hexBytes, Spec.pairDigits, Nat.mul_comm]
        · rw [if_neg hs, if_neg (fun h => hs (hall.1 h)), Out.map]
      · rw [hextoint_of_ge hd, Out.bind, if_neg (fun h => hd (h d (by simp)))]
    · rw [hextoint_of_ge hc, Out.bind, if_neg (fun h => hc (h c (by simp)))]

theorem hexString_eq (cs : List Byte) (he : cs.length % 2 = 0) (hl : cs.length + 2 < 2 ^ 31) :
    hexString (0x30#8 :: 0x78#8 :: cs) = if ∀ c ∈ cs, c.toNat < 128 then .ok (hexBytes cs) else .ub := by
  rw [hexString, if_neg (by simp), if_neg (by simp only [List.length_cons]; omega), if_neg (by simp only [List.length_cons]; omega)]
  exact hexPairs_eq cs he

theorem hexBytes_raw : ∀ (serial : List Byte), (∀ b ∈ serial, b.toNat < 128) →
    hexBytes (serial.flatMap fun b => [0x30#8, b]) = serial.map fun b => BitVec.ofNat 8 (hexVal b)
  | [], _ => rfl
  | b :: bs, h => by
    have := hexBytes_raw bs fun x hx => h x (by simp [hx])
    rw [hexBytes] at this
    rw [List.flatMap_cons, List.map_cons, ← this, hexBytes]
    simp [Spec.pairDigits, hexVal, Spec.hexDigit]

theorem length_raw (serial : List Byte) : (serial.flatMap fun b => [0x30#8, b]).length = 2 * serial.length := by
  induction serial with
  | nil => rfl
  | cons b bs ih => rw [List.flatMap_cons, List.length_append, ih]; simp; omega

theorem mem_raw (serial : List Byte) : (∀ c ∈ serial.flatMap fun b => [0x30#8, b], c.toNat < 128) ↔ ∀ b ∈ serial, b.toNat < 128 := by
  constructor
  · intro h b hb
    exact h b (List.mem_flatMap.2 ⟨b, hb, by simp⟩)
  · intro h c hc
    obtain ⟨b, hb, hc⟩ := List.mem_flatMap.1 hc
    simp only [List.mem_cons, List.not_mem_nil, or_false] at hc
    rcases hc with rfl | rfl
    · decide
    · exact h _ hb

theorem hexString_raw (serial : List Byte) (hl : 2 * serial.length + 2 < 2 ^ 31) :
    hexString (rawString serial) =
      if ∀ b ∈ serial, b.toNat < 128 then .ok (serial.map fun b => BitVec.ofNat 8 (hexVal b)) else .ub := by
  rw [rawString, List.cons_append, List.cons_append, List.nil_append, hexString_eq _ (by rw [length_raw]; omega) (by rw [length_raw]; omega)]
  by_cases h : ∀ b ∈ serial, b.toNat < 128
  · rw [if_pos h, if_pos ((mem_raw serial).2 h), hexBytes_raw serial h]
  · rw [if_neg h, if_neg (fun h' => h ((mem_raw serial).1 h'))]

theorem hexVal_le : ∀ c < 128, c ≤ (Spec.hexDigit c).getD 0 → c = 0 := by decide +kernel

theorem hexVal_toNat {b : Byte} (h : b.toNat < 128) : (BitVec.ofNat 8 (hexVal b)).toNat = hexVal b := by
  have := hexVal_lt h
  rw [BitVec.toNat_ofNat]; omega

/-- The outcome of decoding the text of a bit list. -/
theorem bitlist_raw (bits : List Bool) (hl : bits.length < 2 ^ 31) :
    bitlistFromHex (rawString (bitlistSerialize bits)) =
      if ∀ b ∈ bitlistSerialize bits, b.toNat < 128 then
        (bitlistDeserialize ((bitlistSerialize bits).map fun b => BitVec.ofNat 8 (hexVal b))).map (·.2)
      else .ub := by
  rw [bitlistFromHex, hexString_raw _ (by rw [length_bitlistSerialize]; omega)]
  split <;> rfl

theorem hexStoreByte_eq (n i : Nat) (b : Byte) (arr : List Bool) (hi : 8 * i + 8 ≤ 2 ^ 32) :
    hexStoreByte n i b arr = bitvectorStoreByte n i b arr := by
  have : ∀ (l : List Nat), (∀ j ∈ l, j < 8) → ∀ arr : List Bool,
      l.foldl (fun arr j =>
        let k := (BITS_PER_BYTE * i + j) % 2 ^ 32
        if k < n then arr.set k ((b >>> j) &&& 1#8 == 1#8) else arr) arr =
      l.foldl (fun arr j => if BITS_PER_BYTE * i + j < n then arr.set (BITS_PER_BYTE * i + j) (b &&& (1#8 <<< j) != 0#8) else arr) arr := by
    intro l
    induction l with
    | nil => intro _ _; rfl
    | cons j l ih =>
      intro hj arr
      have h8 := hj j (by simp)
      simp only [List.foldl_cons]
      rw [ih fun x hx => hj x (by simp [hx])]
      have hk : (BITS_PER_BYTE * i + j) % 2 ^ 32 = BITS_PER_BYTE * i + j := Nat.mod_eq_of_lt (by simp only [BITS_PER_BYTE]; omega)
      rw [hk, shr_and_one_eq, and_shift_ne_zero b j h8]
  exact this _ (fun j hj => by simpa [BITS_PER_BYTE] using hj) arr

theorem hexStoreFrom_eq (n : Nat) (bs : List Byte) (i : Nat) (arr : List Bool) (hi : 8 * (i + bs.length) ≤ 2 ^ 32) :
    hexStoreFrom n i bs arr = bitvectorStoreFrom n i bs arr := by
  induction bs generalizing i arr with
  | nil => rfl
  | cons b bs ih =>
    simp only [List.length_cons] at hi
    rw [hexStoreFrom, bitvectorStoreFrom, hexStoreByte_eq _ _ _ _ (by omega), ih (i + 1) _ (by omega)]

/-- The outcome of decoding the text of a bit vector. -/
theorem bitvector_raw {n : Nat} (v : Vec Bool n) (hn : n < 2 ^ 31) :
    bitvectorFromHex n (rawString (bitvectorSerialize n v.1)) =
      if ∀ b ∈ bitvectorSerialize n v.1, b.toNat < 128 then
        .ok ⟨(List.range n).map (bitAt ((bitvectorSerialize n v.1).map fun b => BitVec.ofNat 8 (hexVal b))), by simp⟩
      else .ub := by
  have hl := length_bitvectorSerialize n v.1
  rw [bitvectorFromHex, hexString_raw _ (by rw [hl]; omega)]
  split
  · rw [Out.map]
    congr 1
    apply Subtype.ext
    simp only
    rw [hexStoreFrom_eq _ _ _ _ (by rw [List.length_map, hl]; omega), bitvectorStore_eq _ _ _ List.length_replicate (by rw [List.length_map, hl])]
  · rfl

/-- Proper hexadecimal text of a bit list. -/
theorem bitlist_hexText {s : List Byte} {bits : List Bool} (hl : bits.length < 2 ^ 31) (h : IsHexText s (bitlistSerialize bits)) :
    bitlistFromHex s = .ok bits := by
  obtain ⟨cs, rfl, h1, h2, h3⟩ := hexText_hexVal h
  have := length_bitlistSerialize bits
  rw [bitlistFromHex, hexString_eq cs (by omega) (by omega), if_pos h2, Out.bind, h3, bitlist_roundtrip, Out.map]

/-- Proper hexadecimal text of a bit vector. -/
theorem bitvector_hexText {n : Nat} {s : List Byte} {v : Vec Bool n} (hn : n < 2 ^ 31) (h : IsHexText s (bitvectorSerialize n v.1)) :
    bitvectorFromHex n s = .ok v := by
  obtain ⟨cs, rfl, h1, h2, h3⟩ := hexText_hexVal h
  have := length_bitvectorSerialize n v.1
  rw [bitvectorFromHex, hexString_eq cs (by omega) (by omega), if_pos h2, Out.map]
  congr 1
  apply Subtype.ext
  simp only
  rw [h3, hexStoreFrom_eq _ _ _ _ (by omega), bitvectorStore_eq _ _ _ List.length_replicate this]
  apply List.ext_getElem
  · simp [v.2]
  · intro k h1 h2
    simp only [List.getElem_map, List.getElem_range]
    rw [bitAt_bitvectorSerialize _ _ v.2, List.getD_eq_getElem _ _ h2]

/-! ## Round trip -/

theorem toVec_val {α : Type} {n : Nat} (old v : Vec α n) : toVec n old v.1 = v := by
  rw [toVec, dif_pos v.2]

theorem map_vec_iff {α : Type} {n : Nat} (r : Out (List α)) (hl : ∀ l, r = .ok l → l.length = n) (old v : Vec α n) :
    r.map (fun l => (true, toVec n old l)) = .ok (true, v) ↔ r = .ok v.1 := by
  rcases r with l | e | _
  · simp only [Out.map, Out.ok.injEq, Prod.mk.injEq, true_and]
    rw [toVec, dif_pos (hl l rfl)]
    constructor
    · rintro rfl; rfl
    · intro h; exact Subtype.ext h
  · simp [Out.map]
  · simp [Out.map]

theorem map_list_iff {α : Type} (r : Out α) (v : α) (f : α → Bool × α) (hf : ∀ a, f a = (true, a)) : r.map f = .ok (true, v) ↔ r = .ok v := by
  rcases r with l | e | _
  · simp [Out.map, hf]
  · simp [Out.map]
  · simp [Out.map]

theorem bitlist_raw_ne (bits : List Bool) (hl : bits.length < 2 ^ 31) : bitlistFromHex (rawString (bitlistSerialize bits)) ≠ .ok bits := by
  rw [bitlist_raw bits hl]
  split
  · rename_i hlt
    intro h
    have hne := bitlistSerialize_ne_nil bits
    have hne' : (bitlistSerialize bits).map (fun b => BitVec.ofNat 8 (hexVal b)) ≠ [] := by simpa using hne
    by_cases hz : ((bitlistSerialize bits).map fun b => BitVec.ofNat 8 (hexVal b)).getLast hne' = 0#8
    · rw [bitlistDeserialize_last_zero _ hne' hz] at h
      cases h
    · rw [bitlistDeserialize_ok _ hne' hz, Out.map] at h
      simp only [Out.ok.injEq] at h
      have hc := bitlist_canonical _ hne' hz
      rw [h] at hc
      rw [List.getLast_map] at hz
      have hlast := hlt _ (List.getLast_mem hne)
      have h1 : (bitlistSerialize bits).getLast hne = BitVec.ofNat 8 (hexVal ((bitlistSerialize bits).getLast hne)) := by
        have := congrArg List.getLast? hc
        rw [List.getLast?_eq_some_getLast hne, List.getLast?_eq_some_getLast hne', List.getLast_map] at this
        exact (Option.some.inj this)
      have h2 := congrArg BitVec.toNat h1
      rw [hexVal_toNat hlast] at h2
      have h3 := hexVal_le _ hlast (Nat.le_of_eq h2)
      rw [← h1] at hz
      exact hz (BitVec.eq_of_toNat_eq (by simpa using h3))
  · simp

theorem bitvector_raw_iff {n : Nat} (v : Vec Bool n) (hn : n < 2 ^ 31) :
    bitvectorFromHex n (rawString (bitvectorSerialize n v.1)) = .ok v ↔ v.1.all (fun b => !b) = true := by
  rw [bitvector_raw v hn]
  have hlen := length_bitvectorSerialize n v.1
  have hbit := bitAt_bitvectorSerialize n v.1 v.2
  constructor
  · intro h
    split at h
    · rename_i hlt
      have h' := congrArg Subtype.val (Out.ok.inj h)
      simp only at h'
      rw [List.all_eq_true]
      intro b hb
      obtain ⟨p, hp, rfl⟩ := List.getElem_of_mem hb
      have hpn : p < n := by rw [← v.2]; exact hp
      -- the byte of this bit
      have hk : p / 8 < (bitvectorSerialize n v.1).length := by rw [hlen]; omega
      let b := (bitvectorSerialize n v.1)[p / 8]
      have hb128 : b.toNat < 128 := hlt _ (List.getElem_mem hk)
      have hsub : ∀ j < 8, b.getLsbD j = true → (BitVec.ofNat 8 (hexVal b)).getLsbD j = true := by
        intro j hj hbj
        have e1 : (8 * (p / 8) + j) / 8 = p / 8 := by omega
        have e2 : (8 * (p / 8) + j) % 8 = j := by omega
        have hq := hbit (8 * (p / 8) + j)
        rw [bitAt, e1, e2, List.getD_eq_getElem _ _ hk] at hq
        have hq' : b.getLsbD j = v.1.getD (8 * (p / 8) + j) false := hq
        by_cases hin : 8 * (p / 8) + j < n
        · have h4 : ((List.range n).map (bitAt ((bitvectorSerialize n v.1).map fun b => BitVec.ofNat 8 (hexVal b))))[8 * (p / 8) + j]? =
              v.1[8 * (p / 8) + j]? := by rw [h']
          rw [List.getElem?_map, List.getElem?_range hin, Option.map_some, bitAt, e1, e2,
            List.getD_eq_getElem _ _ (by rw [List.length_map]; exact hk), List.getElem_map] at h4
          rw [hq', List.getD_eq_getElem?_getD, ← h4] at hbj
          exact hbj
        · rw [List.getD_eq_getElem?_getD, List.getElem?_eq_none (by rw [v.2]; omega)] at hq'
          rw [hq'] at hbj
          cases hbj
      have hand : b &&& BitVec.ofNat 8 (hexVal b) = b := by
        apply BitVec.eq_of_getLsbD_eq
        intro j hj
        rw [BitVec.getLsbD_and]
        cases hbj : b.getLsbD j with
        | false => rfl
        | true => rw [hsub j hj hbj]; rfl
      have hle : b.toNat ≤ hexVal b := by
        have := congrArg BitVec.toNat hand
        rw [BitVec.toNat_and, hexVal_toNat hb128] at this
        rw [← this]
        exact Nat.and_le_right
      have h0 : b.toNat = 0 := hexVal_le _ hb128 hle
      have hb0 : b = 0#8 := BitVec.eq_of_toNat_eq (by simpa using h0)
      have hq := hbit p
      rw [bitAt, List.getD_eq_getElem _ _ hk, List.getD_eq_getElem _ _ hp, show (bitvectorSerialize n v.1)[p / 8] = 0#8 from hb0] at hq
      simp at hq
      simp [← hq]
    · cases h
  · intro h
    rw [List.all_eq_true] at h
    have hv : ∀ p, v.1.getD p false = false := by
      intro p
      by_cases hp : p < v.1.length
      · rw [List.getD_eq_getElem _ _ hp]
        have := h _ (List.getElem_mem hp)
        simpa using this
      · rw [List.getD_eq_getElem?_getD, List.getElem?_eq_none (by omega)]; rfl
    have hz : ∀ b ∈ bitvectorSerialize n v.1, b = 0#8 := by
      intro b hb
      obtain ⟨k, hk, rfl⟩ := List.getElem_of_mem hb
      apply BitVec.eq_of_getLsbD_eq
      intro j hj
      have hq := hbit (8 * k + j)
      rw [hv, bitAt, show (8 * k + j) / 8 = k by omega, show (8 * k + j) % 8 = j by omega, List.getD_eq_getElem _ _ hk] at hq
      rw [hq]; simp
    rw [if_pos (fun b hb => by rw [hz b hb]; decide)]
    congr 1
    apply Subtype.ext
    apply List.ext_getElem
    · simp [v.2]
    · intro p h1 h2
      simp only [List.getElem_map, List.getElem_range]
      have hk : p / 8 < (bitvectorSerialize n v.1).length := by rw [hlen]; rw [v.2] at h2; omega
      rw [bitAt, List.getD_eq_getElem _ _ (by rw [List.length_map]; exact hk), List.getElem_map, hz _ (List.getElem_mem hk)]
      have := hv p
      rw [List.getD_eq_getElem _ _ h2] at this
      rw [this]
      simp [hexVal, Spec.hexDigit]

section
variable {toText : List Byte → List Byte} (hT : ∀ bs, IsHexText (toText bs) bs)
include hT

mutual
theorem round_trip_iff : (t : Ty) → wellNamed t = true → (v : t.denote) → (node : Node) → encode toText t v = .ok node → (old : t.denote) →
    (decode t old (some node) = .ok (true, v) ↔ noBitsSet t v = true)
  | .uint64, _, v, node, hn, old => by
    cases hn
    rw [decode, noBitsSet]
    simp only [scalar?, Out.map]
    rw [readU64_decimal]
    simp
  | .boolean, _, v, node, hn, old => by
    cases hn
    rw [decode, noBitsSet]
    simp only [scalar?, Out.map]
    rw [readBool_writeBool]
    simp
  | .bytes n, _, v, node, hn, old => by
    cases hn
    rw [decode, noBitsSet]
    simp only [scalar?, Out.bind]
    rw [bytesFromStr_hexText (hT v.1)]
    simp only [Out.map]
    rw [toVec_val]
    simp
  | .bitvector n, hw, v, node, hn, old => by
    rw [wellNamed, decide_eq_true_eq] at hw
    cases hn
    rw [decode, noBitsSet, ← bitvector_raw_iff v hw]
    simp only [scalar?, Out.bind]
    exact map_list_iff _ v _ fun _ => rfl
  | .bitlist n, _, v, node, hn, old => by
    rw [encode, serialize] at hn
    by_cases hl : List.length v < 2 ^ 31
    · rw [serializeUB, if_neg (by simp; exact hl)] at hn
      cases hn
      rw [decode, noBitsSet]
      simp only [scalar?, Out.bind]
      refine (map_list_iff _ v _ fun _ => rfl).trans ?_
      simp only [Bool.false_eq_true, iff_false]
      exact bitlist_raw_ne v hl
    · rw [serializeUB, if_pos (by simp; exact Nat.le_of_not_lt hl)] at hn
      cases hn
  | .vector t n, hw, v, node, hn, old => by
    rw [wellNamed] at hw
    rw [encode] at hn
    cases he : encodeElems (fun x => encode toText t x) v.1 with
    | throws e => rw [he] at hn; cases hn
    | ub => rw [he] at hn; cases hn
    | ok ns =>
      rw [he] at hn
      cases hn
      obtain ⟨h1, h2⟩ := elems_iff _ (fun x => decode t t.dflt x) (fun x => noBitsSet t x) v.1 (fun x _ m hm => round_trip_iff t hw x m hm _) ns he
      rw [decode, noBitsSet, ← h2]
      simp only [seq?, Out.bind]
      rw [if_pos (h1.trans v.2)]
      exact map_vec_iff _ (fun l hl => (length_decodeElems hl).trans (h1.trans v.2)) old v
  | .listF t n, hw, v, node, hn, old => by
    rw [wellNamed] at hw
    rw [encode] at hn
    cases he : encodeElems (fun x => encode toText t x) v with
    | throws e => rw [he] at hn; cases hn
    | ub => rw [he] at hn; cases hn
    | ok ns =>
      rw [he] at hn
      cases hn
      obtain ⟨h1, h2⟩ := elems_iff _ (fun x => decode t t.dflt x) (fun x => noBitsSet t x) v (fun x _ m hm => round_trip_iff t hw x m hm _) ns he
      rw [decode, noBitsSet, ← h2]
      simp only [seq?, Out.bind]
      exact map_list_iff _ v _ fun _ => rfl
  | .listV t n, hw, v, node, hn, old => by
    rw [wellNamed] at hw
    rw [encode] at hn
    cases he : encodeElems (fun x => encode toText t x) v with
    | throws e => rw [he] at hn; cases hn
    | ub => rw [he] at hn; cases hn
    | ok ns =>
      rw [he] at hn
      cases hn
      obtain ⟨h1, h2⟩ := elems_iff _ (fun x => decode t t.dflt x) (fun x => noBitsSet t x) v (fun x _ m hm => round_trip_iff t hw x m hm _) ns he
      rw [decode, noBitsSet, ← h2]
      simp only [seq?, Out.bind]
      exact map_list_iff _ v _ fun _ => rfl
  | .container _ _ ps, hw, v, node, hn, old => by
    rw [wellNamed] at hw
    rw [encode] at hn
    rw [decode, noBitsSet]
    exact (round_trip_parts ps hw v [] (by simp) node hn).2 old

theorem round_trip_parts : (ps : Parts) → wellNamedParts ps = true → (v : ps.denote) → (l : List (Node × Node)) →
    (∀ n ∈ names ps, ∀ e ∈ l, keyIs (chars n) e.1 = false) → (node : Node) → encodeParts toText ps v (mk l) = .ok node →
    (∃ es, node = mk (l ++ es)) ∧ ∀ old, (decodeParts ps old (some node) = .ok (true, v) ↔ noBitsSetParts ps v = true)
  | .nil, _, v, l, _, node, hn => by
    cases hn
    refine ⟨⟨[], by rw [List.append_nil]⟩, fun old => ?_⟩
    rw [noBitsSetParts]
    exact ⟨fun _ => rfl, fun _ => rfl⟩
  | .cons name t ps, hw, v, l, hl, node, hn => by
    have hasc := wellNamedParts_ascii _ hw
    simp only [wellNamedParts, Bool.and_eq_true, decide_eq_true_eq, List.all_eq_true] at hw
    rw [encodeParts] at hn
    cases he : encode toText t v.1 with
    | throws e => rw [he] at hn; cases hn
    | ub => rw [he] at hn; cases hn
    | ok m =>
      have h2 := round_trip_iff t hw.1.2 v.1 m he
      have hname := hl name (by simp [names])
      rw [he, Out.bind, assign_new _ _ _ hname] at hn
      obtain ⟨⟨es, h3⟩, h4⟩ := round_trip_parts ps hw.2 v.2 (l ++ [(.scalar (chars name), m)]) (by
        intro n hn e he
        rcases List.mem_append.1 he with he | he
        · exact hl n (by simp [names, hn]) e he
        · rw [List.mem_singleton] at he
          subst he
          rw [keyIs, beq_eq_false_iff_ne]
          intro heq
          have := chars_inj (hasc name (by simp [names])) (hasc n (by simp [names, hn])) heq
          subst this
          exact hw.1.1.1 hn) node hn
      have h5 : node = mk (l ++ (.scalar (chars name), m) :: es) := by rw [h3]; simp
      refine ⟨⟨_, h5⟩, fun old => ?_⟩
      rw [noBitsSetParts, Bool.and_eq_true, ← h2 old.1, ← h4 old.2, decodeParts]
      have h6 : subscript (some node) (chars name) = .ok (some m) := by rw [h5]; exact subscript_new _ _ _ _ hname
      rw [h6]
      simp only [Out.bind]
      constructor
      · intro h
        rcases hd : decode t old.1 (some m) with ⟨b, x⟩ | e | _
        · rw [hd] at h
          cases b
          · simp at h
          · simp only [if_true] at h
            rcases hp : decodeParts ps old.2 (some node) with ⟨c, y⟩ | e | _
            · rw [hp, Out.map] at h
              have h7 := Out.ok.inj h
              simp only [Prod.mk.injEq] at h7
              obtain ⟨rfl, h8⟩ := h7
              rw [← h8]
              exact ⟨rfl, rfl⟩
            · rw [hp] at h; cases h
            · rw [hp] at h; cases h
        · rw [hd] at h; cases h
        · rw [hd] at h; cases h
      · rintro ⟨h7, h8⟩
        rw [h7, h8]
        rfl
end
end

theorem encodeElems_ok {α : Type} (f : α → Out Node) : ∀ (l : List α), (∀ x ∈ l, ∃ n, f x = .ok n) → ∃ ns, encodeElems f l = .ok ns
  | [], _ => ⟨[], rfl⟩
  | x :: xs, h => by
    obtain ⟨n, hn⟩ := h x (by simp)
    obtain ⟨ns, hns⟩ := encodeElems_ok f xs fun y hy => h y (by simp [hy])
    exact ⟨n :: ns, by rw [encodeElems, hn, Out.bind, hns]; rfl⟩

mutual
/-- Encoding is undefined exactly when serialization is. -/
theorem encode_ok (toText : List Byte → List Byte) : (t : Ty) → (v : t.denote) → serializeUB t v = false → ∃ n, encode toText t v = .ok n
  | .uint64, _, _ => ⟨_, rfl⟩
  | .boolean, _, _ => ⟨_, rfl⟩
  | .bytes _, _, _ => ⟨_, rfl⟩
  | .bitvector n, v, _ => ⟨_, rfl⟩
  | .bitlist n, v, h => ⟨_, by rw [encode, serialize, h]; rfl⟩
  | .vector t n, v, h => by
    rw [serializeUB, List.any_eq_false] at h
    obtain ⟨ns, hns⟩ := encodeElems_ok (fun x => encode toText t x) v.1 fun x hx => encode_ok toText t x (by simpa using h x hx)
    exact ⟨.seq ns, by rw [encode, hns]; rfl⟩
  | .listF t n, v, h => by
    rw [serializeUB, List.any_eq_false] at h
    obtain ⟨ns, hns⟩ := encodeElems_ok (fun x => encode toText t x) v fun x hx => encode_ok toText t x (by simpa using h x hx)
    exact ⟨.seq ns, by rw [encode, hns]; rfl⟩
  | .listV t n, v, h => by
    rw [serializeUB, List.any_eq_false] at h
    obtain ⟨ns, hns⟩ := encodeElems_ok (fun x => encode toText t x) v fun x hx => encode_ok toText t x (by simpa using h x hx)
    exact ⟨.seq ns, by rw [encode, hns]; rfl⟩
  | .container _ _ ps, v, h => by
    rw [serializeUB] at h
    rw [encode]
    exact encodeParts_ok toText ps v h _

theorem encodeParts_ok (toText : List Byte → List Byte) : (ps : Parts) → (v : ps.denote) → serializeUBParts ps v = false → (node : Node) →
    ∃ n, encodeParts toText ps v node = .ok n
  | .nil, _, _, node => ⟨node, rfl⟩
  | .cons name t ps, v, h, node => by
    rw [serializeUBParts, Bool.or_eq_false_iff] at h
    obtain ⟨n, hn⟩ := encode_ok toText t v.1 h.1
    rw [encodeParts, hn, Out.bind]
    exact encodeParts_ok toText ps v.2 h.2 _
end

/-! ## Independence of the previous contents -/

theorem agree_map {α β : Type} (x : Out α) {f g : α → Bool × β} (h : ∀ a, Agree (.ok (f a)) (.ok (g a))) : Agree (x.map f) (x.map g) := by
  cases x
  · exact h _
  · simp [Out.map, Agree]
  · simp [Out.map, Agree]

theorem agree_outBind {α β : Type} (x : Out α) {f g : α → Out (Bool × β)} (h : ∀ a, Agree (f a) (g a)) : Agree (x.bind f) (x.bind g) := by
  cases x
  · exact h _
  · simp [Out.bind, Agree]
  · simp [Out.bind, Agree]

theorem length_bytesFromStr {n : Nat} {s l : List Byte} (h : bytesFromStr n s = .ok l) : l.length = n := by
  rw [bytesFromStr_eq] at h
  split at h
  · cases h
  · split at h
    · cases h
    · rename_i hl
      split at h
      · cases h
        rw [List.length_append, List.length_replicate, length_hexBytes, List.length_drop]
        omega
      · cases h

theorem toVec_indep {α : Type} {n : Nat} {l : List α} (h : l.length = n) (o o' : Vec α n) : toVec n o l = toVec n o' l := by
  rw [toVec, toVec, dif_pos h, dif_pos h]

mutual
theorem decode_agree : (t : Ty) → (o o' : t.denote) → (h : Handle) → Agree (decode t o h) (decode t o' h)
  | .uint64, o, o', h => by
    rw [decode, decode]
    refine agree_map _ fun a => ?_
    cases a with
    | none => exact Agree.fail _ _
    | some s =>
      simp only
      rw [readU64.eq_def, readU64.eq_def]
      split
      · exact Agree.fail _ _
      · exact Agree.refl _
  | .boolean, o, o', h => by
    rw [decode, decode]
    refine agree_map _ fun a => ?_
    cases a with
    | none => exact Agree.fail _ _
    | some s =>
      simp only
      split
      · exact Agree.refl _
      · exact Agree.fail _ _
  | .bytes n, o, o', h => by
    rw [decode, decode]
    refine agree_outBind _ fun a => ?_
    cases a with
    | none => exact Agree.fail _ _
    | some s =>
      simp only
      cases hb : bytesFromStr n s with
      | ok l => simp only [Out.map]; rw [toVec_indep (length_bytesFromStr hb) o o']; exact Agree.refl _
      | throws e => exact Agree.refl _
      | ub => exact Agree.refl _
  | .bitvector n, o, o', h => by
    rw [decode, decode]
    refine agree_outBind _ fun a => ?_
    cases a with
    | none => exact Agree.fail _ _
    | some s => exact Agree.refl _
  | .bitlist n, o, o', h => by
    rw [decode, decode]
    refine agree_outBind _ fun a => ?_
    cases a with
    | none => exact Agree.fail _ _
    | some s => exact Agree.refl _
  | .vector t n, o, o', h => by
    rw [decode, decode]
    refine agree_outBind _ fun a => ?_
    cases a with
    | none => exact Agree.fail _ _
    | some l =>
      simp only
      split
      · rename_i hl
        cases hd : decodeElems (fun x => decode t t.dflt x) l with
        | ok vs => simp only [Out.map]; rw [toVec_indep ((length_decodeElems hd).trans hl) o o']; exact Agree.refl _
        | throws e => exact Agree.refl _
        | ub => exact Agree.refl _
      · exact Agree.fail _ _
  | .listF t n, o, o', h => by
    rw [decode, decode]
    refine agree_outBind _ fun a => ?_
    cases a with
    | none => exact Agree.fail _ _
    | some s => exact Agree.refl _
  | .listV t n, o, o', h => by
    rw [decode, decode]
    refine agree_outBind _ fun a => ?_
    cases a with
    | none => exact Agree.fail _ _
    | some s => exact Agree.refl _
  | .container _ _ ps, o, o', h => by
    rw [decode, decode]
    exact decodeParts_agree ps o o' h

theorem decodeParts_agree : (ps : Parts) → (o o' : ps.denote) → (h : Handle) → Agree (decodeParts ps o h) (decodeParts ps o' h)
  | .nil, _, _, _ => Agree.refl _
  | .cons name t ps, o, o', h => by
    rw [decodeParts, decodeParts]
    refine agree_outBind _ fun x => ?_
    have h1 := decode_agree t o.1 o'.1 x
    have h2 := decodeParts_agree ps o.2 o'.2 h
    revert h1
    generalize decode t o.1 x = r
    generalize decode t o'.1 x = r'
    intro h1
    rcases r with ⟨b, a⟩ | e | _ <;> rcases r' with ⟨b', a'⟩ | e' | _
    · cases b <;> cases b' <;> simp only [Agree] at h1
      · exact Agree.fail _ _
      · subst h1
        simp only [Out.bind, if_true]
        revert h2
        generalize decodeParts ps o.2 h = q
        generalize decodeParts ps o'.2 h = q'
        intro h2
        rcases q with ⟨c, w⟩ | e | _ <;> rcases q' with ⟨c', w'⟩ | e' | _
        · cases c <;> cases c' <;> simp only [Agree] at h2
          · exact Agree.fail _ _
          · subst h2; exact Agree.refl _
        all_goals first | (cases c <;> simp [Agree] at h2) | (cases c' <;> simp [Agree] at h2) | skip
        · simpa [Out.map, Agree] using h2
        all_goals simp_all [Out.map, Agree]
    all_goals first | (cases b <;> simp [Agree] at h1) | (cases b' <;> simp [Agree] at h1) | skip
    · simpa [Out.bind, Agree] using h1
    all_goals simp_all [Out.bind, Agree]
end


/-! ## Undefined behaviour -/

theorem map_ub {α β : Type} {f : α → β} {x : Out α} (h : x.map f = .ub) : x = .ub := by
  cases x
  · cases h
  · cases h
  · rfl

theorem bind_ub {α β : Type} {f : α → Out β} {x : Out α} (h : x.bind f = .ub) : x = .ub ∨ ∃ a, x = .ok a ∧ f a = .ub := by
  cases x
  · exact Or.inr ⟨_, rfl, h⟩
  · cases h
  · exact Or.inl rfl

theorem hexString_ub {s : List Byte} (h : hexString s = .ub) : 2 ^ 31 ≤ s.length ∨ ∃ c ∈ s, 128 ≤ c.toNat := by
  rw [hexString] at h
  split at h
  · cases h
  · split at h
    · cases h
    · rename_i h2
      split at h
      · rename_i h3; exact Or.inl h3
      · right
        rw [hexPairs_eq _ (by rw [List.length_drop]; omega)] at h
        split at h
        · cases h
        · rename_i h4
          simp only [Classical.not_forall] at h4
          obtain ⟨c, hc, h5⟩ := h4
          exact ⟨c, List.mem_of_mem_drop hc, by omega⟩

theorem hexString_ok {s bs : List Byte} (h : hexString s = .ok bs) : ∃ cs, s = 0x30#8 :: 0x78#8 :: cs ∧ cs.length % 2 = 0 ∧ bs = hexBytes cs := by
  rw [hexString] at h
  split at h
  · cases h
  · rename_i h1
    simp only [ne_eq, Classical.not_not] at h1
    split at h
    · cases h
    · rename_i h2
      split at h
      · cases h
      · rename_i h3
        rcases s with _ | ⟨a, _ | ⟨b, cs⟩⟩
        · simp at h1
        · simp at h1
        · simp only [List.take_succ_cons, List.take_zero, List.cons.injEq, and_true] at h1
          obtain ⟨rfl, rfl⟩ := h1
          simp only [List.length_cons] at h2
          refine ⟨cs, rfl, by omega, ?_⟩
          rw [show List.drop 2 (0x30#8 :: 0x78#8 :: cs) = cs from rfl, hexPairs_eq _ (by omega)] at h
          split at h
          · cases h; rfl
          · cases h

theorem hexBytes_append : ∀ (cs : List Byte) (ds : List Byte), cs.length % 2 = 0 → hexBytes (cs ++ ds) = hexBytes cs ++ hexBytes ds
  | [], ds, _ => by simp [hexBytes, Spec.pairDigits]
  | [_], _, h => by simp at h
  | c :: d :: cs, ds, h => by
    have := hexBytes_append cs ds (by simp only [List.length_cons] at h; omega)
    simp only [hexBytes] at this
    simp only [hexBytes, List.cons_append, List.map_cons, Spec.pairDigits, this]

theorem hexPair_ne_zero {c d : Byte} (hc : c.toNat < 128) (hd : d.toNat < 128) :
    BitVec.ofNat 8 (16 * hexVal c + hexVal d) = 0#8 ↔ hexVal c = 0 ∧ hexVal d = 0 := by
  have h1 := hexVal_lt hc
  have h2 := hexVal_lt hd
  constructor
  · intro h
    have := congrArg BitVec.toNat h
    rw [BitVec.toNat_ofNat] at this
    simp at this
    omega
  · rintro ⟨h1, h2⟩; rw [h1, h2]

/-- Exactly when the bytes are fit for `Bitlist::deserialize`. -/
theorem hexBytes_endsNonzero (cs : List Byte) (he : cs.length % 2 = 0) (h : ∀ c ∈ cs, c.toNat < 128) :
    bitlistDeserialize (hexBytes cs) = .ub ↔ ¬ EndsNonzero cs := by
  rcases List.eq_nil_or_concat cs with rfl | ⟨xs, d, rfl⟩
  · constructor
    · rintro - ⟨ys, c, d, h, -⟩; simp at h
    · intro; rfl
  · rw [List.concat_eq_append] at *
    rcases List.eq_nil_or_concat xs with rfl | ⟨ys, c, rfl⟩
    · simp at he
    · rw [List.concat_eq_append, List.append_assoc] at *
      simp only [List.cons_append, List.nil_append] at *
      have hc := h c (by simp)
      have hd := h d (by simp)
      simp only [List.length_append, List.length_cons, List.length_nil] at he
      have hb : hexBytes (ys ++ [c, d]) = hexBytes ys ++ [BitVec.ofNat 8 (16 * hexVal c + hexVal d)] := by
        rw [hexBytes_append _ _ (by omega)]
        simp [hexBytes, Spec.pairDigits]
      have hne : hexBytes (ys ++ [c, d]) ≠ [] := by rw [hb]; simp
      have hl : (hexBytes (ys ++ [c, d])).getLast hne = BitVec.ofNat 8 (16 * hexVal c + hexVal d) := by
        simp only [hb]; simp
      have hE : EndsNonzero (ys ++ [c, d]) ↔ ¬ (hexVal c = 0 ∧ hexVal d = 0) := by
        constructor
        · rintro ⟨zs, c', d', h, hz⟩
          have h' := List.append_inj' h rfl
          simp only [List.cons.injEq, and_true] at h'
          obtain ⟨-, rfl, rfl⟩ := h'
          exact hz
        · intro hz
          exact ⟨ys, c, d, rfl, hz⟩
      rw [hE, Classical.not_not, ← hexPair_ne_zero hc hd, ← hl]
      constructor
      · intro hu
        apply Classical.byContradiction
        intro hz
        rw [bitlistDeserialize_ok _ hne hz] at hu
        cases hu
      · intro hz
        exact bitlistDeserialize_last_zero _ hne hz

/-- The exact condition for undefined behaviour in `Bitlist::from_hexstring`. -/
theorem bitlistFromHex_ub_iff (s : List Byte) :
    bitlistFromHex s = .ub ↔ ∃ cs, s = 0x30#8 :: 0x78#8 :: cs ∧ cs.length % 2 = 0 ∧
      (2 ^ 31 ≤ s.length ∨ (∃ c ∈ cs, 128 ≤ c.toNat) ∨ ¬ EndsNonzero cs) := by
  constructor
  · intro h
    rw [bitlistFromHex] at h
    have hs : ∃ cs, s = 0x30#8 :: 0x78#8 :: cs ∧ cs.length % 2 = 0 := by
      rcases bind_ub h with h | ⟨bs, h, -⟩
      · rw [hexString] at h
        split at h
        · cases h
        · rename_i h1
          simp only [ne_eq, Classical.not_not] at h1
          split at h
          · cases h
          · rename_i h2
            rcases s with _ | ⟨a, _ | ⟨b, cs⟩⟩
            · simp at h1
            · simp at h1
            · simp only [List.take_succ_cons, List.take_zero, List.cons.injEq, and_true] at h1
              obtain ⟨rfl, rfl⟩ := h1
              simp only [List.length_cons] at h2
              exact ⟨cs, rfl, by omega⟩
      · obtain ⟨cs, h1, h2, -⟩ := hexString_ok h
        exact ⟨cs, h1, h2⟩
    obtain ⟨cs, rfl, he⟩ := hs
    refine ⟨cs, rfl, he, ?_⟩
    by_cases hl : 2 ^ 31 ≤ (0x30#8 :: 0x78#8 :: cs).length
    · exact Or.inl hl
    · right
      rw [hexString_eq cs he (by simp only [List.length_cons] at hl; omega)] at h
      by_cases hc : ∀ c ∈ cs, c.toNat < 128
      · right
        rw [if_pos hc, Out.bind] at h
        exact (hexBytes_endsNonzero cs he hc).1 (map_ub h)
      · left
        simp only [Classical.not_forall] at hc
        obtain ⟨c, hc, h5⟩ := hc
        exact ⟨c, hc, by omega⟩
  · rintro ⟨cs, rfl, he, h⟩
    rw [bitlistFromHex]
    by_cases hl : 2 ^ 31 ≤ (0x30#8 :: 0x78#8 :: cs).length
    · rw [hexString, if_neg (by simp), if_neg (by simp only [List.length_cons]; omega), if_pos hl]; rfl
    · rw [hexString_eq cs he (by simp only [List.length_cons] at hl; omega)]
      by_cases hc : ∀ c ∈ cs, c.toNat < 128
      · rw [if_pos hc, Out.bind]
        rcases h with h | ⟨c, hc', h⟩ | h
        · exact absurd h hl
        · have := hc c hc'; omega
        · rw [(hexBytes_endsNonzero cs he hc).2 h]; rfl
      · rw [if_neg hc]; rfl

theorem bytesFromStr_ub {n : Nat} {s : List Byte} (h : bytesFromStr n s = .ub) : ∃ c ∈ s, 128 ≤ c.toNat := by
  rw [bytesFromStr_eq] at h
  split at h
  · cases h
  · split at h
    · cases h
    · split at h
      · cases h
      · rename_i h4
        simp only [Classical.not_forall] at h4
        obtain ⟨c, hc, h5⟩ := h4
        exact ⟨c, List.mem_of_mem_drop hc, by omega⟩

/-- A text on which some `from_hexstring` or `bytes_from_str` is undefined. -/
def BadText (t : Ty) (s : List Byte) : Prop :=
  2 ^ 31 ≤ s.length ∨ (∃ c ∈ s, 128 ≤ c.toNat) ∨ (noBitlist t = false ∧ ∃ cs, s = 0x30#8 :: 0x78#8 :: cs ∧ ¬ EndsNonzero cs)

theorem BadText.mono {t u : Ty} {s : List Byte} (h : BadText t s) (hm : noBitlist t = false → noBitlist u = false) : BadText u s := by
  rcases h with h | h | ⟨h1, h2⟩
  · exact Or.inl h
  · exact Or.inr (Or.inl h)
  · exact Or.inr (Or.inr ⟨hm h1, h2⟩)

theorem decodeElems_ub {α : Type} {f : Handle → Out (Bool × α)} : ∀ {ns : List Node}, decodeElems f ns = .ub → ∃ n ∈ ns, f (some n) = .ub
  | [], h => by cases h
  | n :: ns, h => by
    rw [decodeElems] at h
    rcases bind_ub h with h | ⟨v, -, h⟩
    · rw [asT] at h
      rcases bind_ub h with h | ⟨⟨b, v⟩, -, h⟩
      · exact ⟨n, by simp, h⟩
      · simp only at h; split at h <;> cases h
    · obtain ⟨m, hm, h⟩ := decodeElems_ub (map_ub h)
      exact ⟨m, by simp [hm], h⟩

theorem scalar?_ne_ub (h : Handle) : scalar? h ≠ .ub := by
  rcases h with _ | _ | _ | _ | _ <;> simp [scalar?]

theorem seq?_ne_ub (h : Handle) : seq? h ≠ .ub := by
  rcases h with _ | _ | _ | _ | _ <;> simp [seq?]

theorem subscript_ne_ub (h : Handle) (key : List Byte) : subscript h key ≠ .ub := by
  rcases h with _ | _ | _ | _ | _ <;> simp [subscript]

theorem scalar?_some {h : Handle} {s : List Byte} (hs : scalar? h = .ok (some s)) : h = some (.scalar s) := by
  rcases h with _ | _ | _ | _ | _ <;> simp_all [scalar?]

theorem seq?_some {h : Handle} {l : List Node} (hs : seq? h = .ok (some l)) : h = some (.seq l) := by
  rcases h with _ | _ | _ | _ | _ <;> simp_all [seq?]

theorem subscript_some {h : Handle} {key : List Byte} {n : Node} (hs : subscript h key = .ok (some n)) :
    ∃ l e, h = some (.map l) ∧ e ∈ l ∧ keyIs key e.1 = true ∧ e.2 = n := by
  rcases h with _ | _ | _ | _ | l
  · simp [subscript] at hs
  · simp [subscript] at hs
  · simp [subscript] at hs
  · simp [subscript] at hs
  · simp only [subscript, Out.ok.injEq, Option.map_eq_some_iff] at hs
    obtain ⟨e, h1, h2⟩ := hs
    exact ⟨l, e, rfl, List.mem_of_find?_eq_some h1, by simpa using List.find?_some h1, h2⟩

mutual
theorem decode_ub : (t : Ty) → (old : t.denote) → (h : Handle) → decode t old h = .ub → ∃ n s, h = some n ∧ HasScalar n s ∧ BadText t s
  | .uint64, old, h, hu => by rw [decode] at hu; exact absurd (map_ub hu) (scalar?_ne_ub h)
  | .boolean, old, h, hu => by rw [decode] at hu; exact absurd (map_ub hu) (scalar?_ne_ub h)
  | .bytes n, old, h, hu => by
    rw [decode] at hu
    rcases bind_ub hu with hu | ⟨a, ha, hu⟩
    · exact absurd hu (scalar?_ne_ub h)
    · cases a with
      | none => cases hu
      | some s => exact ⟨_, s, scalar?_some ha, .self s, Or.inr (Or.inl (bytesFromStr_ub (map_ub hu)))⟩
  | .bitvector n, old, h, hu => by
    rw [decode] at hu
    rcases bind_ub hu with hu | ⟨a, ha, hu⟩
    · exact absurd hu (scalar?_ne_ub h)
    · cases a with
      | none => cases hu
      | some s =>
        refine ⟨_, s, scalar?_some ha, .self s, ?_⟩
        rcases hexString_ub (map_ub (map_ub hu)) with h | h
        · exact Or.inl h
        · exact Or.inr (Or.inl h)
  | .bitlist n, old, h, hu => by
    rw [decode] at hu
    rcases bind_ub hu with hu | ⟨a, ha, hu⟩
    · exact absurd hu (scalar?_ne_ub h)
    · cases a with
      | none => cases hu
      | some s =>
        refine ⟨_, s, scalar?_some ha, .self s, ?_⟩
        obtain ⟨cs, h1, -, h | ⟨c, hc, h⟩ | h⟩ := (bitlistFromHex_ub_iff s).1 (map_ub hu)
        · exact Or.inl h
        · exact Or.inr (Or.inl ⟨c, by rw [h1]; simp [hc], h⟩)
        · exact Or.inr (Or.inr ⟨rfl, cs, h1, h⟩)
  | .vector t n, old, h, hu => by
    rw [decode] at hu
    rcases bind_ub hu with hu | ⟨a, ha, hu⟩
    · exact absurd hu (seq?_ne_ub h)
    · cases a with
      | none => cases hu
      | some l =>
        simp only at hu
        split at hu
        · obtain ⟨m, hm, hu⟩ := decodeElems_ub (map_ub hu)
          obtain ⟨m', s, h1, h2, h3⟩ := decode_ub t _ _ hu
          cases h1
          exact ⟨_, s, seq?_some ha, .elem hm h2, h3.mono (by intro h; rw [noBitlist]; exact h)⟩
        · cases hu
  | .listF t n, old, h, hu => by
    rw [decode] at hu
    rcases bind_ub hu with hu | ⟨a, ha, hu⟩
    · exact absurd hu (seq?_ne_ub h)
    · cases a with
      | none => cases hu
      | some l =>
        obtain ⟨m, hm, hu⟩ := decodeElems_ub (map_ub hu)
        obtain ⟨m', s, h1, h2, h3⟩ := decode_ub t _ _ hu
        cases h1
        exact ⟨_, s, seq?_some ha, .elem hm h2, h3.mono (by intro h; rw [noBitlist]; exact h)⟩
  | .listV t n, old, h, hu => by
    rw [decode] at hu
    rcases bind_ub hu with hu | ⟨a, ha, hu⟩
    · exact absurd hu (seq?_ne_ub h)
    · cases a with
      | none => cases hu
      | some l =>
        obtain ⟨m, hm, hu⟩ := decodeElems_ub (map_ub hu)
        obtain ⟨m', s, h1, h2, h3⟩ := decode_ub t _ _ hu
        cases h1
        exact ⟨_, s, seq?_some ha, .elem hm h2, h3.mono (by intro h; rw [noBitlist]; exact h)⟩
  | .container a b ps, old, h, hu => by
    rw [decode] at hu
    exact decodeParts_ub ps old h hu a b

theorem decodeParts_ub : (ps : Parts) → (old : ps.denote) → (h : Handle) → decodeParts ps old h = .ub → (a : Nat) → (b : Bool) →
    ∃ n s, h = some n ∧ HasScalar n s ∧ BadText (.container a b ps) s
  | .nil, _, _, hu, _, _ => by cases hu
  | .cons name t ps, old, h, hu, a, b => by
    rw [decodeParts] at hu
    rcases bind_ub hu with hu | ⟨x, hx, hu⟩
    · exact absurd hu (subscript_ne_ub h _)
    · rcases bind_ub hu with hu | ⟨⟨c, v⟩, -, hu⟩
      · obtain ⟨m, s, rfl, h2, h3⟩ := decode_ub t _ _ hu
        obtain ⟨l, e, rfl, he, -, rfl⟩ := subscript_some hx
        exact ⟨_, s, rfl, .value he h2, h3.mono (by intro h; rw [noBitlist, noBitlistParts, h]; rfl)⟩
      · simp only at hu
        split at hu
        · obtain ⟨m, s, h1, h2, h3⟩ := decodeParts_ub ps _ _ (map_ub hu) a b
          refine ⟨m, s, h1, h2, h3.mono ?_⟩
          intro h
          rw [noBitlist] at h
          rw [noBitlist, noBitlistParts, h]
          simp
        · cases hu
end

/-! ## Keys -/

/-- Containers look at the values of their members' names only. -/
theorem decodeParts_lookup : (ps : Parts) → (old : ps.denote) → (h h' : Handle) →
    (∀ n ∈ names ps, subscript h (chars n) = subscript h' (chars n)) → decodeParts ps old h = decodeParts ps old h'
  | .nil, _, _, _, _ => rfl
  | .cons name t ps, old, h, h', hs => by
    rw [decodeParts, decodeParts, hs name (by simp [names]), decodeParts_lookup ps old.2 h h' fun n hn => hs n (by simp [names, hn])]

theorem decode_missing (t : Ty) (old : t.denote) (ht : ∀ a b, t ≠ .container a b .nil) : decode t old none = .throws .yamlInvalidNode := by
  cases t with
  | container a b ps =>
    cases ps with
    | nil => exact absurd rfl (ht a b)
    | cons name t ps => rfl
  | _ => rfl

theorem decodeParts_required : (ps : Parts) → (old v : ps.denote) → (h : Handle) → decodeParts ps old h = .ok (true, v) →
    ∀ n t, (n, t) ∈ partsList ps → (∀ a b, t ≠ .container a b .nil) → ∃ m, subscript h (chars n) = .ok (some m)
  | .nil, _, _, _, _, n, t, hm, _ => by simp [partsList] at hm
  | .cons name t ps, old, v, h, hd, n, u, hm, hu => by
    rw [decodeParts] at hd
    rcases hs : subscript h (chars name) with x | e | _
    · rw [hs, Out.bind] at hd
      rcases hx : decode t old.1 x with ⟨b, w⟩ | e | _
      · rw [hx, Out.bind] at hd
        cases b
        · simp at hd
        · simp only [if_true] at hd
          rcases hp : decodeParts ps old.2 h with ⟨c, y⟩ | e | _
          · rw [hp, Out.map] at hd
            have h7 := Out.ok.inj hd
            simp only [Prod.mk.injEq] at h7
            obtain ⟨rfl, -⟩ := h7
            rw [partsList, List.mem_cons] at hm
            rcases hm with hm | hm
            · cases hm
              cases x with
              | some m => exact ⟨m, hs⟩
              | none => rw [decode_missing t _ hu] at hx; cases hx
            · exact decodeParts_required ps old.2 y h hp n u hm hu
          · rw [hp] at hd; cases hd
          · rw [hp] at hd; cases hd
      · rw [hx] at hd; cases hd
      · rw [hx] at hd; cases hd
    · rw [hs] at hd; cases hd
    · rw [hs] at hd; cases hd

end Mammon.Yaml
