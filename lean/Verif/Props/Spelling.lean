import Mathlib.Data.List.Induction
import Verif.Props.Types
import Verif.Props.Display
/-!
# Which strings are GUIDs, and which are partition types: C104

`c50_guid` and `c50_rejects` speak of what `Uuid::try_parse` returns. Here the strings are described by their characters, so that C50 can
be said without the parser.
-/

namespace Gpt

open Spec

/-- `c` is the hexadecimal digit of value `v`, as `0`-`9`, `A`-`F` or `a`-`f`. -/
def Spec.IsDigit (c : UInt8) (v : Nat) : Prop := v < 16 ∧
  ((v < 10 ∧ c.toNat = 48 + v) ∨ (10 ≤ v ∧ c.toNat = 65 + (v - 10)) ∨ (10 ≤ v ∧ c.toNat = 97 + (v - 10)))

/-- The `w` hexadecimal digits of `n`, most significant first. -/
def Spec.hexDigits (w n : Nat) : List Nat := (List.range w).map fun i => n / 16 ^ (w - 1 - i) % 16

/-- The 128-bit number of a GUID as it is written. -/
def Spec.guidNumber (u : Uuid) : Nat := u.d1.toNat * 2 ^ 96 + u.d2.toNat * 2 ^ 80 + u.d3.toNat * 2 ^ 64 + u.d4.toNat

/-- The 32 digits of `u`. -/
def Spec.Digits (s : Bytes) (u : Uuid) : Prop := List.Forall₂ IsDigit s (hexDigits 32 (guidNumber u))

/-- The digits of `u` in groups of 8, 4, 4, 4 and 12 with `-` between them. -/
def Spec.Hyphenated (s : Bytes) (u : Uuid) : Prop := ∃ a b c d e : Bytes, a.length = 8 ∧ b.length = 4 ∧ c.length = 4 ∧ d.length = 4 ∧
  e.length = 12 ∧ s = a ++ [45] ++ b ++ [45] ++ c ++ [45] ++ d ++ [45] ++ e ∧ Digits (a ++ b ++ c ++ d ++ e) u

/-- `{` and `}` around. -/
def Spec.Braced (s : Bytes) (u : Uuid) : Prop := ∃ t, s = [123] ++ t ++ [125] ∧ Hyphenated t u

/-- With the prefix `urn:uuid:`. -/
def Spec.Urn (s : Bytes) (u : Uuid) : Prop := ∃ t, s = [117, 114, 110, 58, 117, 117, 105, 100, 58] ++ t ∧ Hyphenated t u

theorem hexVal_digit (c : UInt8) (v : Nat) : Uuid.hexVal c = some v ↔ IsDigit c v := by
  have h : c.toNat < 256 := c.toNat_lt
  unfold Uuid.hexVal IsDigit
  simp only [UInt8.le_iff_toNat_le]
  simp only [show (48 : UInt8).toNat = 48 from rfl, show (57 : UInt8).toNat = 57 from rfl, show (65 : UInt8).toNat = 65 from rfl,
    show (70 : UInt8).toNat = 70 from rfl, show (97 : UInt8).toNat = 97 from rfl, show (102 : UInt8).toNat = 102 from rfl]
  split_ifs <;> simp only [Option.some.injEq, false_iff] <;> omega

theorem hexDigits_length (w n : Nat) : (hexDigits w n).length = w := by simp [hexDigits]

theorem hexDigits_succ (w n : Nat) : hexDigits (w + 1) n = hexDigits w (n / 16) ++ [n % 16] := by
  unfold hexDigits
  rw [List.range_succ, List.map_append, List.map_singleton, Nat.add_sub_cancel, Nat.sub_self, pow_zero, Nat.div_one]
  congr 1
  refine List.map_congr_left fun i hi => ?_
  rw [List.mem_range] at hi
  rw [Nat.div_div_eq_div_mul, ← Nat.pow_succ', show w - i = w - 1 - i + 1 by omega]

theorem forall2_snoc {α β : Type} {R : α → β → Prop} {s : List α} {t : List β} {a : α} {b : β} :
    List.Forall₂ R (s ++ [a]) (t ++ [b]) ↔ List.Forall₂ R s t ∧ R a b := by
  rw [← List.forall₂_reverse_iff, List.reverse_append, List.reverse_append, List.reverse_singleton, List.reverse_singleton,
    List.singleton_append, List.singleton_append, List.forall₂_cons, List.forall₂_reverse_iff]
  exact and_comm

theorem parseHex_digits (s : Bytes) : ∀ n, Uuid.parseHex 0 s = some n ↔ n < 16 ^ s.length ∧ List.Forall₂ IsDigit s (hexDigits s.length n) := by
  induction s using List.reverseRecOn with
  | nil => intro n; simp [Uuid.parseHex, hexDigits]; omega
  | append_singleton s c ih =>
    intro n
    rw [parseHex_append, List.length_append, List.length_singleton, hexDigits_succ, forall2_snoc, pow_succ]
    constructor
    · intro h
      cases hs : Uuid.parseHex 0 s with
      | none => rw [hs] at h; simp at h
      | some a =>
        rw [hs] at h
        simp only [Option.bind_some, Uuid.parseHex] at h
        cases hc : Uuid.hexVal c with
        | none => rw [hc] at h; simp at h
        | some v =>
          rw [hc] at h
          simp only [Option.some.injEq] at h
          have hv := hexVal_lt c v hc
          obtain ⟨h1, h2⟩ := (ih a).mp hs
          rw [show n / 16 = a by omega, show n % 16 = v by omega]
          exact ⟨by omega, h2, (hexVal_digit c v).mp hc⟩
    · rintro ⟨hn, h2, hc⟩
      rw [(ih (n / 16)).mpr ⟨by omega, h2⟩]
      simp only [Option.bind_some, Uuid.parseHex, (hexVal_digit c _).mpr hc, Option.some.injEq]
      omega

theorem guidNumber_lt (u : Uuid) : guidNumber u < 2 ^ 128 := by
  unfold guidNumber
  have h1 : u.d1.toNat < 2 ^ 32 := u.d1.toNat_lt
  have h2 : u.d2.toNat < 2 ^ 16 := u.d2.toNat_lt
  have h3 : u.d3.toNat < 2 ^ 16 := u.d3.toNat_lt
  have h4 : u.d4.toNat < 2 ^ 64 := u.d4.toNat_lt
  omega

theorem ofNat_guidNumber (u : Uuid) : Uuid.ofNat (guidNumber u) = u := by
  unfold Uuid.ofNat guidNumber
  have h1 : u.d1.toNat < 2 ^ 32 := u.d1.toNat_lt
  have h2 : u.d2.toNat < 2 ^ 16 := u.d2.toNat_lt
  have h3 : u.d3.toNat < 2 ^ 16 := u.d3.toNat_lt
  have h4 : u.d4.toNat < 2 ^ 64 := u.d4.toNat_lt
  rcases u with ⟨d1, d2, d3, d4⟩
  simp only at h1 h2 h3 h4 ⊢
  congr 1
  · apply UInt32.toNat_inj.mp
    rw [UInt32.toNat_ofNat']
    omega
  · apply UInt16.toNat_inj.mp
    rw [UInt16.toNat_ofNat']
    omega
  · apply UInt16.toNat_inj.mp
    rw [UInt16.toNat_ofNat']
    omega
  · apply UInt64.toNat_inj.mp
    rw [UInt64.toNat_ofNat']
    omega

theorem parseSimple_digits {s : Bytes} (hs : s.length = 32) (u : Uuid) : Uuid.parseSimple s = some u ↔ Digits s u := by
  have hp : (16 : Nat) ^ 32 = 2 ^ 128 := by norm_num
  unfold Uuid.parseSimple Digits
  rw [Option.map_eq_some_iff]
  have key := parseHex_digits s
  rw [hs, hp] at key
  constructor
  · rintro ⟨n, h, rfl⟩
    obtain ⟨a, b⟩ := (key n).mp h
    rwa [Uuid.ofNat_inj (guidNumber_lt _) a (ofNat_guidNumber _)]
  · intro h
    exact ⟨guidNumber u, (key _).mpr ⟨guidNumber_lt u, h⟩, ofNat_guidNumber u⟩

theorem Spec.Digits.length {s : Bytes} {u : Uuid} (h : Digits s u) : s.length = 32 := by
  rw [h.length_eq, hexDigits_length]

theorem Spec.Hyphenated.length {s : Bytes} {u : Uuid} (h : Hyphenated s u) : s.length = 36 := by
  obtain ⟨a, b, c, d, e, ha, hb, hc, hd, he, rfl, -⟩ := h
  simp only [List.length_append, List.length_singleton]
  omega

theorem rd8_mid {s p q : Bytes} {x : UInt8} {i : Nat} (h : s = p ++ [x] ++ q) (hi : p.length = i) : rd8 s i = x := by
  subst h hi
  unfold rd8
  simp

theorem parseHyphenated_hyphenated (s : Bytes) (u : Uuid) : Uuid.parseHyphenated s = some u ↔ Hyphenated s u := by
  unfold Uuid.parseHyphenated
  constructor
  · intro h
    split_ifs at h with hc
    obtain ⟨hl, h8, h13, h18, h23⟩ := hc
    have l : ∀ a n, a + n ≤ 36 → (slice s a n).length = n := fun a n hn => slice_length_of_le (by omega)
    refine ⟨slice s 0 8, slice s 9 4, slice s 14 4, slice s 19 4, slice s 24 12, l _ _ (by omega), l _ _ (by omega), l _ _ (by omega),
      l _ _ (by omega), l _ _ (by omega), ?_, (parseSimple_digits ?_ u).mp h⟩
    · have o : ∀ i, i < 36 → rd8 s i = 45 → slice s i 1 = [45] := fun i hi h => by rw [slice_one (by omega), h]
      have e : slice s 0 (8 + 1 + 4 + 1 + 4 + 1 + 4 + 1 + 12) = s := slice_zero_length hl
      simp only [slice_add] at e
      rw [← o 8 (by omega) h8]
      conv_lhs => rw [← e]
      simp only [Nat.zero_add, Nat.reduceAdd, o 8 (by omega) h8, o 13 (by omega) h13, o 18 (by omega) h18, o 23 (by omega) h23]
    · simp only [List.length_append, l _ _ (show 0 + 8 ≤ 36 by omega), l _ _ (show 9 + 4 ≤ 36 by omega), l _ _ (show 14 + 4 ≤ 36 by omega),
        l _ _ (show 19 + 4 ≤ 36 by omega), l _ _ (show 24 + 12 ≤ 36 by omega)]
  · intro hh
    have hl := hh.length
    obtain ⟨a, b, c, d, e, ha, hb, hc, hd, he, rfl, h⟩ := hh
    have s0 : slice (a ++ [45] ++ b ++ [45] ++ c ++ [45] ++ d ++ [45] ++ e) 0 8 = a := by
      simp only [List.append_assoc]
      exact slice_head ha
    have s9 : slice (a ++ [45] ++ b ++ [45] ++ c ++ [45] ++ d ++ [45] ++ e) 9 4 = b := by
      rw [show a ++ [45] ++ b ++ [45] ++ c ++ [45] ++ d ++ [45] ++ e = (a ++ [45]) ++ (b ++ ([45] ++ c ++ [45] ++ d ++ [45] ++ e)) by
        simp only [List.append_assoc], slice_skip (by simp [ha])]
      simp only [List.length_append, ha, List.length_singleton]
      exact slice_head hb
    have s14 : slice (a ++ [45] ++ b ++ [45] ++ c ++ [45] ++ d ++ [45] ++ e) 14 4 = c := by
      rw [show a ++ [45] ++ b ++ [45] ++ c ++ [45] ++ d ++ [45] ++ e = (a ++ [45] ++ b ++ [45]) ++ (c ++ ([45] ++ d ++ [45] ++ e)) by
        simp only [List.append_assoc], slice_skip (by simp [ha, hb])]
      simp only [List.length_append, ha, hb, List.length_singleton]
      exact slice_head hc
    have s19 : slice (a ++ [45] ++ b ++ [45] ++ c ++ [45] ++ d ++ [45] ++ e) 19 4 = d := by
      rw [show a ++ [45] ++ b ++ [45] ++ c ++ [45] ++ d ++ [45] ++ e = (a ++ [45] ++ b ++ [45] ++ c ++ [45]) ++ (d ++ ([45] ++ e)) by
        simp only [List.append_assoc], slice_skip (by simp [ha, hb, hc])]
      simp only [List.length_append, ha, hb, hc, List.length_singleton]
      exact slice_head hd
    have s24 : slice (a ++ [45] ++ b ++ [45] ++ c ++ [45] ++ d ++ [45] ++ e) 24 12 = e := by
      rw [slice_skip (by simp [ha, hb, hc, hd])]
      simp only [List.length_append, ha, hb, hc, hd, List.length_singleton]
      exact slice_zero_length he
    rw [if_pos ⟨hl, rd8_mid (p := a) (q := b ++ [45] ++ c ++ [45] ++ d ++ [45] ++ e) (by simp only [List.append_assoc]) ha,
      rd8_mid (p := a ++ [45] ++ b) (q := c ++ [45] ++ d ++ [45] ++ e) (by simp only [List.append_assoc]) (by simp [ha, hb]),
      rd8_mid (p := a ++ [45] ++ b ++ [45] ++ c) (q := d ++ [45] ++ e) (by simp only [List.append_assoc]) (by simp [ha, hb, hc]),
      rd8_mid (p := a ++ [45] ++ b ++ [45] ++ c ++ [45] ++ d) (q := e) (by simp only [List.append_assoc]) (by simp [ha, hb, hc, hd])⟩,
      s0, s9, s14, s19, s24]
    refine (parseSimple_digits ?_ u).mpr h
    simp only [List.length_append]
    omega

/-- **C104**: the strings that are GUIDs. -/
theorem c104_guid (s : Bytes) (u : Uuid) : Uuid.tryParse s = some u ↔ Digits s u ∨ Hyphenated s u ∨ Braced s u ∨ Urn s u := by
  have hbr : ∀ {u}, Braced s u → s.length = 38 := by
    rintro u ⟨t, rfl, h⟩
    have := h.length
    simp only [List.length_append, List.length_singleton]
    omega
  have hur : ∀ {u}, Urn s u → s.length = 45 := by
    rintro u ⟨t, rfl, h⟩
    have := h.length
    simp only [List.length_append, List.length_cons, List.length_nil]
    omega
  have lens : (Digits s u → s.length = 32) ∧ (Hyphenated s u → s.length = 36) ∧ (Braced s u → s.length = 38) ∧ (Urn s u → s.length = 45) :=
    ⟨Digits.length, Hyphenated.length, hbr, hur⟩
  obtain ⟨l1, l2, l3, l4⟩ := lens
  unfold Uuid.tryParse
  split_ifs with h1 h2 h3 h4
  · rw [parseSimple_digits h1]
    refine ⟨.inl, ?_⟩
    rintro (h | h | h | h)
    · exact h
    · have := l2 h; omega
    · have := l3 h; omega
    · have := l4 h; omega
  · rw [parseHyphenated_hyphenated]
    refine ⟨fun h => .inr (.inl h), ?_⟩
    rintro (h | h | h | h)
    · have := l1 h; omega
    · exact h
    · have := l3 h; omega
    · have := l4 h; omega
  · obtain ⟨hl, h0, h37⟩ := h3
    rw [parseHyphenated_hyphenated]
    refine ⟨fun h => .inr (.inr (.inl ⟨_, ?_, h⟩)), ?_⟩
    · have e : slice s 0 (1 + 36 + 1) = s := slice_zero_length hl
      simp only [slice_add] at e
      simp only [Nat.zero_add, Nat.reduceAdd] at e
      rwa [slice_one (i := 0) (by omega), slice_one (i := 37) (by omega), h0, h37, eq_comm] at e
    · rintro (h | h | h | h)
      · have := l1 h; omega
      · have := l2 h; omega
      · obtain ⟨t, rfl, h⟩ := h
        rw [List.append_assoc, slice_skip (by simp)]
        simp only [List.length_singleton, Nat.sub_self]
        rwa [slice_head h.length]
      · have := l4 h; omega
  · obtain ⟨hl, h0⟩ := h4
    rw [parseHyphenated_hyphenated]
    refine ⟨fun h => .inr (.inr (.inr ⟨_, ?_, h⟩)), ?_⟩
    · have e : slice s 0 (9 + 36) = s := slice_zero_length hl
      simp only [slice_add, Nat.zero_add] at e
      rwa [h0, eq_comm] at e
    · rintro (h | h | h | h)
      · have := l1 h; omega
      · have := l2 h; omega
      · have := l3 h; omega
      · obtain ⟨t, rfl, h⟩ := h
        rw [slice_skip (by simp)]
        simp only [List.length_cons, List.length_nil, Nat.zero_add, Nat.reduceAdd, Nat.sub_self]
        rwa [slice_zero_length h.length]
  · refine iff_of_false (by simp) ?_
    rintro (h | h | h | h)
    · exact h1 (l1 h)
    · exact h2 (l2 h)
    · refine h3 ⟨l3 h, ?_⟩
      obtain ⟨t, rfl, h⟩ := h
      exact ⟨rd8_mid (p := []) (q := t ++ [125]) (by simp) rfl, rd8_mid (p := [123] ++ t) (q := []) (by simp) (by simp [h.length])⟩
    · refine h4 ⟨l4 h, ?_⟩
      obtain ⟨t, rfl, h⟩ := h
      exact slice_head rfl

/-- **C104**, types: `Type::from_str` returns `t` exactly for the names of the constant `t` in any letter case, the hyphenated strings of
GUIDs that convert to `t`, and, if `t` has no operating system, the other strings of its GUID. -/
theorem c104_type (s : Bytes) (t : PType) : PType.fromStr s = .ok t ↔
    (∃ r ∈ typeTable, SameText s (utf8 r.name) ∧ t = r.toType) ∨ (∃ u, Hyphenated s u ∧ t = PType.ofGuid u) ∨
      (∃ u, (Digits s u ∨ Braced s u ∨ Urn s u) ∧ t = ⟨u, .none⟩) := by
  have hhy : ∀ {u}, Hyphenated s u → PType.fromStr s = .ok (PType.ofGuid u) := fun h =>
    c50_hyphenated_partial s _ h.length ((c104_guid s _).mpr (.inr (.inl h)))
  have hot : ∀ {u}, Digits s u ∨ Braced s u ∨ Urn s u → PType.fromStr s = .ok ⟨u, .none⟩ := by
    intro u h
    refine c50_other_forms s u ?_ ((c104_guid s u).mpr ?_)
    · rcases h with h | ⟨t, rfl, h⟩ | ⟨t, rfl, h⟩
      · rw [h.length]; decide
      · have := h.length
        simp only [List.length_append, List.length_singleton]
        omega
      · have := h.length
        simp only [List.length_append, List.length_cons, List.length_nil]
        omega
    · tauto
  constructor
  · intro h
    by_cases hn : ∃ r ∈ typeTable, SameText s (utf8 r.name)
    · obtain ⟨r, hr, e⟩ := hn
      rw [(c50_name r hr s e).1] at h
      exact .inl ⟨r, hr, e, (Res.ok.inj h).symm⟩
    · cases hu : Uuid.tryParse s with
      | none =>
        rw [(c50_rejects s).mpr ⟨fun r hr e => hn ⟨r, hr, e⟩, hu⟩] at h
        cases h
      | some u =>
        have hf := (c104_guid s u).mp hu
        by_cases hh : Hyphenated s u
        · rw [hhy hh] at h
          exact .inr (.inl ⟨u, hh, (Res.ok.inj h).symm⟩)
        · have hf' : Digits s u ∨ Braced s u ∨ Urn s u := by tauto
          rw [hot hf'] at h
          exact .inr (.inr ⟨u, hf', (Res.ok.inj h).symm⟩)
  · rintro (⟨r, hr, e, rfl⟩ | ⟨u, h, rfl⟩ | ⟨u, h, rfl⟩)
    · exact (c50_name r hr s e).1
    · exact hhy h
    · exact hot h

/-- **C104**, a string spells at most one GUID, and a GUID has one spelling of each form up to letter case. -/
theorem c104_unique (s t : Bytes) (u v : Uuid) :
    ((Digits s u ∨ Hyphenated s u ∨ Braced s u ∨ Urn s u) → (Digits s v ∨ Hyphenated s v ∨ Braced s v ∨ Urn s v) → u = v) ∧
    (Digits s u → (Digits t u ↔ SameText t s)) ∧ (Hyphenated s u → (Hyphenated t u ↔ SameText t s)) := by
  refine ⟨fun hu hv => ?_, fun hs => ?_, fun hs => ?_⟩
  · rw [← c104_guid] at hu hv
    exact Option.some.inj (hu.symm.trans hv)
  · have hl := hs.length
    rw [sameText_upper]
    constructor
    · exact fun ht => parseSimple_inj ht.length hl ((parseSimple_digits ht.length u).mpr ht) ((parseSimple_digits hl u).mpr hs)
    · intro e
      have hlt : t.length = 32 := by rw [← upper_length, e, upper_length, hl]
      rw [← parseSimple_digits hlt]
      rw [← parseSimple_digits hl] at hs
      unfold Uuid.parseSimple at hs ⊢
      rwa [← parseHex_upper, e, parseHex_upper]
  · rw [sameText_upper, ← parseHyphenated_hyphenated]
    rw [← parseHyphenated_hyphenated] at hs
    exact ⟨fun ht => parseHyphenated_inj ht hs, fun e => by rw [← parseHyphenated_upper, e, parseHyphenated_upper, hs]⟩

/-- **C104**, display: what `Display` writes for a GUID is its hyphenated string, and `{`, `}` or the prefix may be added. -/
theorem c104_display (u : Uuid) : Hyphenated u.display u ∧ Braced ([123] ++ u.display ++ [125]) u ∧
    Urn (utf8 "urn:uuid:" ++ u.display) u := by
  have h := (parseHyphenated_hyphenated _ _).mp (Uuid.parse_display u)
  exact ⟨h, ⟨_, rfl, h⟩, ⟨_, by rw [show utf8 "urn:uuid:" = [117, 114, 110, 58, 117, 117, 105, 100, 58] by decide +kernel], h⟩⟩

/-! ## The hypotheses are met -/

/-- All four forms of the GUID of Linux file systems, in both cases. -/
example : (Digits (utf8 "0fc63daf848347728e793d69d8477DE4") ⟨0x0FC63DAF, 0x8483, 0x4772, 0x8E793D69D8477DE4⟩) ∧
    Hyphenated (utf8 "0fc63daf-8483-4772-8e79-3d69d8477DE4") ⟨0x0FC63DAF, 0x8483, 0x4772, 0x8E793D69D8477DE4⟩ ∧
    Braced (utf8 "{0fc63daf-8483-4772-8e79-3d69d8477DE4}") ⟨0x0FC63DAF, 0x8483, 0x4772, 0x8E793D69D8477DE4⟩ ∧
    Urn (utf8 "urn:uuid:0fc63daf-8483-4772-8e79-3d69d8477DE4") ⟨0x0FC63DAF, 0x8483, 0x4772, 0x8E793D69D8477DE4⟩ := by
  refine ⟨(parseSimple_digits (by decide +kernel) _).mp (by decide +kernel), (parseHyphenated_hyphenated _ _).mp (by decide +kernel), ?_, ?_⟩
  · exact ⟨utf8 "0fc63daf-8483-4772-8e79-3d69d8477DE4", by decide +kernel, (parseHyphenated_hyphenated _ _).mp (by decide +kernel)⟩
  · exact ⟨utf8 "0fc63daf-8483-4772-8e79-3d69d8477DE4", by decide +kernel, (parseHyphenated_hyphenated _ _).mp (by decide +kernel)⟩

/-- The prefix has to be in lower case, and braces need hyphens. -/
example : PType.fromStr (utf8 "URN:UUID:0fc63daf-8483-4772-8e79-3d69d8477de4") = .err "Invalid Partition Type GUID." ∧
    PType.fromStr (utf8 "{0fc63daf848347728e793d69d8477de4}") = .err "Invalid Partition Type GUID." := by
  decide +kernel

end Gpt
