import Verif.Model.PartitionTypes
import Verif.Lemmas.Entry
import Verif.Spec.Text
/-!
# C49, C50: partition types

`typeTable` is a table in the source; what is specific to its rows is evaluated by the kernel once
(`table_ok`, `table_distinct`), everything else is proved for all GUIDs and all strings.
-/

namespace Gpt

open Spec

theorem forall_u8 {p : UInt8 → Prop} (h : ∀ n : Fin 256, p (UInt8.ofFin n)) (c : UInt8) : p c := h c.toFin

theorem hexVal_upper : ∀ c, Uuid.hexVal (upperByte c) = Uuid.hexVal c := forall_u8 (by decide +kernel)

theorem upper_hyphen : ∀ c, upperByte c = 45 → c = 45 := forall_u8 (by decide +kernel)

theorem nodup_index {α : Type} {l : List α} (h : l.Nodup) {i j : Nat} (hi : i < l.length) (hj : j < l.length)
    (e : l[i] = l[j]) : i = j := by
  have hp := List.pairwise_iff_getElem.mp h
  rcases Nat.lt_trichotomy i j with hlt | heq | hgt
  · exact absurd e (hp i j hi hj hlt)
  · exact heq
  · exact absurd e.symm (hp j i hj hi hgt)

theorem hexVal_lt : ∀ c v, Uuid.hexVal c = some v → v < 16 := by
  have : ∀ c, ∀ v ∈ Uuid.hexVal c, v < 16 := forall_u8 (by decide +kernel)
  exact fun c v h => this c v h

theorem hexVal_inj (c d : UInt8) (v : Nat) (hc : Uuid.hexVal c = some v) (hd : Uuid.hexVal d = some v) :
    upperByte c = upperByte d := by
  have key : ∀ c, ∀ v ∈ Uuid.hexVal c, upperByte c = if v < 10 then UInt8.ofNat (v + 48) else UInt8.ofNat (v + 55) :=
    forall_u8 (by decide +kernel)
  rw [key c v hc, key d v hd]

/-- Digits are determined by the value. -/
theorem parseHex_inj : ∀ (s t : Bytes) (a b n : Nat), s.length = t.length → Uuid.parseHex a s = some n →
    Uuid.parseHex b t = some n → a = b ∧ upper s = upper t := by
  intro s
  induction s with
  | nil =>
    intro t a b n hl hs ht
    cases t with
    | nil => simp only [Uuid.parseHex, Option.some.injEq] at hs ht; exact ⟨hs.trans ht.symm, rfl⟩
    | cons => simp at hl
  | cons c s ih =>
    intro t a b n hl hs ht
    cases t with
    | nil => simp at hl
    | cons d t =>
      simp only [Uuid.parseHex] at hs ht
      cases hc : Uuid.hexVal c with
      | none => rw [hc] at hs; simp at hs
      | some v =>
        cases hd : Uuid.hexVal d with
        | none => rw [hd] at ht; simp at ht
        | some w =>
          rw [hc] at hs
          rw [hd] at ht
          obtain ⟨h1, h2⟩ := ih t _ _ n (by simpa using hl) hs ht
          have hv := hexVal_lt c v hc
          have hw := hexVal_lt d w hd
          have hvw : v = w := by omega
          subst hvw
          refine ⟨by omega, ?_⟩
          simp only [upper, List.map_cons, List.cons.injEq]
          exact ⟨hexVal_inj c d v hc hd, h2⟩

/-- The value of 32 digits fits 128 bits, so it is determined by the UUID. -/
theorem parseHex_lt : ∀ (s : Bytes) (a n : Nat), Uuid.parseHex a s = some n → n < 16 ^ s.length * (a + 1) := by
  intro s
  induction s with
  | nil => intro a n h; simp only [Uuid.parseHex, Option.some.injEq] at h; simp [h]
  | cons c s ih =>
    intro a n h
    simp only [Uuid.parseHex] at h
    cases hc : Uuid.hexVal c with
    | none => rw [hc] at h; simp at h
    | some v =>
      rw [hc] at h
      have h1 := ih _ _ h
      have hv := hexVal_lt c v hc
      calc n < 16 ^ s.length * (16 * a + v + 1) := h1
        _ ≤ 16 ^ s.length * (16 * (a + 1)) := Nat.mul_le_mul_left _ (by omega)
        _ = 16 ^ (s.length + 1) * (a + 1) := by rw [Nat.pow_succ, Nat.mul_assoc]

theorem Uuid.ofNat_inj {n k : Nat} (hn : n < 2 ^ 128) (hk : k < 2 ^ 128) (h : Uuid.ofNat n = Uuid.ofNat k) : n = k := by
  simp only [Uuid.ofNat, Uuid.mk.injEq] at h
  obtain ⟨h1, h2, h3, h4⟩ := h
  have e1 := congrArg UInt32.toNat h1
  have e2 := congrArg UInt16.toNat h2
  have e3 := congrArg UInt16.toNat h3
  have e4 := congrArg UInt64.toNat h4
  simp only [UInt32.toNat_ofNat', UInt16.toNat_ofNat', UInt64.toNat_ofNat'] at e1 e2 e3 e4
  omega

theorem parseSimple_inj {s t : Bytes} {u : Uuid} (hs : s.length = 32) (ht : t.length = 32)
    (h1 : Uuid.parseSimple s = some u) (h2 : Uuid.parseSimple t = some u) : upper s = upper t := by
  simp only [Uuid.parseSimple, Option.map_eq_some_iff] at h1 h2
  obtain ⟨n, hn, rfl⟩ := h1
  obtain ⟨k, hk, he⟩ := h2
  have b1 := parseHex_lt _ _ _ hn
  have b2 := parseHex_lt _ _ _ hk
  rw [hs] at b1
  rw [ht] at b2
  have := Uuid.ofNat_inj (by omega) (by omega) he
  subst this
  exact (parseHex_inj s t 0 0 _ (by omega) hn hk).2

theorem parseHex_upper : ∀ (s : Bytes) (a : Nat), Uuid.parseHex a (upper s) = Uuid.parseHex a s := by
  intro s
  induction s with
  | nil => intro a; rfl
  | cons c s ih =>
    intro a
    simp only [upper, List.map_cons, Uuid.parseHex, hexVal_upper]
    cases Uuid.hexVal c with
    | none => rfl
    | some v => exact ih _

@[simp] theorem upper_length (s : Bytes) : (upper s).length = s.length := by simp [upper]

theorem upper_slice (s : Bytes) (a n : Nat) : upper (slice s a n) = slice (upper s) a n := by
  simp [upper, slice, List.map_take, List.map_drop]

theorem upper_append (s t : Bytes) : upper (s ++ t) = upper s ++ upper t := by simp [upper]

theorem rd8_upper {s : Bytes} {i : Nat} (h : i < s.length) : rd8 (upper s) i = upperByte (rd8 s i) := by
  rw [rd8_eq, rd8_eq, byteAt, byteAt, upper, List.getElem?_map, List.getElem?_eq_getElem h]
  rfl

/-- The letter case of the digits does not matter. -/
theorem parseHyphenated_upper (s : Bytes) : Uuid.parseHyphenated (upper s) = Uuid.parseHyphenated s := by
  unfold Uuid.parseHyphenated
  rw [upper_length]
  by_cases hl : s.length = 36
  · have hy : ∀ i, i < 36 → (rd8 (upper s) i = 45 ↔ rd8 s i = 45) := by
      intro i hi
      rw [rd8_upper (by omega)]
      exact ⟨upper_hyphen _, fun h => by rw [h]; decide⟩
    simp only [hy 8 (by omega), hy 13 (by omega), hy 18 (by omega), hy 23 (by omega)]
    rw [← upper_slice, ← upper_slice, ← upper_slice, ← upper_slice, ← upper_slice, ← upper_append, ← upper_append,
      ← upper_append, ← upper_append, Uuid.parseSimple, Uuid.parseSimple, parseHex_upper]
  · rw [if_neg (by simp [hl]), if_neg (by simp [hl])]

theorem slice_one {s : Bytes} {i : Nat} (h : i < s.length) : slice s i 1 = [rd8 s i] := by
  refine slice_eq_of_byteAt (by omega) rfl ?_
  intro j hj
  have : j = 0 := by omega
  subst this
  rw [rd8_eq]; rfl

/-- A hyphenated string is determined by its UUID up to letter case. -/
theorem parseHyphenated_inj {s t : Bytes} {u : Uuid} (h1 : Uuid.parseHyphenated s = some u)
    (h2 : Uuid.parseHyphenated t = some u) : upper s = upper t := by
  have split36 : ∀ s : Bytes, s.length = 36 → rd8 s 8 = 45 → rd8 s 13 = 45 → rd8 s 18 = 45 → rd8 s 23 = 45 →
      upper s = slice (upper (slice s 0 8 ++ slice s 9 4 ++ slice s 14 4 ++ slice s 19 4 ++ slice s 24 12)) 0 8 ++ [45] ++
        slice (upper (slice s 0 8 ++ slice s 9 4 ++ slice s 14 4 ++ slice s 19 4 ++ slice s 24 12)) 8 4 ++ [45] ++
        slice (upper (slice s 0 8 ++ slice s 9 4 ++ slice s 14 4 ++ slice s 19 4 ++ slice s 24 12)) 12 4 ++ [45] ++
        slice (upper (slice s 0 8 ++ slice s 9 4 ++ slice s 14 4 ++ slice s 19 4 ++ slice s 24 12)) 16 4 ++ [45] ++
        slice (upper (slice s 0 8 ++ slice s 9 4 ++ slice s 14 4 ++ slice s 19 4 ++ slice s 24 12)) 20 12 := by
    intro s hl a b c d
    have l0 : (slice s 0 8).length = 8 := slice_length_of_le (by omega)
    have l1 : (slice s 9 4).length = 4 := slice_length_of_le (by omega)
    have l2 : (slice s 14 4).length = 4 := slice_length_of_le (by omega)
    have l3 : (slice s 19 4).length = 4 := slice_length_of_le (by omega)
    have l4 : (slice s 24 12).length = 12 := slice_length_of_le (by omega)
    have e : slice s 0 8 ++ slice s 9 4 ++ slice s 14 4 ++ slice s 19 4 ++ slice s 24 12 =
        slice s 0 8 ++ (slice s 9 4 ++ (slice s 14 4 ++ (slice s 19 4 ++ slice s 24 12))) := by
      simp only [List.append_assoc]
    rw [e]
    simp only [← upper_slice]
    rw [slice_head l0, slice_skip (by omega), slice_skip (a := slice s 0 8) (off := 12) (by omega),
      slice_skip (a := slice s 0 8) (off := 16) (by omega), slice_skip (a := slice s 0 8) (off := 20) (by omega), l0]
    rw [show 8 - 8 = 0 from rfl, slice_head l1, slice_skip (by omega), slice_skip (a := slice s 9 4) (off := 16 - 8) (by omega),
      slice_skip (a := slice s 9 4) (off := 20 - 8) (by omega), l1]
    rw [show 12 - 8 - 4 = 0 from rfl, slice_head l2, slice_skip (by omega),
      slice_skip (a := slice s 14 4) (off := 20 - 8 - 4) (by omega), l2]
    rw [show 16 - 8 - 4 - 4 = 0 from rfl, slice_head l3, slice_skip (by omega), l3]
    rw [show 20 - 8 - 4 - 4 - 4 = 0 from rfl, slice_zero_length l4]
    have hs : s = slice s 0 8 ++ slice s 8 1 ++ slice s 9 4 ++ slice s 13 1 ++ slice s 14 4 ++ slice s 18 1 ++
        slice s 19 4 ++ slice s 23 1 ++ slice s 24 12 := by
      rw [← slice_add, ← slice_add, ← slice_add, ← slice_add, ← slice_add, ← slice_add, ← slice_add, ← slice_add]
      exact (slice_zero_length hl).symm
    rw [slice_one (by omega), slice_one (by omega), slice_one (by omega), slice_one (by omega), a, b, c, d] at hs
    conv_lhs => rw [hs]
    simp only [upper_append]
    rfl
  unfold Uuid.parseHyphenated at h1 h2
  split at h1
  · split at h2
    · rename_i a b
      have la : (slice s 0 8 ++ slice s 9 4 ++ slice s 14 4 ++ slice s 19 4 ++ slice s 24 12).length = 32 := by
        have := a.1
        simp only [List.length_append, slice_length]; omega
      have lb : (slice t 0 8 ++ slice t 9 4 ++ slice t 14 4 ++ slice t 19 4 ++ slice t 24 12).length = 32 := by
        have := b.1
        simp only [List.length_append, slice_length]; omega
      rw [split36 s a.1 a.2.1 a.2.2.1 a.2.2.2.1 a.2.2.2.2, split36 t b.1 b.2.1 b.2.2.1 b.2.2.2.1 b.2.2.2.2,
        parseSimple_inj la lb h1 h2]
    · simp at h2
  · simp at h1

/-! ## Facts about the rows, by kernel evaluation -/

/-- Every row: the GUID string is hyphenated upper case and parses; the name is upper case and has no length a UUID
string can have. -/
theorem table_ok : ∀ r ∈ typeTable, (utf8 r.guidStr).length = 36 ∧ upper (utf8 r.guidStr) = utf8 r.guidStr ∧
    Uuid.parseHyphenated (utf8 r.guidStr) = some r.toType.guid ∧ upper (utf8 r.name) = utf8 r.name ∧
    (utf8 r.name).length < 32 := by
  decide +kernel

/-- No two rows have the same GUID or the same name. -/
theorem table_distinct : (typeTable.map (·.toType.guid)).Nodup ∧ (typeTable.map (fun r => utf8 r.name)).Nodup := by
  decide +kernel

/-! ## C49 -/

/-- **C49**: conversion keeps the GUID. -/
theorem c49_guid_kept (g : Uuid) : (PType.ofGuid g).guid = g := PType.ofGuid_guid g

theorem find?_unique {α β : Type} [DecidableEq β] (l : List α) (f : α → β) (h : (l.map f).Nodup) (p : α → Bool) (a : α) (ha : a ∈ l)
    (hp : p a = true) (hq : ∀ x ∈ l, p x = true → f x = f a) : l.find? p = some a := by
  induction l with
  | nil => simp at ha
  | cons x l ih =>
    simp only [List.map_cons, List.nodup_cons] at h
    by_cases hx : p x = true
    · rw [List.find?_cons_of_pos hx]
      rcases List.mem_cons.mp ha with rfl | ha'
      · rfl
      · exfalso
        exact h.1 (by rw [hq x (List.mem_cons_self ..) hx]; exact List.mem_map_of_mem ha')
    · rw [List.find?_cons_of_neg (by simpa using hx)]
      rcases List.mem_cons.mp ha with rfl | ha'
      · exact absurd hp hx
      · exact ih h.2 ha' fun y hy => hq y (List.mem_cons_of_mem _ hy)

/-- **C49**: the GUID of each table row is recognised as exactly that constant, with its OS label. -/
theorem c49_known (r : TypeRow) (hr : r ∈ typeTable) : PType.ofGuid r.toType.guid = r.toType := by
  unfold PType.ofGuid
  have h := find?_unique typeConsts (·.guid) (by rw [typeConsts, List.map_map]; exact table_distinct.1)
    (fun t => r.toType.guid == t.guid) r.toType (List.mem_map_of_mem hr) (by simp)
    (fun x _ hx => (beq_iff_eq.mp hx).symm)
  rw [h]

/-- **C49**: every other GUID becomes a type with OS `None`. -/
theorem c49_unknown (g : Uuid) (h : ∀ r ∈ typeTable, r.toType.guid ≠ g) : PType.ofGuid g = ⟨g, .none⟩ := by
  unfold PType.ofGuid
  rw [List.find?_eq_none.mpr]
  intro t ht
  obtain ⟨r, hr, rfl⟩ := List.mem_map.mp ht
  simpa using fun e => h r hr e.symm

/-- **C49**: no two constants share a GUID. -/
theorem c49_distinct (i j : Nat) (hi : i < typeTable.length) (hj : j < typeTable.length)
    (h : typeTable[i].toType.guid = typeTable[j].toType.guid) : i = j := by
  have := table_distinct.1
  exact nodup_index this (by simpa using hi) (by simpa using hj) (by simpa using h)

/-- A type is used iff its GUID is not zero; in particular the type read from a non-zero GUID is used. -/
theorem c49_unused (g : Uuid) : PType.ofGuid g = PType.unused ↔ g = Uuid.nil := by
  constructor
  · intro h
    rw [← PType.ofGuid_guid g, h]; rfl
  · rintro rfl
    have h0 : (⟨"UNUSED", "00000000-0000-0000-0000-000000000000", .none⟩ : TypeRow) ∈ typeTable := List.mem_cons_self ..
    have := c49_known _ h0
    rw [show (TypeRow.toType ⟨"UNUSED", "00000000-0000-0000-0000-000000000000", .none⟩) = PType.unused from by decide +kernel] at this
    exact this

/-- A known and an unknown GUID. -/
example : PType.ofGuid ⟨0x0FC63DAF, 0x8483, 0x4772, 0x8E793D69D8477DE4⟩ = ⟨⟨0x0FC63DAF, 0x8483, 0x4772, 0x8E793D69D8477DE4⟩, .linux⟩ ∧
    PType.ofGuid ⟨1, 2, 3, 4⟩ = ⟨⟨1, 2, 3, 4⟩, .none⟩ := by decide +kernel

/-! ## C50 -/

/-- Which row, if any, the match in `from_str` selects. -/
theorem fromStr_row {s : Bytes} {r : TypeRow} (hr : r ∈ typeTable)
    (h : upper s = utf8 r.guidStr ∨ upper s = utf8 r.name) : PType.fromStr s = .ok r.toType := by
  have hfind : typeTable.find? (fun r => upper s == utf8 r.guidStr || upper s == utf8 r.name) = some r := by
    refine find?_unique typeTable (·.toType.guid) table_distinct.1 _ r hr (by simpa using h) ?_
    intro q hq hp
    have ok1 := table_ok r hr
    have ok2 := table_ok q hq
    simp only [Bool.or_eq_true, beq_iff_eq] at hp
    have hsl := upper_length s
    rcases h with h | h <;> rcases hp with hp | hp
    · rw [h] at hp
      have : some q.toType.guid = some r.toType.guid := by rw [← ok1.2.2.1, ← ok2.2.2.1, hp]
      simpa using this
    · have := congrArg List.length h
      have := congrArg List.length hp
      omega
    · have := congrArg List.length h
      have := congrArg List.length hp
      omega
    · rw [h] at hp
      have hnd := table_distinct.2
      obtain ⟨i, hi, hie⟩ := List.getElem_of_mem hr
      obtain ⟨j, hj, hje⟩ := List.getElem_of_mem hq
      have : i = j := nodup_index hnd (by simpa using hi) (by simpa using hj)
        (by simp only [List.getElem_map, hie, hje]; exact hp)
      subst this
      rw [← hie, ← hje]
  unfold PType.fromStr
  rw [hfind]

theorem fromStr_noRow {s : Bytes} (h : ∀ r ∈ typeTable, upper s ≠ utf8 r.guidStr ∧ upper s ≠ utf8 r.name) :
    PType.fromStr s = match Uuid.tryParse s with
      | some u => .ok ⟨u, .none⟩
      | none => .err "Invalid Partition Type GUID." := by
  have hfind : typeTable.find? (fun r => upper s == utf8 r.guidStr || upper s == utf8 r.name) = none := by
    rw [List.find?_eq_none]
    intro r hr
    simp [h r hr]
  unfold PType.fromStr
  rw [hfind]
  rfl

theorem sameLetter_upper (c d : UInt8) : SameLetter c d ↔ upperByte c = upperByte d := by
  have hc : c.toNat < 256 := c.toNat_lt
  have hd : d.toNat < 256 := d.toNat_lt
  unfold SameLetter upperByte
  simp only [UInt8.le_iff_toNat_le, ← UInt8.toNat_inj, show (97 : UInt8).toNat = 97 from rfl, show (122 : UInt8).toNat = 122 from rfl]
  split_ifs <;> (try simp only [UInt8.toNat_sub, show (32 : UInt8).toNat = 32 from rfl]) <;> omega

theorem sameText_upper (s t : Bytes) : SameText s t ↔ upper s = upper t := by
  unfold SameText upper
  induction s generalizing t with
  | nil => cases t <;> simp
  | cons c s ih =>
    cases t with
    | nil => simp
    | cons d t => rw [List.forall₂_cons, ih, sameLetter_upper, List.map_cons, List.map_cons, List.cons.injEq]

/-- **C50** (names): every name in the table is accepted in any letter case. -/
theorem c50_name (r : TypeRow) (hr : r ∈ typeTable) (s : Bytes) (h : SameText s (utf8 r.name)) :
    PType.fromStr s = .ok r.toType ∧ PType.fromName s = .ok r.toType := by
  rw [sameText_upper, (table_ok r hr).2.2.2.1] at h
  exact ⟨fromStr_row hr (.inr h), fromStr_row hr (.inr h)⟩

/-- **C50** (no wrong GUID): whatever UUID form is used, the parsed GUID is the type's GUID. -/
theorem c50_guid (s : Bytes) (u : Uuid) (h : Uuid.tryParse s = some u) :
    ∃ t, PType.fromStr s = .ok t ∧ t.guid = u := by
  by_cases hex : ∃ r ∈ typeTable, upper s = utf8 r.guidStr ∨ upper s = utf8 r.name
  · obtain ⟨r, hr, hm⟩ := hex
    refine ⟨_, fromStr_row hr hm, ?_⟩
    have ok := table_ok r hr
    have hsl := upper_length s
    rcases hm with hm | hm
    · have hl : s.length = 36 := by rw [← hsl, hm]; exact ok.1
      unfold Uuid.tryParse at h
      rw [if_neg (by omega), if_pos hl, ← parseHyphenated_upper, hm, ok.2.2.1] at h
      simpa using h
    · have hl : s.length < 32 := by rw [← hsl, hm]; exact ok.2.2.2.2
      unfold Uuid.tryParse at h
      rw [if_neg (by omega), if_neg (by omega), if_neg (by omega), if_neg (by omega)] at h
      simp at h
  · rw [fromStr_noRow (fun r hr => ⟨fun e => hex ⟨r, hr, .inl e⟩, fun e => hex ⟨r, hr, .inr e⟩⟩), h]
    exact ⟨_, rfl, rfl⟩

/-- The full claim of C50 about GUID strings. -/
def C50Guid : Prop := ∀ (s : Bytes) (u : Uuid), Uuid.tryParse s = some u → PType.fromStr s = .ok (PType.ofGuid u)

/-- **C50** fails in full: the Linux file system GUID written as 32 digits parses, but loses its OS label. -/
theorem c50_guid_os_fails : ¬ C50Guid := by
  intro h
  have h1 : Uuid.tryParse (utf8 "0FC63DAF848347728E793D69D8477DE4") = some ⟨0x0FC63DAF, 0x8483, 0x4772, 0x8E793D69D8477DE4⟩ := by
    decide +kernel
  have h2 := h _ _ h1
  have h3 : PType.fromStr (utf8 "0FC63DAF848347728E793D69D8477DE4") = .ok ⟨⟨0x0FC63DAF, 0x8483, 0x4772, 0x8E793D69D8477DE4⟩, .none⟩ := by
    decide +kernel
  have h4 : PType.ofGuid ⟨0x0FC63DAF, 0x8483, 0x4772, 0x8E793D69D8477DE4⟩ = ⟨⟨0x0FC63DAF, 0x8483, 0x4772, 0x8E793D69D8477DE4⟩, .linux⟩ := by
    decide +kernel
  rw [h3, h4] at h2
  simp at h2

/-- **C50**, the part that holds: for the hyphenated form, in any letter case, parsing the type is parsing the GUID and
converting it. Missing: the 32-digit, braced and URN forms, for which `c50_other_forms` says what happens instead. -/
theorem c50_hyphenated_partial (s : Bytes) (u : Uuid) (hl : s.length = 36) (h : Uuid.tryParse s = some u) :
    PType.fromStr s = .ok (PType.ofGuid u) := by
  have hp : Uuid.parseHyphenated s = some u := by
    unfold Uuid.tryParse at h
    rwa [if_neg (by omega), if_pos hl] at h
  by_cases hex : ∃ r ∈ typeTable, r.toType.guid = u
  · obtain ⟨r, hr, rfl⟩ := hex
    rw [c49_known r hr]
    have ok := table_ok r hr
    refine fromStr_row hr (.inl ?_)
    rw [parseHyphenated_inj hp ok.2.2.1, ok.2.1]
  · rw [c49_unknown u (fun r hr e => hex ⟨r, hr, e⟩), fromStr_noRow, h]
    intro r hr
    have ok := table_ok r hr
    have hsl := upper_length s
    constructor
    · intro e
      refine hex ⟨r, hr, ?_⟩
      rw [← parseHyphenated_upper, e, ok.2.2.1] at hp
      simpa using hp
    · intro e
      have := congrArg List.length e
      omega

/-- **C50**: the other UUID forms give the GUID with OS `None`. -/
theorem c50_other_forms (s : Bytes) (u : Uuid) (hl : s.length ≠ 36) (h : Uuid.tryParse s = some u) :
    PType.fromStr s = .ok ⟨u, .none⟩ := by
  have hlen : 32 ≤ s.length := by
    unfold Uuid.tryParse at h
    split_ifs at h <;> omega
  rw [fromStr_noRow, h]
  intro r hr
  have ok := table_ok r hr
  have hsl := upper_length s
  constructor
  · intro e; have := congrArg List.length e; omega
  · intro e; have := congrArg List.length e; omega

/-- **C50** (rejection): a string is rejected exactly when it is neither a name nor a UUID. -/
theorem c50_rejects (s : Bytes) :
    PType.fromStr s = .err "Invalid Partition Type GUID." ↔
      (∀ r ∈ typeTable, ¬ SameText s (utf8 r.name)) ∧ Uuid.tryParse s = none := by
  constructor
  · intro h
    constructor
    · intro r hr e
      rw [sameText_upper, (table_ok r hr).2.2.2.1] at e
      rw [fromStr_row hr (.inr e)] at h; simp at h
    · cases hu : Uuid.tryParse s with
      | none => rfl
      | some u =>
        obtain ⟨t, ht, _⟩ := c50_guid s u hu
        rw [ht] at h; simp at h
  · rintro ⟨h1, h2⟩
    rw [fromStr_noRow, h2]
    intro r hr
    have ok := table_ok r hr
    refine ⟨fun e => ?_, fun e => h1 r hr ((sameText_upper _ _).mpr (by rw [e, ok.2.2.2.1]))⟩
    have hsl := upper_length s
    have hl : s.length = 36 := by rw [← hsl, e]; exact ok.1
    unfold Uuid.tryParse at h2
    rw [if_neg (by omega), if_pos hl, ← parseHyphenated_upper, e, ok.2.2.1] at h2
    simp at h2

/-- **C50**: `from_str` never panics and has no other error. -/
theorem c50_total (s : Bytes) : (∃ t, PType.fromStr s = .ok t) ∨ PType.fromStr s = .err "Invalid Partition Type GUID." := by
  unfold PType.fromStr
  split
  · exact .inl ⟨_, rfl⟩
  · split
    · exact .inl ⟨_, rfl⟩
    · exact .inr rfl

/-- A mixed-case name, a lower-case GUID and a rejected string. -/
example : PType.fromStr (utf8 "Linux_fs") = .ok ⟨⟨0x0FC63DAF, 0x8483, 0x4772, 0x8E793D69D8477DE4⟩, .linux⟩ ∧
    PType.fromStr (utf8 "0fc63daf-8483-4772-8e79-3d69d8477de4") = .ok ⟨⟨0x0FC63DAF, 0x8483, 0x4772, 0x8E793D69D8477DE4⟩, .linux⟩ ∧
    PType.fromStr (utf8 "Linux fs") = .err "Invalid Partition Type GUID." := by decide +kernel

end Gpt
