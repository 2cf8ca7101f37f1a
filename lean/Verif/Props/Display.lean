import Verif.Model.Display
import Verif.Props.Types
import Mathlib.Tactic.Ring
/-!
# Text output: C73 – C75
-/

namespace Gpt

/-! ## Digits -/

theorem hexDigit_val : ∀ n : Fin 16, Uuid.hexVal (hexDigit n.val) = some n.val ∧ hexDigit n.val ≠ 9 ∧ hexDigit n.val ≠ 45 := by
  decide +kernel

theorem hexText_length (w n : Nat) : (hexText w n).length = w := by
  induction w generalizing n with
  | zero => rfl
  | succ w ih => simp [hexText, ih]

theorem hexText_mem {w n : Nat} {c : UInt8} (h : c ∈ hexText w n) : c ≠ 9 ∧ c ≠ 45 := by
  induction w generalizing n with
  | zero => simp [hexText] at h
  | succ w ih =>
    simp only [hexText, List.mem_append, List.mem_singleton] at h
    rcases h with h | rfl
    · exact ih h
    · exact (hexDigit_val ⟨n % 16, Nat.mod_lt _ (by decide)⟩).2

theorem parseHex_append (acc : Nat) (a b : Bytes) : Uuid.parseHex acc (a ++ b) = (Uuid.parseHex acc a).bind (Uuid.parseHex · b) := by
  induction a generalizing acc with
  | nil => rfl
  | cons c cs ih =>
    simp only [List.cons_append, Uuid.parseHex]
    cases Uuid.hexVal c with
    | none => rfl
    | some v => exact ih _

theorem parseHex_hexText (w n acc : Nat) : Uuid.parseHex acc (hexText w n) = some (acc * 16 ^ w + n % 16 ^ w) := by
  induction w generalizing n with
  | zero => simp [hexText, Uuid.parseHex, Nat.mod_one]
  | succ w ih =>
    have hd := (hexDigit_val ⟨n % 16, Nat.mod_lt _ (by decide)⟩).1
    simp only at hd
    rw [hexText, parseHex_append, ih]
    simp only [Option.bind_some, Uuid.parseHex, hd]
    have e : n % 16 ^ (w + 1) = 16 * (n / 16 % 16 ^ w) + n % 16 := by
      rw [Nat.pow_succ, Nat.mul_comm (16 ^ w) 16, Nat.mod_mul]
      omega
    rw [e, Nat.pow_succ]
    congr 1
    ring

/-! ## C73 -/

theorem Uuid.display_length (u : Uuid) : u.display.length = 36 := by
  simp [Uuid.display, hexText_length]

theorem Uuid.display_mem {u : Uuid} {c : UInt8} (h : c ∈ u.display) : c ≠ 9 := by
  simp only [Uuid.display, List.mem_append, List.mem_singleton] at h
  rcases h with (((((((h | rfl) | h) | rfl) | h) | rfl) | h) | rfl) | h <;> first | exact (hexText_mem h).1 | decide

theorem Uuid.parse_display (u : Uuid) : Uuid.parseHyphenated u.display = some u := by
  have h4 := u.d4.toNat_lt
  have hp : Uuid.parseSimple (hexText 8 u.d1.toNat ++ hexText 4 u.d2.toNat ++ hexText 4 u.d3.toNat ++
      hexText 4 (u.d4.toNat / 2 ^ 48) ++ hexText 12 u.d4.toNat) = some u := by
    have h1 := u.d1.toNat_lt
    have h2 := u.d2.toNat_lt
    have h3 := u.d3.toNat_lt
    simp only [Uuid.parseSimple, parseHex_append, parseHex_hexText, Option.bind_some, Option.map_some, Nat.zero_mul, Nat.zero_add]
    rw [Nat.mod_eq_of_lt (by omega : u.d1.toNat < 16 ^ 8), Nat.mod_eq_of_lt (by omega : u.d2.toNat < 16 ^ 4),
      Nat.mod_eq_of_lt (by omega : u.d3.toNat < 16 ^ 4), Nat.mod_eq_of_lt (by omega : u.d4.toNat / 2 ^ 48 < 16 ^ 4)]
    congr 1
    obtain ⟨d1, d2, d3, d4⟩ := u
    simp only at h1 h2 h3 h4
    simp only [Uuid.ofNat, Uuid.mk.injEq, ← UInt32.toNat_inj, ← UInt16.toNat_inj, ← UInt64.toNat_inj, UInt32.toNat_ofNat',
      UInt16.toNat_ofNat', UInt64.toNat_ofNat']
    refine ⟨?_, ?_, ?_, ?_⟩ <;> omega
  have l1 := hexText_length 8 u.d1.toNat
  have l2 := hexText_length 4 u.d2.toNat
  have l3 := hexText_length 4 u.d3.toNat
  have l4 := hexText_length 4 (u.d4.toNat / 2 ^ 48)
  have l5 := hexText_length 12 u.d4.toNat
  have hl := u.display_length
  revert hp hl
  unfold Uuid.parseHyphenated Uuid.display
  generalize hexText 8 u.d1.toNat = a at *
  generalize hexText 4 u.d2.toNat = b at *
  generalize hexText 4 u.d3.toNat = c at *
  generalize hexText 4 (u.d4.toNat / 2 ^ 48) = d at *
  generalize hexText 12 u.d4.toNat = e at *
  intro hp hl
  have s : ∀ {p q : Bytes} (x : UInt8) {n : Nat}, p.length = n → rd8 (p ++ x :: q) n = x := by
    rintro p q x n rfl
    rw [rd8, List.drop_left]
    rfl
  have w : ∀ {p m q : Bytes} {o n : Nat}, p.length = o → m.length = n → slice (p ++ (m ++ q)) o n = m := by
    rintro p m q o n rfl rfl
    rw [slice, List.drop_left, List.take_left]
  have r1 := @s a (b ++ [45] ++ c ++ [45] ++ d ++ [45] ++ e) 45 8 l1
  have r2 := @s (a ++ [45] ++ b) (c ++ [45] ++ d ++ [45] ++ e) 45 13 (by simp [l1, l2])
  have r3 := @s (a ++ [45] ++ b ++ [45] ++ c) (d ++ [45] ++ e) 45 18 (by simp [l1, l2, l3])
  have r4 := @s (a ++ [45] ++ b ++ [45] ++ c ++ [45] ++ d) e 45 23 (by simp [l1, l2, l3, l4])
  have w1 := @w [] a ([45] ++ b ++ [45] ++ c ++ [45] ++ d ++ [45] ++ e) 0 8 rfl l1
  have w2 := @w (a ++ [45]) b ([45] ++ c ++ [45] ++ d ++ [45] ++ e) 9 4 (by simp [l1]) l2
  have w3 := @w (a ++ [45] ++ b ++ [45]) c ([45] ++ d ++ [45] ++ e) 14 4 (by simp [l1, l2]) l3
  have w4 := @w (a ++ [45] ++ b ++ [45] ++ c ++ [45]) d ([45] ++ e) 19 4 (by simp [l1, l2, l3]) l4
  have w5 := @w (a ++ [45] ++ b ++ [45] ++ c ++ [45] ++ d ++ [45]) e [] 24 12 (by simp [l1, l2, l3, l4]) l5
  simp only [List.append_assoc, List.cons_append, List.nil_append, List.append_nil] at r1 r2 r3 r4 w1 w2 w3 w4 w5 hp hl ⊢
  rw [if_pos ⟨hl, r1, r2, r3, r4⟩, w1, w2, w3, w4, w5]
  exact hp

/-- **C73**. A GUID printed by the library is 36 characters long and is read back as the same GUID, by `uuid` and as a partition
type (with the OS the type has). -/
theorem c73_read_back (u : Uuid) : u.display.length = 36 ∧ Uuid.tryParse u.display = some u ∧
    PType.fromStr u.display = .ok (PType.ofGuid u) := by
  have h : Uuid.tryParse u.display = some u := by
    unfold Uuid.tryParse
    rw [if_neg (by rw [u.display_length]; decide), if_pos u.display_length]
    exact u.parse_display
  exact ⟨u.display_length, h, c50_hyphenated_partial _ u u.display_length h⟩

/-- `0` – `9`, `a` – `f`. -/
def Spec.LowerHex (c : UInt8) : Prop := (48 ≤ c.toNat ∧ c.toNat ≤ 57) ∨ (97 ≤ c.toNat ∧ c.toNat ≤ 102)

theorem hexText_lower {w n : Nat} {c : UInt8} (h : c ∈ hexText w n) : Spec.LowerHex c := by
  have hd : ∀ n : Fin 16, (48 ≤ (hexDigit n.val).toNat ∧ (hexDigit n.val).toNat ≤ 57) ∨
      (97 ≤ (hexDigit n.val).toNat ∧ (hexDigit n.val).toNat ≤ 102) := by decide +kernel
  induction w generalizing n with
  | zero => simp [hexText] at h
  | succ w ih =>
    simp only [hexText, List.mem_append, List.mem_singleton] at h
    rcases h with h | rfl
    · exact ih h
    · exact hd ⟨n % 16, Nat.mod_lt _ (by decide)⟩

/-- **C73**, the form: groups of 8, 4, 4, 4 and 12 lower-case hexadecimal digits with hyphens between them. -/
theorem c73_form (u : Uuid) : ∃ a b c d e : Bytes, u.display = a ++ [45] ++ b ++ [45] ++ c ++ [45] ++ d ++ [45] ++ e ∧
    a.length = 8 ∧ b.length = 4 ∧ c.length = 4 ∧ d.length = 4 ∧ e.length = 12 ∧
    ∀ x, x ∈ a ∨ x ∈ b ∨ x ∈ c ∨ x ∈ d ∨ x ∈ e → Spec.LowerHex x :=
  ⟨_, _, _, _, _, rfl, hexText_length _ _, hexText_length _ _, hexText_length _ _, hexText_length _ _, hexText_length _ _, by
    rintro x (h | h | h | h | h) <;> exact hexText_lower h⟩

/-- What is printed for the type of Linux file systems. -/
example : (⟨0x0FC63DAF, 0x8483, 0x4772, 0x8E793D69D8477DE4⟩ : Uuid).display = utf8 "0fc63daf-8483-4772-8e79-3d69d8477de4" := by
  decide +kernel

/-! ## C74 -/

/-- Text split at the last occurrence of a character. -/
theorem split_last {a a' d d' l : Bytes} {c : UInt8} (hd : c ∉ d) (hd' : c ∉ d')
    (h : a ++ (l ++ [c]) ++ d = a' ++ (l ++ [c]) ++ d') : a = a' ∧ d = d' := by
  have key : ∀ {x x' y y' : Bytes}, c ∉ x → c ∉ x' → x ++ c :: y = x' ++ c :: y' → x = x' ∧ y = y' := by
    intro x
    induction x with
    | nil =>
      intro x' y y' _ hx' e
      cases x' with
      | nil => exact ⟨rfl, (List.cons.inj e).2⟩
      | cons z zs =>
        have := (List.cons.inj e).1
        subst this
        exact absurd List.mem_cons_self hx'
    | cons w ws ih =>
      intro x' y y' hx hx' e
      cases x' with
      | nil =>
        have := (List.cons.inj e).1
        subst this
        exact absurd List.mem_cons_self hx
      | cons z zs =>
        obtain ⟨e1, e2⟩ := List.cons.inj e
        obtain ⟨e3, e4⟩ := ih (fun m => hx (List.mem_cons_of_mem _ m)) (fun m => hx' (List.mem_cons_of_mem _ m)) e2
        exact ⟨by rw [e1, e3], e4⟩
  have hr := congrArg List.reverse h
  simp only [List.reverse_append, List.reverse_cons, List.reverse_nil, List.nil_append, List.append_assoc, List.cons_append] at hr
  obtain ⟨e1, e2⟩ := key (by simpa using hd) (by simpa using hd') hr
  exact ⟨List.reverse_inj.mp (List.append_cancel_left e2), List.reverse_inj.mp e1⟩

theorem utf8_inj {s t : String} (h : utf8 s = utf8 t) : s = t := by
  unfold utf8 at h
  have h1 := Array.toList_inj.mp h
  exact String.toByteArray_inj.mp (ByteArray.ext h1)

theorem digit_bounds {c : Char} (h : c.isDigit) : 48 ≤ c.toNat ∧ c.toNat ≤ 57 := by
  simp only [Char.isDigit, ge_iff_le, Bool.and_eq_true, decide_eq_true_eq, UInt32.le_iff_toNat_le] at h
  exact h

theorem decText_inj {n k : Nat} (h : decText n = decText k) : n = k := by
  have e : Nat.toDigits 10 n = Nat.toDigits 10 k := by
    unfold decText at h
    have key : ∀ {x y : List Char}, (∀ c ∈ x, c.isDigit) → (∀ c ∈ y, c.isDigit) →
        x.map (fun c => UInt8.ofNat c.toNat) = y.map (fun c => UInt8.ofNat c.toNat) → x = y := by
      intro x
      induction x with
      | nil => intro y _ _ e; cases y with
        | nil => rfl
        | cons _ _ => simp at e
      | cons c cs ih =>
        intro y hx hy e
        cases y with
        | nil => simp at e
        | cons b bs =>
          simp only [List.map_cons, List.cons.injEq] at e
          obtain ⟨c1, c2⟩ := digit_bounds (hx c List.mem_cons_self)
          obtain ⟨b1, b2⟩ := digit_bounds (hy b List.mem_cons_self)
          have e1 := congrArg UInt8.toNat e.1
          rw [UInt8.toNat_ofNat', UInt8.toNat_ofNat', Nat.mod_eq_of_lt (by omega), Nat.mod_eq_of_lt (by omega)] at e1
          rw [ih (fun d hd => hx d (List.mem_cons_of_mem _ hd)) (fun d hd => hy d (List.mem_cons_of_mem _ hd)) e.2,
            Char.toNat_inj.mp e1]
    exact key (fun c hc => Nat.isDigit_of_mem_toDigits (by decide) (by decide) hc)
      (fun c hc => Nat.isDigit_of_mem_toDigits (by decide) (by decide) hc) h
  have := @Nat.ofDigitChars_ten_toDigits n
  rw [e, Nat.ofDigitChars_ten_toDigits] at this
  exact this.symm

theorem decText_mem {n : Nat} {c : UInt8} (h : c ∈ decText n) : 48 ≤ c ∧ c ≤ 57 := by
  obtain ⟨a, ha, rfl⟩ := List.mem_map.mp h
  have hd := Nat.isDigit_of_mem_toDigits (by decide) (by decide) ha
  obtain ⟨h1, h2⟩ := digit_bounds hd
  rw [UInt8.le_iff_toNat_le, UInt8.le_iff_toNat_le, UInt8.toNat_ofNat', Nat.mod_eq_of_lt (by omega)]
  exact ⟨h1, h2⟩

theorem Uuid.display_inj {u v : Uuid} (h : u.display = v.display) : u = v := by
  have := u.parse_display
  rw [h, v.parse_display] at this
  exact (Option.some.inj this).symm

theorem decText_sep {n : Nat} {c : UInt8} (hc : c < 48) : c ∉ decText n := by
  intro h
  have := (decText_mem h).1
  exact absurd (UInt8.lt_of_lt_of_le hc this) (UInt8.lt_irrefl _)

/-- **C74**, partitions. What is printed determines name, GUID, type GUID, extent and attributes, whatever the name contains. -/
theorem c74_partition (p q : Partition) : p.display = q.display ↔ p.name = q.name ∧ p.partGuid = q.partGuid ∧
    p.partType.guid = q.partType.guid ∧ p.firstLba = q.firstLba ∧ p.lastLba = q.lastLba ∧ p.flags = q.flags := by
  constructor
  · intro h
    have l1 : utf8 "\nFlags:\t\t\t" = utf8 "\nFlags:\t\t" ++ [9] := by decide +kernel
    have l2 : utf8 " - " = utf8 " -" ++ [32] := by decide +kernel
    have l3 : utf8 "\nSpan:\t\t\t" = utf8 "\nSpan:\t\t" ++ [9] := by decide +kernel
    have l4 : utf8 "\nPartition Type:\t\t" = utf8 "\nPartition Type:\t" ++ [9] := by decide +kernel
    have l5 : utf8 "\nPartition GUID:\t\t" = utf8 "\nPartition GUID:\t" ++ [9] := by decide +kernel
    unfold Partition.display at h
    rw [l1, l2, l3, l4, l5] at h
    obtain ⟨h, e1⟩ := split_last (decText_sep (by decide)) (decText_sep (by decide)) h
    obtain ⟨h, e2⟩ := split_last (decText_sep (by decide)) (decText_sep (by decide)) h
    obtain ⟨h, e3⟩ := split_last (decText_sep (by decide)) (decText_sep (by decide)) h
    obtain ⟨h, e4⟩ := split_last (fun h => Uuid.display_mem h rfl) (fun h => Uuid.display_mem h rfl) h
    obtain ⟨h, e5⟩ := split_last (fun h => Uuid.display_mem h rfl) (fun h => Uuid.display_mem h rfl) h
    exact ⟨utf8_inj (List.append_cancel_left h), Uuid.display_inj e5, Uuid.display_inj e4, UInt64.toNat_inj.mp (decText_inj e3),
      UInt64.toNat_inj.mp (decText_inj e2), UInt64.toNat_inj.mp (decText_inj e1)⟩
  · rintro ⟨e1, e2, e3, e4, e5, e6⟩
    unfold Partition.display
    rw [e1, e2, e3, e4, e5, e6]

/-- **C74**, headers. What is printed determines the disk GUID and both checksums. -/
theorem c74_header (h k : Header) : h.display = k.display ↔
    h.diskGuid = k.diskGuid ∧ h.crc32 = k.crc32 ∧ h.crc32Parts = k.crc32Parts := by
  constructor
  · intro e
    have l1 : utf8 "\nTable CRC:\t" = utf8 "\nTable CRC:" ++ [9] := by decide +kernel
    have l2 : utf8 "\nCRC32:\t\t" = utf8 "\nCRC32:\t" ++ [9] := by decide +kernel
    unfold Header.display at e
    rw [l1, l2] at e
    obtain ⟨e, e1⟩ := split_last (decText_sep (by decide)) (decText_sep (by decide)) e
    obtain ⟨e, e2⟩ := split_last (decText_sep (by decide)) (decText_sep (by decide)) e
    exact ⟨Uuid.display_inj (List.append_cancel_left e), UInt32.toNat_inj.mp (decText_inj e2), UInt32.toNat_inj.mp (decText_inj e1)⟩
  · rintro ⟨e1, e2, e3⟩
    unfold Header.display
    rw [e1, e2, e3]

/-- **C74**, block sizes: the decimal number. -/
theorem c74_block_size (lb : LbSize) : lb.display = decText lb.usize := by
  cases lb <;> decide +kernel

/-- Two partitions with tricky names print differently. -/
example : ({ Partition.zero with name := "a\nFlags:\t\t\t0" } : Partition).display ≠ Partition.zero.display := by
  intro h
  exact absurd ((c74_partition _ _).mp h).1 (by decide)

/-- A whole partition. -/
example : (⟨⟨⟨1, 2, 3, 4⟩, .none⟩, ⟨0xA, 0xB, 0xC, 0xD⟩, 34, 2047, 5, "boot"⟩ : Partition).display =
    utf8 "Partition:\t\tboot\nPartition GUID:\t\t0000000a-000b-000c-0000-00000000000d\nPartition Type:\t\t00000001-0002-0003-0000-000000000004\nSpan:\t\t\t34 - 2047\nFlags:\t\t\t5" := by
  decide +kernel

/-! ## C75 -/

theorem take_lit {s t : String} {x : Bytes} (h : (utf8 s).take 14 = utf8 t) (hl : 14 ≤ (utf8 s).length) :
    (utf8 s ++ x).take 14 = utf8 t := by
  rw [List.take_append_of_le_length hl, h]

/-- The first 14 bytes of each message. -/
def HeaderError.tag : HeaderError → Bytes
  | .io _ => utf8 "Header IO Erro"
  | .invalidGptSignature => utf8 "Invalid GPT Si"
  | .invalidCrc32Checksum => utf8 "CRC32 Checksum"
  | .missingBackupLba => utf8 "HeaderBuilder "
  | .backupLbaToEarly => utf8 "HeaderBuilder:"
  | .writingToWrongLba => utf8 "you trying to "
  | .overflow _ => utf8 "Header error O"
  | .toSmallForBackup => utf8 "the disk is to"

theorem HeaderError.display_tag (io : IoErr → Bytes) (e : HeaderError) : (e.display io).take 14 = e.tag := by
  cases e with
  | io e => exact take_lit (by decide +kernel) (by decide +kernel)
  | overflow m => exact take_lit (by decide +kernel) (by decide +kernel)
  | _ => simp only [HeaderError.display, HeaderError.tag]; decide +kernel

def GptError.tag : GptError → Bytes
  | .io _ => utf8 "GPT IO Error: "
  | .header _ => utf8 "GPT Header Err"
  | .creatingInitializedDisk => utf8 "we were expect"
  | .overflow _ => utf8 "GTP error Over"
  | .notEnoughSpace => utf8 "Unable to find"
  | .readOnly => utf8 "disk not opene"
  | .overflowPartitionCount => utf8 "not enough par"
  | .partitionCountWouldChange => utf8 "partition woul"
  | .partitionIdAlreadyUsed => utf8 "partition id a"

theorem GptError.display_tag (io : IoErr → Bytes) (e : GptError) : (e.display io).take 14 = e.tag := by
  cases e with
  | io e => exact take_lit (by decide +kernel) (by decide +kernel)
  | header e => exact take_lit (by decide +kernel) (by decide +kernel)
  | overflow m => exact take_lit (by decide +kernel) (by decide +kernel)
  | _ => simp only [GptError.display, GptError.tag]; decide +kernel

def MbrError.tag : MbrError → Bytes
  | .io _ => utf8 "MBR IO Error: "
  | .invalidMbrLength => utf8 "The provided b"
  | .invalidMbrSignature => utf8 "Invalid MBR si"
  | .invalidPartitionLength => utf8 "Invalid Partit"
  | .overflow _ => utf8 "MBR error Over"

theorem MbrError.display_tag (io : IoErr → Bytes) (e : MbrError) : (e.display io).take 14 = e.tag := by
  cases e with
  | io e => exact take_lit (by decide +kernel) (by decide +kernel)
  | overflow m => exact take_lit (by decide +kernel) (by decide +kernel)
  | _ => simp only [MbrError.display, MbrError.tag]; decide +kernel

/-- **C75**, header errors: different errors print differently, provided different I/O errors do. -/
theorem c75_header (io : IoErr → Bytes) (hio : ∀ a b, io a = io b → a = b) (e f : HeaderError) :
    e.display io = f.display io ↔ e = f := by
  refine ⟨fun h => ?_, fun h => by rw [h]⟩
  have ht : e.tag = f.tag := by rw [← HeaderError.display_tag io, h, HeaderError.display_tag]
  cases e <;> cases f <;> first
    | rfl
    | exact congrArg HeaderError.io (hio _ _ (List.append_cancel_left h))
    | exact congrArg HeaderError.overflow (utf8_inj (List.append_cancel_left h))
    | exact absurd ht (by simp only [HeaderError.tag]; decide +kernel)

/-- **C75**, disk errors. -/
theorem c75_disk (io : IoErr → Bytes) (hio : ∀ a b, io a = io b → a = b) (e f : GptError) :
    e.display io = f.display io ↔ e = f := by
  refine ⟨fun h => ?_, fun h => by rw [h]⟩
  have ht : e.tag = f.tag := by rw [← GptError.display_tag io, h, GptError.display_tag]
  cases e <;> cases f <;> first
    | rfl
    | exact congrArg GptError.io (hio _ _ (List.append_cancel_left h))
    | exact congrArg GptError.header ((c75_header io hio _ _).mp (List.append_cancel_left h))
    | exact congrArg GptError.overflow (utf8_inj (List.append_cancel_left h))
    | exact absurd ht (by simp only [GptError.tag]; decide +kernel)

/-- **C75**, MBR errors. -/
theorem c75_mbr (io : IoErr → Bytes) (hio : ∀ a b, io a = io b → a = b) (e f : MbrError) :
    e.display io = f.display io ↔ e = f := by
  refine ⟨fun h => ?_, fun h => by rw [h]⟩
  have ht : e.tag = f.tag := by rw [← MbrError.display_tag io, h, MbrError.display_tag]
  cases e <;> cases f <;> first
    | rfl
    | exact congrArg MbrError.io (hio _ _ (List.append_cancel_left h))
    | exact congrArg MbrError.overflow (utf8_inj (List.append_cancel_left h))
    | exact absurd ht (by simp only [MbrError.tag]; decide +kernel)

/-- An injective wording of I/O errors. -/
example : ∃ io : IoErr → Bytes, ∀ a b, io a = io b → a = b := by
  refine ⟨fun e => match e with
    | .unexpectedEof => [0]
    | .writeZero => [1]
    | .device => [2]
    | .other m => 3 :: utf8 m, fun a b h => ?_⟩
  cases a <;> cases b <;> simp at h <;> first | rfl | exact congrArg IoErr.other (utf8_inj h)

end Gpt
