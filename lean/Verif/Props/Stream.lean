import Verif.Model.Stream
import Verif.Lemmas.Device
/-!
# Transfers in pieces: C100
-/

namespace Gpt

namespace Stream

/-- The device of the one-step model that meets `f` in the next call. -/
abbrev meeting (f : Fault) (d : Dev) : Dev := { d with faults := f :: d.faults }

/-- A failure after `t` more bytes. -/
def later (t : Nat) : Fault → Fault
  | .none => .none
  | .fail k => .fail (k + t)

theorem later_none {t : Nat} {f : Fault} (h : f = .none) : later t f = .none := by rw [h]; rfl

theorem readExact_later {n t : Nat} {d : Dev} {f : Fault} (ht : t ≤ n) (ha : t ≤ d.data.length - d.pos) (hn : n - t ≠ 0) :
    Dev.readExact n (meeting (later t f) d) =
      match Dev.readExact (n - t) (meeting f { d with pos := d.pos + t }) with
      | (.ok rest, d') => (.ok (slice d.data d.pos t ++ rest), d')
      | r => r := by
  unfold Dev.readExact
  rw [if_neg (by omega), if_neg hn]
  cases f with
  | none =>
    simp only [later, Dev.nextFault, Dev.tick, List.headD_cons, List.tail_cons]
    by_cases hl : d.pos + n ≤ d.data.length
    · rw [if_pos hl, if_pos (by omega)]
      simp only [← slice_add, show t + (n - t) = n by omega, show d.pos + t + (n - t) = d.pos + n by omega]
    · rw [if_neg hl, if_neg (by omega)]
      simp only [show max d.pos d.data.length = max (d.pos + t) d.data.length by omega]
  | fail k =>
    simp only [later, Dev.nextFault, Dev.tick, List.headD_cons, List.tail_cons]
    simp only [show d.pos + min (k + t) n = d.pos + t + min k (n - t) by omega]

/-- **C100**, reading. -/
theorem c100_read : ∀ (xs : List Xfer) (n : Nat) (d : Dev), n ≠ 0 →
    ∃ f, (Xfer.fail ∉ xs → f = .none) ∧ Dev.readExact n (meeting f d) = readExact xs n d := by
  intro xs n
  induction hN : n + xs.length using Nat.strong_induction_on generalizing xs n with
  | _ N ih =>
  intro d hn
  have key : ∀ k, next xs n = .part k → ∃ f, (Xfer.fail ∉ xs → f = .none) ∧ Dev.readExact n (meeting f d) = readExact xs n d := by
    intro k hk
    rw [readExact.eq_def, if_neg hn, hk]
    obtain ⟨t, ht⟩ : ∃ t, t = min (k + 1) (min n (d.data.length - d.pos)) := ⟨_, rfl⟩
    simp only [read, ← ht]
    have hl : (slice d.data d.pos t).length = t := by rw [slice_length]; omega
    cases hs : slice d.data d.pos t with
    | nil =>
      rw [hs] at hl
      have hl : 0 = t := hl
      refine ⟨.none, fun _ => rfl, ?_⟩
      rw [Dev.readExact, if_neg hn]
      simp only [Dev.nextFault, Dev.tick, List.headD_cons, List.tail_cons]
      rw [if_neg (by omega), ← hl]
      simp only [show max d.pos d.data.length = d.pos + 0 by omega]
    | cons b bs =>
      rw [hs] at hl
      have hl : bs.length + 1 = t := hl
      simp only [hl]
      by_cases hz : n - t = 0
      · refine ⟨.none, fun _ => rfl, ?_⟩
        rw [hz, readExact.eq_def _ 0, if_pos rfl, Dev.readExact, if_neg hn]
        simp only [Dev.nextFault, Dev.tick, List.headD_cons, List.tail_cons, List.append_nil]
        rw [if_pos (by omega), ← hs, show n = t by omega]
      · obtain ⟨f, h1, h2⟩ := ih (n - t + xs.tail.length) (by have := List.length_tail (l := xs); omega) xs.tail (n - t) rfl
          { d with pos := d.pos + t } hz
        refine ⟨later t f, fun h => later_none (h1 fun hx => h (List.mem_of_mem_tail hx)), ?_⟩
        rw [readExact_later (by omega) (by omega) hz, h2, hs]
        rfl
  cases xs with
  | nil => exact key n rfl
  | cons x xs =>
    cases x with
    | part k => exact key k rfl
    | interrupted =>
      obtain ⟨f, h1, h2⟩ := ih (n + xs.length) (by simp at hN; omega) xs n rfl d hn
      refine ⟨f, fun h => h1 fun hx => h (List.mem_cons_of_mem _ hx), h2.trans ?_⟩
      rw [readExact.eq_def (_ :: _), if_neg hn]
      rfl
    | fail =>
      refine ⟨.fail 0, fun h => absurd List.mem_cons_self h, ?_⟩
      rw [readExact.eq_def, if_neg hn, Dev.readExact, if_neg hn]
      simp [next, read, Dev.nextFault, Dev.tick]

/-! ## Writing -/

theorem patch_patch (d : Bytes) (off : Nat) (a b : Bytes) : patch (patch d off a) (off + a.length) b = patch d off (a ++ b) := by
  apply bytes_ext
  · simp only [patch_length, List.length_append]; omega
  · intro i _
    simp only [byteAt_patch, byteAt_append, List.length_append]
    split_ifs <;> first
      | rfl
      | (exfalso; omega)
      | (congr 1; omega)

/-- The device without the record of the effects, in which a write in pieces is several. -/
abbrev unlogged (d : Dev) : Dev := { d with log := [] }

theorem put_put (d : Dev) (a b : Bytes) : unlogged ((d.put a).put b) = unlogged (d.put (a ++ b)) := by
  unfold Dev.put
  by_cases ha : a = []
  · subst ha; rfl
  · by_cases hb : b = []
    · subst hb; simp [ha]
    · simp only [ha, hb, if_false, List.append_eq_nil_iff, false_and, patch_patch, List.length_append, Nat.add_assoc]

theorem put_meeting (f : Fault) (d : Dev) (a : Bytes) : (meeting f d).put a = meeting f (d.put a) := by
  unfold Dev.put; split <;> rfl

theorem put_pos (d : Dev) (a : Bytes) : (d.put a).pos = d.pos + a.length := by
  unfold Dev.put
  split
  · simp [*]
  · rfl

theorem put_cap (d : Dev) (a : Bytes) : (d.put a).cap = d.cap := by unfold Dev.put; split <;> rfl

theorem writeAll_later {t : Nat} {bs : Bytes} {d : Dev} {f : Fault} (ht : t ≤ bs.length) (ha : t ≤ d.cap - d.pos) (hn : bs.drop t ≠ []) :
    (Dev.writeAll bs (meeting (later t f) d)).1 = (Dev.writeAll (bs.drop t) (meeting f (d.put (bs.take t)))).1 ∧
    unlogged (Dev.writeAll bs (meeting (later t f) d)).2 = unlogged (Dev.writeAll (bs.drop t) (meeting f (d.put (bs.take t)))).2 := by
  have hb : bs ≠ [] := fun h => hn (by rw [h, List.drop_nil])
  have hl : 0 < (bs.drop t).length := List.length_pos_iff.mpr hn
  rw [List.length_drop] at hl
  unfold Dev.writeAll
  rw [if_neg hb, if_neg hn]
  have hp : (d.put (bs.take t)).pos = d.pos + t := by rw [put_pos, List.length_take]; omega
  have hc := put_cap d (bs.take t)
  have e : ∀ f d, (meeting f d).tick = d := fun _ _ => rfl
  have htk : ∀ j, bs.take t ++ (bs.drop t).take j = bs.take (t + j) := fun j => (List.take_add).symm
  cases f with
  | none =>
    simp only [later, e, Dev.nextFault, List.headD_cons, List.length_drop, hp, hc]
    by_cases hl : d.pos + bs.length ≤ d.cap
    · rw [if_pos hl, if_pos (by omega)]
      exact ⟨rfl, by rw [put_put, List.take_append_drop]⟩
    · rw [if_neg hl, if_neg (by omega)]
      exact ⟨rfl, by rw [put_put, htk, show t + (d.cap - (d.pos + t)) = d.cap - d.pos by omega]⟩
  | fail k =>
    simp only [later, e, Dev.nextFault, List.headD_cons, hp, hc]
    exact ⟨trivial, by rw [put_put, htk, show t + min k (d.cap - (d.pos + t)) = min (k + t) (d.cap - d.pos) by omega]⟩

/-- **C100**, writing. -/
theorem c100_write : ∀ (xs : List Xfer) (bs : Bytes) (d : Dev), bs ≠ [] →
    ∃ f, (Xfer.fail ∉ xs → f = .none) ∧ (Dev.writeAll bs (meeting f d)).1 = (writeAll xs bs d).1 ∧
      unlogged (Dev.writeAll bs (meeting f d)).2 = unlogged (writeAll xs bs d).2 := by
  intro xs bs
  induction hN : bs.length + xs.length using Nat.strong_induction_on generalizing xs bs with
  | _ N ih =>
  intro d hn
  have hl : 0 < bs.length := List.length_pos_iff.mpr hn
  have e : ∀ f d, (meeting f d).tick = d := fun _ _ => rfl
  have key : ∀ k, next xs bs.length = .part k → ∃ f, (Xfer.fail ∉ xs → f = .none) ∧
      (Dev.writeAll bs (meeting f d)).1 = (writeAll xs bs d).1 ∧ unlogged (Dev.writeAll bs (meeting f d)).2 = unlogged (writeAll xs bs d).2 := by
    intro k hk
    rw [writeAll.eq_def, if_neg hn, hk]
    obtain ⟨t, ht⟩ : ∃ t, t = min (k + 1) (min bs.length (d.cap - d.pos)) := ⟨_, rfl⟩
    simp only [write, ← ht]
    cases t with
    | zero =>
      refine ⟨.none, fun _ => rfl, ?_⟩
      rw [Dev.writeAll, if_neg hn]
      simp only [Dev.nextFault, e, List.headD_cons]
      rw [if_neg (by omega), show d.cap - d.pos = 0 by omega]
      exact ⟨rfl, rfl⟩
    | succ t =>
      simp only
      by_cases hz : bs.drop (t + 1) = []
      · refine ⟨.none, fun _ => rfl, ?_⟩
        have := congrArg List.length hz
        rw [List.length_drop, List.length_nil] at this
        rw [hz, writeAll.eq_def _ [], if_pos rfl, Dev.writeAll, if_neg hn]
        simp only [Dev.nextFault, e, List.headD_cons]
        rw [if_pos (by omega), List.take_of_length_le (by omega)]
        exact ⟨rfl, rfl⟩
      · obtain ⟨f, h1, h2, h3⟩ := ih ((bs.drop (t + 1)).length + xs.tail.length)
          (by have := List.length_tail (l := xs); rw [List.length_drop]; omega) xs.tail (bs.drop (t + 1)) rfl (d.put (bs.take (t + 1))) hz
        have h4 := writeAll_later (f := f) (d := d) (t := t + 1) (bs := bs) (by omega) (by omega) hz
        exact ⟨later (t + 1) f, fun h => later_none (h1 fun hx => h (List.mem_of_mem_tail hx)), h4.1.trans h2, h4.2.trans h3⟩
  cases xs with
  | nil => exact key _ rfl
  | cons x xs =>
    cases x with
    | part k => exact key k rfl
    | interrupted =>
      obtain ⟨f, h1, h2⟩ := ih (bs.length + xs.length) (by simp at hN; omega) xs bs rfl d hn
      refine ⟨f, fun h => h1 fun hx => h (List.mem_cons_of_mem _ hx), ?_⟩
      rw [writeAll.eq_def (_ :: _), if_neg hn]
      exact h2
    | fail =>
      refine ⟨.fail 0, fun h => absurd List.mem_cons_self h, ?_⟩
      rw [writeAll.eq_def, if_neg hn, Dev.writeAll, if_neg hn]
      simp [next, write, Dev.nextFault, Dev.tick, Dev.put]

/-- Nothing to transfer: no call on the device in either. -/
theorem c100_empty (xs : List Xfer) (d : Dev) : readExact xs 0 d = Dev.readExact 0 d ∧ writeAll xs [] d = Dev.writeAll [] d := by
  rw [readExact.eq_def, writeAll.eq_def]
  exact ⟨rfl, rfl⟩

/-- A device that never fails, however it cuts the transfers. -/
theorem c100_whole (xs : List Xfer) (d : Dev) (hx : Xfer.fail ∉ xs) (hf : d.faults = []) :
    (∀ n, readExact xs n d = Dev.readExact n d) ∧
    ∀ bs, (writeAll xs bs d).1 = (Dev.writeAll bs d).1 ∧ unlogged (writeAll xs bs d).2 = unlogged (Dev.writeAll bs d).2 := by
  obtain ⟨dt, dp, dc, df, dl⟩ := d
  obtain rfl : df = [] := hf
  constructor
  · intro n
    by_cases hn : n = 0
    · rw [hn]; exact (c100_empty xs _).1
    · obtain ⟨f, h1, h2⟩ := c100_read xs n ⟨dt, dp, dc, [], dl⟩ hn
      rw [h1 hx] at h2
      rw [← h2, Dev.readExact, Dev.readExact, if_neg hn, if_neg hn]
      rfl
  · intro bs
    by_cases hn : bs = []
    · rw [hn]; exact ⟨congrArg _ (c100_empty xs _).2, by rw [(c100_empty xs _).2]⟩
    · obtain ⟨f, h1, h2, h3⟩ := c100_write xs bs ⟨dt, dp, dc, [], dl⟩ hn
      rw [h1 hx] at h2 h3
      rw [← h2, ← h3, Dev.writeAll, Dev.writeAll, if_neg hn, if_neg hn]
      exact ⟨rfl, rfl⟩

/-- Five bytes written to a device of eight, one, then after an interruption up to three, then the rest. -/
example : writeAll [.part 0, .interrupted, .part 2] [1, 2, 3, 4, 5] ⟨zeros 8, 2, 8, [], []⟩ =
    (.ok (), ⟨[0, 0, 1, 2, 3, 4, 5, 0], 7, 8, [], [.write 2 [1], .write 3 [2, 3, 4], .write 6 [5]]⟩) := by
  iterate 5 (rw [writeAll.eq_def]; simp [write, next, Dev.put, patch, zeros])

/-- The same with a failure after the second piece. -/
example : (fun r => (r.1, r.2.data)) (writeAll [.part 0, .interrupted, .part 2, .fail] [1, 2, 3, 4, 5] ⟨zeros 8, 2, 8, [], []⟩) =
      (.err .device, [0, 0, 1, 2, 3, 4, 0, 0]) ∧
    (fun r => (r.1, r.2.data)) (Dev.writeAll [1, 2, 3, 4, 5] ⟨zeros 8, 2, 8, [.fail 4], []⟩) =
      (.err .device, [0, 0, 1, 2, 3, 4, 0, 0]) := by
  refine ⟨?_, by decide +kernel⟩
  iterate 4 (rw [writeAll.eq_def]; simp [write, next, Dev.put, patch, zeros])

/-- Reading past the end in pieces. -/
example : readExact [.part 1, .interrupted] 4 ⟨[7, 8, 9], 0, 3, [], []⟩ = (.err .unexpectedEof, ⟨[7, 8, 9], 3, 3, [], []⟩) ∧
    readExact [.part 1, .interrupted] 3 ⟨[7, 8, 9], 0, 3, [], []⟩ = (.ok [7, 8, 9], ⟨[7, 8, 9], 3, 3, [], []⟩) := by
  constructor <;> iterate 4 (rw [readExact.eq_def]; simp [read, next, slice])

end Stream

end Gpt
