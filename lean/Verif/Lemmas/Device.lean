import Verif.Lemmas.Bytes
/-!
# Laws of the device operations
-/

namespace Gpt

/-- The device without the parts that only drive the environment. -/
structure Dev.Quiet (d d' : Dev) : Prop where
  data : d'.data = d.data
  cap : d'.cap = d.cap
  log : d'.log = d.log
  faults : d.faults = [] → d'.faults = []

theorem Dev.Quiet.refl (d : Dev) : Dev.Quiet d d := ⟨rfl, rfl, rfl, id⟩
theorem Dev.Quiet.trans {a b c : Dev} (h1 : Dev.Quiet a b) (h2 : Dev.Quiet b c) : Dev.Quiet a c :=
  ⟨h2.data.trans h1.data, h2.cap.trans h1.cap, h2.log.trans h1.log, fun h => h2.faults (h1.faults h)⟩

theorem Dev.quiet_chain : M.Chain Dev.Quiet := ⟨Dev.Quiet.refl, fun _ _ _ => Dev.Quiet.trans⟩

namespace Dev

theorem tick_of_nil {d : Dev} (h : d.faults = []) : d.tick = d := by
  cases d; simp_all [tick]

theorem nextFault_of_nil {d : Dev} (h : d.faults = []) : d.nextFault = .none := by
  simp [nextFault, h]

theorem tick_faults_nil {d : Dev} (h : d.faults = []) : d.tick.faults = [] := by simp [tick, h]

/-! ### Whatever happens -/

theorem seekStart_quiet (n : UInt64) : M.Pres Quiet (seekStart n) := by
  intro d
  unfold seekStart
  split <;> exact ⟨rfl, rfl, rfl, tick_faults_nil⟩

theorem seekEnd_quiet : M.Pres Quiet seekEnd := by
  intro d
  unfold seekEnd
  split <;> exact ⟨rfl, rfl, rfl, tick_faults_nil⟩

theorem streamPosition_quiet : M.Pres Quiet streamPosition := by
  intro d
  unfold streamPosition
  split <;> exact ⟨rfl, rfl, rfl, tick_faults_nil⟩

theorem readExact_quiet (n : Nat) : M.Pres Quiet (readExact n) := by
  intro d
  unfold readExact
  split
  · exact Quiet.refl d
  · split
    · split <;> exact ⟨rfl, rfl, rfl, tick_faults_nil⟩
    · exact ⟨rfl, rfl, rfl, tick_faults_nil⟩

theorem seekStart_noPanic (n : UInt64) : M.NoPanic (seekStart n) := by
  intro d; unfold seekStart; split <;> simp
theorem seekEnd_noPanic : M.NoPanic seekEnd := by
  intro d; unfold seekEnd; split <;> simp
theorem streamPosition_noPanic : M.NoPanic streamPosition := by
  intro d; unfold streamPosition; split <;> simp
theorem readExact_noPanic (n : Nat) : M.NoPanic (readExact n) := by
  intro d; unfold readExact
  split
  · simp
  · split
    · split <;> simp
    · simp
theorem writeAll_noPanic (b : Bytes) : M.NoPanic (writeAll b) := by
  intro d; unfold writeAll
  split
  · simp
  · split
    · split <;> simp
    · simp
theorem flush_noPanic : M.NoPanic flush := by
  intro d; unfold flush; split <;> simp
theorem syncAll_noPanic : M.NoPanic syncAll := by
  intro d; unfold syncAll; split <;> simp

/-! ### Success -/

theorem seekStart_ok {n r : UInt64} {d d' : Dev} (h : seekStart n d = (.ok r, d')) :
    r = n ∧ d' = { d with pos := n.toNat, faults := d.faults.tail } ∧ d.nextFault = .none := by
  unfold seekStart at h
  split at h
  · rename_i hf
    simp only [Prod.mk.injEq, Res.ok.injEq] at h
    exact ⟨h.1.symm, h.2.symm, hf⟩
  · simp at h

theorem seekEnd_ok {r : UInt64} {d d' : Dev} (h : seekEnd d = (.ok r, d')) :
    r = UInt64.ofNat d.data.length ∧ d' = { d with pos := d.data.length, faults := d.faults.tail } ∧
    d.nextFault = .none := by
  unfold seekEnd at h
  split at h
  · rename_i hf
    simp only [Prod.mk.injEq, Res.ok.injEq] at h
    exact ⟨h.1.symm, h.2.symm, hf⟩
  · simp at h

theorem streamPosition_ok {r : UInt64} {d d' : Dev} (h : streamPosition d = (.ok r, d')) :
    r = UInt64.ofNat d.pos ∧ d' = { d with faults := d.faults.tail } ∧ d.nextFault = .none := by
  unfold streamPosition at h
  split at h
  · rename_i hf
    simp only [Prod.mk.injEq, Res.ok.injEq] at h
    exact ⟨h.1.symm, h.2.symm, hf⟩
  · simp at h

theorem readExact_ok {n : Nat} {r : Bytes} {d d' : Dev} (h : readExact n d = (.ok r, d')) :
    r = slice d.data d.pos n ∧ d'.data = d.data ∧ d'.pos = d.pos + n ∧ d'.cap = d.cap ∧ d'.log = d.log ∧
    (n = 0 ∨ d.pos + n ≤ d.data.length) := by
  unfold readExact at h
  split at h
  · rename_i h0
    simp only [Prod.mk.injEq, Res.ok.injEq] at h
    obtain ⟨h1, h2⟩ := h
    subst h0; subst h2
    exact ⟨by rw [← h1]; simp [slice], rfl, rfl, rfl, rfl, .inl rfl⟩
  · split at h
    · split at h
      · rename_i hle
        simp only [Prod.mk.injEq, Res.ok.injEq] at h
        obtain ⟨h1, h2⟩ := h
        subst h2
        exact ⟨h1.symm, rfl, rfl, rfl, rfl, .inr hle⟩
      · simp at h
    · simp at h

theorem readExact_ok_length {n : Nat} {r : Bytes} {d d' : Dev} (h : readExact n d = (.ok r, d')) : r.length = n := by
  obtain ⟨h1, _, _, _, _, h2⟩ := readExact_ok h
  rw [h1]
  rcases h2 with h2 | h2
  · subst h2; simp [slice]
  · exact slice_length_of_le h2

/-- `patch` that does nothing for an empty write. -/
theorem put_data (d : Dev) (bs : Bytes) : (d.put bs).data = if bs = [] then d.data else patch d.data d.pos bs := by
  unfold put; split <;> rfl

theorem byteAt_put (d : Dev) (bs : Bytes) (i : Nat) :
    byteAt (d.put bs).data i = if d.pos ≤ i ∧ i < d.pos + bs.length then byteAt bs (i - d.pos) else byteAt d.data i := by
  rw [put_data]
  split
  · rename_i h
    subst h
    rw [if_neg (by simp)]
  · rw [byteAt_patch]

theorem put_length_le (d : Dev) (bs : Bytes) : d.data.length ≤ (d.put bs).data.length := by
  rw [put_data]
  split
  · exact Nat.le_refl _
  · rw [patch_length]; omega

theorem put_cap (d : Dev) (bs : Bytes) : (d.put bs).cap = d.cap := by unfold put; split <;> rfl
theorem put_faults (d : Dev) (bs : Bytes) : (d.put bs).faults = d.faults := by unfold put; split <;> rfl

theorem writeAll_ok {bs : Bytes} {u : Unit} {d d' : Dev} (h : writeAll bs d = (.ok u, d')) :
    d'.data = (d.put bs).data ∧ d'.pos = d.pos + bs.length ∧ d'.cap = d.cap ∧
    (bs = [] ∨ d.pos + bs.length ≤ d.cap) ∧ d'.log = (d.put bs).log := by
  unfold writeAll at h
  split at h
  · rename_i h0
    simp only [Prod.mk.injEq, true_and] at h
    subst h0; subst h
    exact ⟨by simp [put], by simp, rfl, .inl rfl, by simp [put]⟩
  · rename_i h0
    split at h
    · split at h
      · rename_i hle
        simp only [Prod.mk.injEq, true_and] at h
        subst h
        simp only [put, if_neg h0, tick]
        exact ⟨trivial, trivial, trivial, .inr hle, trivial⟩
      · simp at h
    · simp at h

/-- Every outcome of `write_all`: a prefix was written. -/
theorem writeAll_any (bs : Bytes) (d : Dev) : ∃ k, k ≤ bs.length ∧
    (writeAll bs d).2.data = (d.put (bs.take k)).data ∧ (writeAll bs d).2.cap = d.cap ∧
    (writeAll bs d).2.log = (d.put (bs.take k)).log ∧
    (d.faults = [] → (writeAll bs d).2.faults = []) ∧
    ((writeAll bs d).1 = .ok () → k = bs.length) := by
  unfold writeAll
  split
  · rename_i h0
    exact ⟨0, by omega, by simp [put], rfl, by simp [put], id, fun _ => by simp [h0]⟩
  · have hput : ∀ b, (d.tick.put b).data = (d.put b).data ∧ (d.tick.put b).log = (d.put b).log ∧
        (d.tick.put b).cap = d.cap ∧ (d.tick.put b).faults = d.faults.tail := by
      intro b
      unfold put
      split <;> simp [tick]
    split
    · split
      · refine ⟨bs.length, by omega, ?_⟩
        rw [List.take_length]
        exact ⟨(hput _).1, (hput _).2.2.1, (hput _).2.1, fun hf => by rw [(hput _).2.2.2, hf]; rfl, fun _ => rfl⟩
      · refine ⟨min bs.length (d.cap - d.pos), by omega, ?_⟩
        have : bs.take (min bs.length (d.cap - d.pos)) = bs.take (d.cap - d.pos) := by
          rw [← List.take_take, List.take_take, Nat.min_comm, ← List.take_take, List.take_length]
        rw [this]
        exact ⟨(hput _).1, (hput _).2.2.1, (hput _).2.1, fun hf => by rw [(hput _).2.2.2, hf]; rfl, by simp⟩
    · rename_i k hk
      refine ⟨min bs.length (min k (d.cap - d.pos)), by omega, ?_⟩
      have : bs.take (min bs.length (min k (d.cap - d.pos))) = bs.take (min k (d.cap - d.pos)) := by
        rw [← List.take_take, List.take_take, Nat.min_comm, ← List.take_take, List.take_length]
      rw [this]
      exact ⟨(hput _).1, (hput _).2.2.1, (hput _).2.1, fun hf => by rw [(hput _).2.2.2, hf]; rfl, by simp⟩

/-! ### No faults -/

theorem seekStart_nil {n : UInt64} {d : Dev} (h : d.faults = []) : seekStart n d = (.ok n, { d with pos := n.toNat }) := by
  unfold seekStart
  rw [nextFault_of_nil h, tick_of_nil h]

theorem seekEnd_nil {d : Dev} (h : d.faults = []) :
    seekEnd d = (.ok (UInt64.ofNat d.data.length), { d with pos := d.data.length }) := by
  unfold seekEnd
  rw [nextFault_of_nil h, tick_of_nil h]

theorem streamPosition_nil {d : Dev} (h : d.faults = []) : streamPosition d = (.ok (UInt64.ofNat d.pos), d) := by
  unfold streamPosition
  rw [nextFault_of_nil h, tick_of_nil h]

theorem readExact_nil {n : Nat} {d : Dev} (h : d.faults = []) (hn : d.pos + n ≤ d.data.length) :
    readExact n d = (.ok (slice d.data d.pos n), { d with pos := d.pos + n }) := by
  unfold readExact
  split
  · rename_i h0; subst h0; cases d; simp [slice]
  · simp only [nextFault_of_nil h, tick_of_nil h]

theorem readExact_nil_err {n : Nat} {d : Dev} (h : d.faults = []) (h0 : n ≠ 0) (hn : ¬ d.pos + n ≤ d.data.length) :
    readExact n d = (.err .unexpectedEof, { d with pos := max d.pos d.data.length }) := by
  unfold readExact
  rw [if_neg h0, nextFault_of_nil h, tick_of_nil h]
  exact if_neg hn

theorem writeAll_nil {bs : Bytes} {d : Dev} (h : d.faults = []) (hn : d.pos + bs.length ≤ d.cap) :
    writeAll bs d = (.ok (), d.put bs) := by
  unfold writeAll
  split
  · rename_i h0; subst h0; simp [put]
  · simp only [nextFault_of_nil h, tick_of_nil h]

theorem put_pos (d : Dev) (bs : Bytes) : (d.put bs).pos = d.pos + bs.length := by
  unfold put
  split
  · rename_i h; subst h; rfl
  · rfl

theorem flush_nil {d : Dev} (h : d.faults = []) : flush d = (.ok (), { d with log := d.log ++ [.flush] }) := by
  unfold flush
  rw [nextFault_of_nil h, tick_of_nil h]

theorem syncAll_nil {d : Dev} (h : d.faults = []) : syncAll d = (.ok (), { d with log := d.log ++ [.sync] }) := by
  unfold syncAll
  rw [nextFault_of_nil h, tick_of_nil h]

theorem flush_ok {u : Unit} {d d' : Dev} (h : flush d = (.ok u, d')) :
    d' = { d with faults := d.faults.tail, log := d.log ++ [.flush] } := by
  unfold flush at h
  split at h
  · simp only [Prod.mk.injEq] at h; exact h.2.symm
  · simp at h

theorem syncAll_ok {u : Unit} {d d' : Dev} (h : syncAll d = (.ok u, d')) :
    d' = { d with faults := d.faults.tail, log := d.log ++ [.sync] } := by
  unfold syncAll at h
  split at h
  · simp only [Prod.mk.injEq] at h; exact h.2.symm
  · simp at h

/-! ### Confinement -/

/-- Only bytes at positions satisfying `R` may differ; the device does not shrink. Beyond the end a byte counts as 0. -/
structure Within (R : Nat → Prop) (d d' : Dev) : Prop where
  bytes : ∀ i, ¬ R i → byteAt d'.data i = byteAt d.data i
  length : d.data.length ≤ d'.data.length
  cap : d'.cap = d.cap

theorem within_chain (R : Nat → Prop) : M.Chain (Within R) where
  refl _ := ⟨fun _ _ => rfl, Nat.le_refl _, rfl⟩
  trans _ _ _ h1 h2 := ⟨fun i hi => (h2.bytes i hi).trans (h1.bytes i hi), h1.length.trans h2.length, h2.cap.trans h1.cap⟩

theorem Within.mono {R R' : Nat → Prop} {d d' : Dev} (h : Within R d d') (hR : ∀ i, R i → R' i) : Within R' d d' :=
  ⟨fun i hi => h.bytes i (fun hr => hi (hR i hr)), h.length, h.cap⟩

theorem Quiet.within {R : Nat → Prop} {d d' : Dev} (h : Quiet d d') : Within R d d' :=
  ⟨fun i _ => by rw [h.data], by rw [h.data], h.cap⟩

theorem flush_within (R : Nat → Prop) : M.Pres (Within R) flush := by
  intro d; unfold flush; split <;> exact ⟨fun _ _ => rfl, Nat.le_refl _, rfl⟩

theorem syncAll_within (R : Nat → Prop) : M.Pres (Within R) syncAll := by
  intro d; unfold syncAll; split <;> exact ⟨fun _ _ => rfl, Nat.le_refl _, rfl⟩

/-- A `write_all` changes at most the bytes it covers, in every outcome. -/
theorem writeAll_within {R : Nat → Prop} {bs : Bytes} {d : Dev} (h : ∀ i, d.pos ≤ i → i < d.pos + bs.length → R i) :
    Within R d (writeAll bs d).2 := by
  obtain ⟨k, hk, h1, h2, _⟩ := writeAll_any bs d
  refine ⟨?_, by rw [h1]; exact put_length_le _ _, h2⟩
  intro i hi
  rw [h1, byteAt_put, if_neg]
  rintro ⟨ha, hb⟩
  rw [List.length_take] at hb
  exact hi (h i ha (by omega))

/-- Every byte is either as before or, at a position satisfying `R`, equal to the target. -/
structure Toward (R : Nat → Prop) (tgt : Nat → UInt8) (d d' : Dev) : Prop where
  bytes : ∀ i, byteAt d'.data i = byteAt d.data i ∨ (R i ∧ byteAt d'.data i = tgt i)
  length : d.data.length ≤ d'.data.length
  cap : d'.cap = d.cap

theorem toward_chain (R : Nat → Prop) (tgt : Nat → UInt8) : M.Chain (Toward R tgt) where
  refl _ := ⟨fun _ => .inl rfl, Nat.le_refl _, rfl⟩
  trans _ _ _ h1 h2 := by
    refine ⟨fun i => ?_, h1.length.trans h2.length, h2.cap.trans h1.cap⟩
    rcases h2.bytes i with h | h
    · rcases h1.bytes i with h' | h'
      · exact .inl (h.trans h')
      · exact .inr ⟨h'.1, h.trans h'.2⟩
    · exact .inr h

theorem Toward.within {R : Nat → Prop} {tgt : Nat → UInt8} {d d' : Dev} (h : Toward R tgt d d') : Within R d d' := by
  refine ⟨fun i hi => ?_, h.length, h.cap⟩
  rcases h.bytes i with h | h
  · exact h
  · exact absurd h.1 hi

theorem Toward.mono {R R' : Nat → Prop} {tgt : Nat → UInt8} {d d' : Dev} (h : Toward R tgt d d')
    (hR : ∀ i, R i → R' i) : Toward R' tgt d d' :=
  ⟨fun i => (h.bytes i).imp id (fun h => ⟨hR i h.1, h.2⟩), h.length, h.cap⟩

theorem Quiet.toward {R : Nat → Prop} {tgt : Nat → UInt8} {d d' : Dev} (h : Quiet d d') : Toward R tgt d d' :=
  ⟨fun i => .inl (by rw [h.data]), by rw [h.data], h.cap⟩

theorem flush_toward (R : Nat → Prop) (tgt : Nat → UInt8) : M.Pres (Toward R tgt) flush := by
  intro d; unfold flush; split <;> exact ⟨fun _ => .inl rfl, Nat.le_refl _, rfl⟩

theorem syncAll_toward (R : Nat → Prop) (tgt : Nat → UInt8) : M.Pres (Toward R tgt) syncAll := by
  intro d; unfold syncAll; split <;> exact ⟨fun _ => .inl rfl, Nat.le_refl _, rfl⟩

/-- A `write_all` makes a prefix of the bytes it covers equal to what is written, in every outcome. -/
theorem writeAll_toward {R : Nat → Prop} {tgt : Nat → UInt8} {bs : Bytes} {d : Dev}
    (h : ∀ i, i < bs.length → R (d.pos + i) ∧ byteAt bs i = tgt (d.pos + i)) :
    Toward R tgt d (writeAll bs d).2 := by
  obtain ⟨k, hk, h1, h2, _⟩ := writeAll_any bs d
  refine ⟨?_, by rw [h1]; exact put_length_le _ _, h2⟩
  intro i
  rw [h1, byteAt_put]
  split
  · rename_i hi
    rw [List.length_take] at hi
    right
    have h3 := h (i - d.pos) (by omega)
    rw [show d.pos + (i - d.pos) = i by omega] at h3
    refine ⟨h3.1, ?_⟩
    rw [← h3.2]
    unfold byteAt
    rw [List.getElem?_take, if_pos (by omega)]
  · exact .inl rfl

end Dev

end Gpt
