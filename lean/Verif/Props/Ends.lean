import Verif.Props.Image
/-!
# C91: every outcome of `write_inplace`
-/

namespace Gpt

open Spec GptDisk

/-- A write of nothing, or one that ends within the device. -/
def Spec.Fits (cap : Nat) (w : Nat × Bytes) : Prop := w.2 = [] ∨ w.1 + w.2.length ≤ cap

instance (cap : Nat) (w : Nat × Bytes) : Decidable (Spec.Fits cap w) := inferInstanceAs (Decidable (_ ∨ _))

/-- The writes carried out on a device that can hold `cap` bytes: up to the first that does not fit, of which a part is done. -/
def Spec.carried (cap : Nat) : List (Nat × Bytes) → List (Nat × Bytes)
  | [] => []
  | w :: ws => if Fits cap w then w :: carried cap ws else [(w.1, w.2.take (cap - w.1))]

/-- The result of doing these writes, each with the error to report when it does not fit; `r` if all do. -/
def Spec.endOf {ε α : Type} (cap : Nat) (r : Res ε α) : List ((Nat × Bytes) × ε) → Res ε α
  | [] => r
  | w :: ws => if Fits cap w.1 then endOf cap r ws else .err w.2

/-- The error when an array or a header does not fit. -/
def Spec.inArray (ws : List (Nat × Bytes)) : List ((Nat × Bytes) × GptError) := ws.map fun w => (w, .io .writeZero)
def Spec.inHeader (ws : List (Nat × Bytes)) : List ((Nat × Bytes) × GptError) := ws.map fun w => (w, .header (.io .writeZero))

/-- The writes to the slots of the entries, without the zeros after them. -/
def Spec.slotWrites (lb : LbSize) (ph : Header) (bh : Option Header) (ps : List Partition) : List (Nat × Bytes) :=
  ps.zipIdx.flatMap fun x => (slotOf lb ph x.2, x.1.asBytes ph.partSize) ::
    (bh.toList.filter (fun b => b.partStart != ph.partStart)).map fun b => (slotOf lb b x.2, x.1.asBytes b.partSize)

/-- What `write_inplace` sets out to write, and what it returns when all of that fits. -/
inductive Spec.WritePlan (m : Mode) (s : GptDisk) : List ((Nat × Bytes) × GptError) → Res GptError Unit → Prop where
  | readOnly : s.config.writable = false → WritePlan m s [] (.err .readOnly)
  | small : s.config.writable = true → s.device.data.length < 3 * s.config.lbSize.usize →
      WritePlan m s [] (.err (.header .toSmallForBackup))
  | headerless : s.config.writable = true → 3 * s.config.lbSize.usize ≤ s.device.data.length → s.header (ε := Empty) = .panic →
      WritePlan m s [] .panic
  /-- the primary header cannot be made -/
  | noPrimary (h : Header) (e : HeaderError) : s.config.writable = true → 3 * s.config.lbSize.usize ≤ s.device.data.length →
      s.header (ε := Empty) = .ok h → Built m s.config.lbSize (primaryAgain h) (.err e) → WritePlan m s [] (.err (.header e))
  | primaryPanic (h : Header) : s.config.writable = true → 3 * s.config.lbSize.usize ≤ s.device.data.length →
      s.header (ε := Empty) = .ok h → Built m s.config.lbSize (primaryAgain h) .panic → WritePlan m s [] .panic
  /-- the backup array would have to start behind the last block -/
  | backupPanic (h ph : Header) : s.config.writable = true → 3 * s.config.lbSize.usize ≤ s.device.data.length →
      s.header (ε := Empty) = .ok h → Built m s.config.lbSize (primaryAgain h) (.ok ph) → s.config.readonlyBackup = false →
      m = .debug → ph.lastUsable.toNat = 2 ^ 64 - 1 → WritePlan m s [] .panic
  /-- more used entries than slots: the entries that have slots are written -/
  | tooMany (h ph : Header) (bh : Option Header) : s.config.writable = true → 3 * s.config.lbSize.usize ≤ s.device.data.length →
      WriteHeaders m s h ph bh → ph.numParts.toNat < (Spec.used s.partitions).length →
      WritePlan m s (inArray (slotWrites s.config.lbSize ph bh ((Spec.used s.partitions).take ph.numParts.toNat))) (.err .overflowPartitionCount)
  /-- both headers in the same block: the arrays are written, no header is -/
  | sameBlock (h ph : Header) (bh : Option Header) : s.config.writable = true → 3 * s.config.lbSize.usize ≤ s.device.data.length →
      WriteHeaders m s h ph bh → (Spec.used s.partitions).length ≤ ph.numParts.toNat → h.currentLba = h.backupLba →
      WritePlan m s (inArray (arrayWrites s.config.lbSize ph bh (Spec.used s.partitions))) (.err (.header .writingToWrongLba))
  /-- the byte offset of the backup header does not fit 64 bits -/
  | backupFar (h ph b : Header) : s.config.writable = true → 3 * s.config.lbSize.usize ≤ s.device.data.length →
      WriteHeaders m s h ph (some b) → (Spec.used s.partitions).length ≤ ph.numParts.toNat → h.currentLba ≠ h.backupLba →
      2 ^ 64 ≤ b.currentLba.toNat * s.config.lbSize.usize →
      WritePlan m s (inArray (arrayWrites s.config.lbSize ph (some b) (Spec.used s.partitions)))
        (.err (.header (.overflow "writing header: lba * lbs")))
  | all (h ph : Header) (bh : Option Header) (bw : List (Nat × Bytes)) (pw : Nat × Bytes) : s.config.writable = true →
      3 * s.config.lbSize.usize ≤ s.device.data.length →
      WriteHeaders m s h ph bh → (Spec.used s.partitions).length ≤ ph.numParts.toNat → h.currentLba ≠ h.backupLba →
      (∀ b, bh = some b → b.currentLba.toNat * s.config.lbSize.usize < 2 ^ 64) →
      Writes s.config.lbSize ph bh (Spec.used s.partitions) s.device.data (arrayWrites s.config.lbSize ph bh (Spec.used s.partitions) ++ bw ++ [pw]) →
      WritePlan m s (inArray (arrayWrites s.config.lbSize ph bh (Spec.used s.partitions)) ++ inHeader (bw ++ [pw])) (.ok ())

/-- The arrays of the headers a write makes end below 2^64 and are shorter than 2^63 bytes. -/
def Spec.EndsBelow (m : Mode) (s : GptDisk) : Prop :=
  ∀ h ph, s.header (ε := Empty) = .ok h → Built m s.config.lbSize (primaryAgain h) (.ok ph) →
    slotOf s.config.lbSize ph ph.numParts.toNat < 2 ^ 64 ∧ ph.numParts.toNat * ph.partSize.toNat < 2 ^ 63 ∧
    ∀ b, s.config.readonlyBackup = false → Built m s.config.lbSize (backupFrom ph) (.ok b) → slotOf s.config.lbSize b b.numParts.toNat < 2 ^ 64

/-! ### Runs on a device without faults -/

/-- `x` does the writes of `plan` in order, up to the first that does not fit, and returns `r` if all fit. -/
structure Runs {σ ε α : Type} (π : σ → Dev) (plan : List (Write × ε)) (r : Res ε α) (x : M σ ε α) (s : σ) : Prop where
  result : (x s).1 = endOf (π s).cap r plan
  data : (π (x s).2).data = applyWrites (π s).data (carried (π s).cap (plan.map Prod.fst))
  cap : (π (x s).2).cap = (π s).cap
  faults : (π (x s).2).faults = []

theorem endOf_append {ε α : Type} (cap : Nat) (r : Res ε α) (a b : List (Write × ε)) :
    endOf cap r (a ++ b) = endOf cap (endOf cap r b) a := by
  induction a with
  | nil => rfl
  | cons w a ih => simp only [List.cons_append, endOf, ih]

theorem carried_fit {cap : Nat} {a : List Write} (h : ∀ w ∈ a, Fits cap w) (b : List Write) : carried cap (a ++ b) = a ++ carried cap b := by
  induction a with
  | nil => rfl
  | cons w a ih =>
    simp only [List.cons_append, carried]
    rw [if_pos (h w (by simp)), ih fun w hw => h w (by simp [hw])]

theorem carried_all {cap : Nat} {a : List Write} (h : ∀ w ∈ a, Fits cap w) : carried cap a = a := by
  have := carried_fit h []
  simpa [carried] using this

theorem carried_misfit {cap : Nat} {a : List Write} (h : ¬ ∀ w ∈ a, Fits cap w) (b : List Write) : carried cap (a ++ b) = carried cap a := by
  induction a with
  | nil => exact absurd (by simp) h
  | cons w a ih =>
    simp only [List.cons_append, carried]
    by_cases hw : Fits cap w
    · rw [if_pos hw, if_pos hw, ih fun h' => h (by simpa using ⟨hw, fun a b hab => h' (a, b) hab⟩)]
    · rw [if_neg hw, if_neg hw]

theorem endOf_fit {ε α : Type} {cap : Nat} {a : List (Write × ε)} (h : ∀ w ∈ a.map Prod.fst, Fits cap w) (r : Res ε α) : endOf cap r a = r := by
  induction a with
  | nil => rfl
  | cons w a ih =>
    simp only [endOf]
    rw [if_pos (h w.1 (by simp)), ih fun w hw => h w (by simp only [List.map_cons, List.mem_cons]; exact .inr hw)]

theorem endOf_misfit {ε : Type} {cap : Nat} {a : List (Write × ε)} (h : ¬ ∀ w ∈ a.map Prod.fst, Fits cap w) :
    ∃ e, ∀ (α : Type) (r : Res ε α), endOf cap r a = .err e := by
  induction a with
  | nil => exact absurd (by simp) h
  | cons w a ih =>
    by_cases hw : Fits cap w.1
    · obtain ⟨e, he⟩ := ih fun h' => h (by
        intro x hx
        rw [List.map_cons, List.mem_cons] at hx
        rcases hx with rfl | hx
        · exact hw
        · exact h' x hx)
      exact ⟨e, fun α r => by simp only [endOf]; rw [if_pos hw, he]⟩
    · exact ⟨w.2, fun α r => by simp only [endOf]; rw [if_neg hw]⟩

theorem Runs.bind {σ ε α β : Type} {π : σ → Dev} {a b : List (Write × ε)} {v : α} {r : Res ε β} {x : M σ ε α} {f : α → M σ ε β} {s : σ}
    (hx : Runs π a (.ok v) x s)
    (hf : ∀ s1, x s = (.ok v, s1) → (π s1).cap = (π s).cap → (π s1).faults = [] → (π s1).data = applyWrites (π s).data (a.map Prod.fst) →
      Runs π b r (f v) s1) : Runs π (a ++ b) r (x >>= f) s := by
  by_cases h : ∀ w ∈ a.map Prod.fst, Fits (π s).cap w
  · have h1 := hx.result
    rw [endOf_fit h] at h1
    have h2 := hx.data
    rw [carried_all h] at h2
    rcases e : x s with ⟨r1, s1⟩
    have hc := hx.cap
    have hq := hx.faults
    rw [e] at h1 h2 hc hq
    simp only at h1 h2 hc hq
    subst h1
    have hr := hf s1 e hc hq h2
    have e2 : (x >>= f) s = f v s1 := by rw [M.bind_apply, e]
    refine ⟨?_, ?_, ?_, ?_⟩
    · rw [e2, hr.result, hc, endOf_append, endOf_fit h]
    · rw [e2, hr.data, hc, h2, List.map_append, carried_fit h, applyWrites_append]
    · rw [e2, hr.cap, hc]
    · rw [e2]; exact hr.faults
  · obtain ⟨err, he⟩ := endOf_misfit h
    have h1 := hx.result
    rw [he] at h1
    rcases e : x s with ⟨r1, s1⟩
    rw [e] at h1
    simp only at h1
    subst h1
    have e2 : (x >>= f) s = (.err err, s1) := by rw [M.bind_apply, e]
    refine ⟨?_, ?_, ?_, ?_⟩
    · rw [e2, endOf_append, he]
    · have := hx.data
      rw [e] at this
      rw [e2, this, List.map_append, carried_misfit h]
    · have := hx.cap; rw [e] at this; rw [e2]; exact this
    · have := hx.faults; rw [e] at this; rw [e2]; exact this

theorem Runs.ret {σ ε α : Type} {π : σ → Dev} {r : Res ε α} {x : M σ ε α} {s s' : σ} (h : x s = (r, s')) (hd : (π s').data = (π s).data)
    (hc : (π s').cap = (π s).cap) (hf : (π s').faults = []) : Runs π [] r x s :=
  ⟨by rw [h]; rfl, by rw [h, hd]; rfl, by rw [h, hc], by rw [h]; exact hf⟩

theorem Runs.bind_nil {σ ε α β : Type} {π : σ → Dev} {b : List (Write × ε)} {v : α} {r : Res ε β} {x : M σ ε α} {f : α → M σ ε β} {s : σ}
    (hx : Runs π [] (.ok v) x s)
    (hf : ∀ s1, x s = (.ok v, s1) → (π s1).cap = (π s).cap → (π s1).faults = [] → (π s1).data = (π s).data → Runs π b r (f v) s1) :
    Runs π b r (x >>= f) s := Runs.bind (a := []) hx hf

theorem Runs.stop {σ ε α β : Type} {π : σ → Dev} {a : List (Write × ε)} {e : ε} {x : M σ ε α} {f : α → M σ ε β} {s : σ}
    (hx : Runs π a (.err e) x s) : Runs π a (.err e) (x >>= f) s := by
  have hr : ∃ e', (x s).1 = .err e' ∧ endOf (π s).cap (.err e : Res ε β) a = .err e' := by
    by_cases h : ∀ w ∈ a.map Prod.fst, Fits (π s).cap w
    · exact ⟨e, by rw [hx.result, endOf_fit h], endOf_fit h _⟩
    · obtain ⟨e', he⟩ := endOf_misfit h
      exact ⟨e', by rw [hx.result, he], he _ _⟩
  obtain ⟨e', h1, h2⟩ := hr
  rcases hx' : x s with ⟨r1, s1⟩
  rw [hx'] at h1
  simp only at h1
  subst h1
  have e2 : (x >>= f) s = (.err e', s1) := by rw [M.bind_apply, hx']
  have hd := hx.data
  have hc := hx.cap
  have hf := hx.faults
  rw [hx'] at hd hc hf
  exact ⟨by rw [e2, h2], by rw [e2]; exact hd, by rw [e2]; exact hc, by rw [e2]; exact hf⟩

/-- `write_all` at `off`, with the error mapped. -/
theorem writeAll_runs {ε : Type} (g : IoErr → ε) (bs : Bytes) {d : Dev} (hf : d.faults = []) :
    Runs id [((d.pos, bs), g .writeZero)] (.ok ()) ((Dev.writeAll bs).mapErr g) d := by
  by_cases h : Fits d.cap (d.pos, bs)
  · have e : Dev.writeAll bs d = (.ok (), d.put bs) := by
      rcases h with h | h
      · simp only at h; subst h; unfold Dev.writeAll Dev.put; simp
      · exact Dev.writeAll_nil hf h
    have e' : ((Dev.writeAll bs).mapErr g) d = (.ok (), d.put bs) := by rw [M.mapErr_apply, e]; rfl
    refine ⟨?_, ?_, ?_, ?_⟩
    · rw [e']; exact (if_pos h).symm
    · rw [e']
      show (d.put bs).data = applyWrites d.data (carried d.cap [(d.pos, bs)])
      rw [carried_all (by simpa using h), applyWrites_cons, applyWrites_nil, Dev.put_data]
      rfl
    · rw [e']; exact Dev.put_cap _ _
    · rw [e']; simp only [id, Dev.put_faults]; exact hf
  · have h0 : bs ≠ [] := fun h0 => h (.inl h0)
    have h1 : ¬ d.pos + bs.length ≤ d.cap := fun h1 => h (.inr h1)
    have e : Dev.writeAll bs d = (.err .writeZero, d.put (bs.take (d.cap - d.pos))) := by
      unfold Dev.writeAll
      rw [if_neg h0]
      simp only [Dev.nextFault_of_nil hf, Dev.tick_of_nil hf]
      rw [if_neg h1]
    have e' : ((Dev.writeAll bs).mapErr g) d = (.err (g .writeZero), d.put (bs.take (d.cap - d.pos))) := by rw [M.mapErr_apply, e]; rfl
    refine ⟨?_, ?_, ?_, ?_⟩
    · rw [e']; exact (if_neg h).symm
    · rw [e']
      show (d.put _).data = applyWrites d.data (carried d.cap [(d.pos, bs)])
      rw [show carried d.cap [(d.pos, bs)] = [(d.pos, bs.take (d.cap - d.pos))] from if_neg h, applyWrites_cons, applyWrites_nil, Dev.put_data]
      rfl
    · rw [e']; exact Dev.put_cap _ _
    · rw [e']; simp only [id, Dev.put_faults]; exact hf

theorem Runs.of_eq {σ σ' ε α : Type} {π : σ → Dev} {π' : σ' → Dev} {plan : List (Write × ε)} {r : Res ε α} {x : M σ ε α} {y : M σ' ε α} {s : σ}
    {s' : σ'} (hy : Runs π' plan r y s') (hd : (π' s').data = (π s).data) (hc : (π' s').cap = (π s).cap) (h1 : (x s).1 = (y s').1)
    (h2 : π (x s).2 = π' (y s').2) : Runs π plan r x s :=
  ⟨by rw [h1, hy.result, hc], by rw [h2, hy.data, hd, hc], by rw [h2, hy.cap, hc], by rw [h2]; exact hy.faults⟩

theorem writeToDevice_runs {ε : Type} (g : IoErr → ε) (m : Mode) (p : Partition) {idx st : UInt64} {lb : LbSize} {sz : UInt32} {d : Dev}
    (hf : d.faults = []) (h1 : st.toNat * lb.usize + idx.toNat * sz.toNat < 2 ^ 64) :
    Runs id [((st.toNat * lb.usize + idx.toNat * sz.toNat, p.asBytes sz), g .writeZero)] (.ok ())
      ((Partition.writeToDevice m p idx st lb sz).mapErr g) d := by
  have e : Partition.writeToDevice m p idx st lb sz d =
      Dev.writeAll (p.asBytes sz) { d with pos := st.toNat * lb.usize + idx.toNat * sz.toNat } := by
    unfold Partition.writeToDevice
    obtain ⟨a, ha, ha'⟩ := checkedMul64_lb (a := st) (lb := lb) (by omega)
    have hb : checkedMul64 idx sz.toUInt64 = some (idx * sz.toUInt64) := by
      unfold checkedMul64; rw [if_pos (by rw [UInt32.toNat_toUInt64]; omega)]
    have hb' : (idx * sz.toUInt64).toNat = idx.toNat * sz.toNat := by
      rw [u64_mul_toNat (by rw [UInt32.toNat_toUInt64]; omega), UInt32.toNat_toUInt64]
    simp only [M.bind_apply, M.lift_apply, ha, hb, Res.ofOption]
    rw [add64_eq m (by rw [ha', hb']; exact h1)]
    simp only
    rw [Dev.seekStart_nil hf]
    simp only
    rw [u64_add_toNat (by omega), ha', hb']
  have hw := writeAll_runs g (p.asBytes sz) (d := { d with pos := st.toNat * lb.usize + idx.toNat * sz.toNat }) hf
  refine Runs.of_eq hw rfl rfl ?_ ?_
  · simp only [M.mapErr_apply, e]
  · simp only [M.mapErr_apply, e]

theorem writeZeros_runs (m : Mode) {lb : LbSize} {h : Header} (hn : h.NoWrap lb) {next : Nat} (hx : next ≤ h.numParts.toNat)
    (h0 : h.arrayLen < 2 ^ 63) {d : Dev} (hf : d.faults = []) : Runs id [(zeroW lb h next, GptError.io .writeZero)] (.ok ()) (writeZeros m lb h next) d := by
  obtain ⟨h1, h2⟩ := slot_noWrap hn hx
  have hlt := h.numParts.toNat_lt
  have hc : checkedSub64 h.numParts.toUInt64 (UInt64.ofNat next) = some (UInt64.ofNat (h.numParts.toNat - next)) := by
    rw [checkedSub64_some]
    rw [h2, UInt32.toNat_toUInt64, UInt64.toNat_ofNat', Nat.mod_eq_of_lt (by omega)]
    exact ⟨hx, rfl⟩
  have hk : (UInt64.ofNat (h.numParts.toNat - next)).toNat = h.numParts.toNat - next := by
    rw [UInt64.toNat_ofNat', Nat.mod_eq_of_lt (by omega)]
  have hsum : next * h.partSize.toNat + (h.numParts.toNat - next) * h.partSize.toNat = h.numParts.toNat * h.partSize.toNat := by
    rw [← Nat.add_mul]; congr 1; omega
  have hn' := hn
  unfold Header.NoWrap Header.arrayStart Header.arrayLen at hn'
  unfold Header.arrayLen at h0
  have e : Partition.writeZeroEntries m (UInt64.ofNat next) (UInt64.ofNat (h.numParts.toNat - next)) h.partStart lb h.partSize d =
      Dev.writeAll (zeros ((h.numParts.toNat - next) * h.partSize.toNat)) { d with pos := h.arrayStart lb + next * h.partSize.toNat } := by
    unfold Partition.writeZeroEntries
    obtain ⟨a, ha, ha'⟩ := checkedMul64_lb (a := h.partStart) (lb := lb) (by omega)
    have hb : checkedMul64 (UInt64.ofNat next) h.partSize.toUInt64 = some (UInt64.ofNat next * h.partSize.toUInt64) := by
      unfold checkedMul64; rw [if_pos (by rw [UInt32.toNat_toUInt64]; omega)]
    have hb' : (UInt64.ofNat next * h.partSize.toUInt64).toNat = next * h.partSize.toNat := by
      rw [u64_mul_toNat (by rw [UInt32.toNat_toUInt64]; omega), UInt32.toNat_toUInt64, h2]
    have hc : checkedMul64 h.partSize.toUInt64 (UInt64.ofNat (h.numParts.toNat - next)) =
        some (h.partSize.toUInt64 * UInt64.ofNat (h.numParts.toNat - next)) := by
      unfold checkedMul64; rw [if_pos (by rw [UInt32.toNat_toUInt64, Nat.mul_comm, hk]; omega)]
    have hc' : (h.partSize.toUInt64 * UInt64.ofNat (h.numParts.toNat - next)).toNat = (h.numParts.toNat - next) * h.partSize.toNat := by
      rw [u64_mul_toNat (by rw [UInt32.toNat_toUInt64, Nat.mul_comm, hk]; omega), UInt32.toNat_toUInt64, Nat.mul_comm, hk]
    simp only [M.bind_apply, M.lift_apply, ha, hb, Res.ofOption]
    rw [add64_eq m (by rw [ha', hb']; omega)]
    simp only
    rw [Dev.seekStart_nil hf]
    simp only [hc, vecOf_pos (hc'.trans_lt (by omega))]
    rw [u64_add_toNat (by omega), ha', hb', hc']
    rfl
  have hw := writeAll_runs GptError.io (zeros ((h.numParts.toNat - next) * h.partSize.toNat))
    (d := { d with pos := h.arrayStart lb + next * h.partSize.toNat }) hf
  have e' : writeZeros m lb h next d = ((Dev.writeAll (zeros ((h.numParts.toNat - next) * h.partSize.toNat))).mapErr GptError.io)
      { d with pos := h.arrayStart lb + next * h.partSize.toNat } := by
    unfold writeZeros
    rw [hc]
    simp only [M.bind_apply, M.pure_apply, M.mapErr_apply]
    rw [e]
  exact Runs.of_eq hw rfl rfl (by rw [e']) (by rw [e'])

theorem writeEntries_runs (m : Mode) {lb : LbSize} {ph : Header} {bh : Option Header} (hp : ph.NoWrap lb)
    (hb : ∀ b, bh = some b → b.NoWrap lb ∧ b.numParts = ph.numParts) (parts : List Partition) {idx next : Nat} {d : Dev} (hf : d.faults = []) :
    Runs id (inArray (entryPlan lb ph bh (parts.take (ph.numParts.toNat - idx)) idx))
      (if parts = [] then .ok next else if idx + parts.length ≤ ph.numParts.toNat then .ok (idx + parts.length) else .err .overflowPartitionCount)
      (writeEntries m lb ph bh parts idx next) d := by
  induction parts generalizing idx next d with
  | nil =>
    rw [List.take_nil, if_pos rfl]
    exact Runs.ret (s' := d) rfl rfl rfl hf
  | cons p ps ih =>
    rw [if_neg (by simp)]
    unfold writeEntries
    by_cases hi : idx ≥ ph.numParts.toNat
    · rw [if_pos hi, if_neg (by simp only [List.length_cons]; omega), show ph.numParts.toNat - idx = 0 by omega, List.take_zero]
      exact Runs.ret (s' := d) rfl rfl rfl hf
    · rw [if_neg hi, show ph.numParts.toNat - idx = (ph.numParts.toNat - (idx + 1)) + 1 by omega, List.take_succ_cons]
      unfold entryPlan inArray
      rw [List.map_append, List.map_append, List.append_assoc]
      have hr : (if idx + (p :: ps).length ≤ ph.numParts.toNat then (.ok (idx + (p :: ps).length) : Res GptError Nat) else .err .overflowPartitionCount) =
          if ps = [] then .ok (idx + 1) else if idx + 1 + ps.length ≤ ph.numParts.toNat then .ok (idx + 1 + ps.length) else .err .overflowPartitionCount := by
        rw [List.length_cons]
        by_cases h0 : ps = []
        · subst h0; rw [if_pos rfl, if_pos (by simp only [List.length_nil]; omega)]; rfl
        · rw [if_neg h0, show idx + (ps.length + 1) = idx + 1 + ps.length by omega]
      rw [hr]
      have slot : ∀ (h : Header), h.NoWrap lb → idx < h.numParts.toNat → ∀ d1 : Dev, d1.faults = [] →
          Runs id [(slotW lb h idx p, GptError.io .writeZero)] (.ok ())
            ((Partition.writeToDevice m p (UInt64.ofNat idx) h.partStart lb h.partSize).mapErr GptError.io) d1 := by
        intro h hn hlt d1 hf1
        obtain ⟨h1, h2⟩ := slot_noWrap hn (Nat.le_of_lt hlt)
        have := writeToDevice_runs GptError.io m p hf1 h1
        rw [h2] at this
        exact this
      refine Runs.bind (slot ph hp (by omega) d hf) fun d1 _ _ hf1 _ => ?_
      cases bh with
      | none => exact ih hf1
      | some b =>
        obtain ⟨b1, b2⟩ := hb b rfl
        simp only
        rw [if_neg (show ¬ idx ≥ b.numParts.toNat by rw [b2]; exact hi)]
        unfold slotB
        by_cases hne : ph.partStart ≠ b.partStart
        · simp only [if_pos hne]
          exact Runs.bind (slot b b1 (by rw [b2]; omega) d1 hf1) fun d2 _ _ hf2 _ => ih hf2
        · simp only [if_neg hne]
          exact ih hf1

/-- The array checksum of a stored (or empty) array. -/
theorem partentryChecksum_runs {h : Header} {lb : LbSize} {d : Dev} (hf : d.faults = []) (h1 : h.arrayStart lb < 2 ^ 64)
    (h3 : h.arrayLen < 2 ^ 63) (h2 : h.arrayLen ≠ 0 → h.arrayStart lb + h.arrayLen ≤ d.data.length) :
    ∃ n, partentryChecksum h lb d = (.ok (crc32 (slice d.data (h.arrayStart lb) h.arrayLen)), { d with pos := n }) := by
  by_cases h0 : h.arrayLen = 0
  · refine ⟨h.arrayStart lb, ?_⟩
    unfold partentryChecksum
    obtain ⟨st, e1, e1'⟩ := checkedMul64_lb (a := h.partStart) (lb := lb) h1
    obtain ⟨ln, e2, e2'⟩ := checkedMul64_u32 h.numParts h.partSize
    have hz : ln.toNat = 0 := e2'.trans h0
    rw [e1, e2]
    simp only [M.bind_apply, M.lift_apply, Res.ofOption_some, M.mapErr_apply]
    rw [Dev.seekStart_nil hf]
    simp only [Res.mapErr_ok, vecOf_pos (n := ln) (by omega)]
    rw [hz, h0]
    have : Dev.readExact 0 { d with pos := st.toNat } = (.ok [], { d with pos := st.toNat }) := if_pos rfl
    rw [this, e1']
    simp only [Res.mapErr_ok, M.pure_apply]
    rw [show slice d.data (h.arrayStart lb) 0 = [] by simp [slice]]
    rfl
  · exact ⟨_, partentryChecksum_nil hf h1 h3 (h2 h0)⟩

/-- `file_write_header` without faults. -/
theorem fileWriteHeader_runs {lba : UInt64} {lb : LbSize} {h : Header} {d : Dev} (hs : h.signature.length = 8) (hf : d.faults = [])
    (h1 : h.arrayStart lb < 2 ^ 64) (h0 : h.arrayLen < 2 ^ 63) (h2 : h.arrayLen ≠ 0 → h.arrayStart lb + h.arrayLen ≤ d.data.length) :
    (lba.toNat * lb.usize < 2 ^ 64 → Runs Prod.snd [((lba.toNat * lb.usize, h.block (Gpt.crc32 (slice d.data (h.arrayStart lb) h.arrayLen)) lb),
      HeaderError.io .writeZero)] (.ok lb.usize) (Header.fileWriteHeader lba lb) (h, d)) ∧
    (2 ^ 64 ≤ lba.toNat * lb.usize → Runs Prod.snd [] (.err (.overflow "writing header: lba * lbs")) (Header.fileWriteHeader lba lb) (h, d)) := by
  obtain ⟨n, e⟩ := partentryChecksum_runs hf h1 h0 h2
  constructor
  · intro h3
    obtain ⟨st, e1, e1'⟩ := checkedMul64_lb (a := lba) (lb := lb) h3
    have hw := writeAll_runs HeaderError.io (h.block (Gpt.crc32 (slice d.data (h.arrayStart lb) h.arrayLen)) lb)
      (d := { d with pos := lba.toNat * lb.usize }) hf
    have hlen : (h.block (Gpt.crc32 (slice d.data (h.arrayStart lb) h.arrayLen)) lb).length = lb.usize := Header.block_length ..
    have hy : Runs id [((lba.toNat * lb.usize, h.block (Gpt.crc32 (slice d.data (h.arrayStart lb) h.arrayLen)) lb), HeaderError.io .writeZero)]
        (.ok lb.usize) ((Dev.writeAll (h.block (Gpt.crc32 (slice d.data (h.arrayStart lb) h.arrayLen)) lb)).mapErr HeaderError.io >>= fun _ =>
          (Pure.pure lb.usize : M Dev HeaderError Nat)) { d with pos := lba.toNat * lb.usize } :=
      Runs.bind (b := []) hw fun d1 _ _ hf1 _ => Runs.ret (s' := d1) rfl rfl rfl hf1
    have key : (Header.fileWriteHeader lba lb (h, d)).1 =
        (((Dev.writeAll (h.block (Gpt.crc32 (slice d.data (h.arrayStart lb) h.arrayLen)) lb)).mapErr HeaderError.io >>= fun _ =>
          (Pure.pure lb.usize : M Dev HeaderError Nat)) { d with pos := lba.toNat * lb.usize }).1 ∧
        (Header.fileWriteHeader lba lb (h, d)).2.2 =
        (((Dev.writeAll (h.block (Gpt.crc32 (slice d.data (h.arrayStart lb) h.arrayLen)) lb)).mapErr HeaderError.io >>= fun _ =>
          (Pure.pure lb.usize : M Dev HeaderError Nat)) { d with pos := lba.toNat * lb.usize }).2 := by
      unfold Header.fileWriteHeader Header.onDev
      simp only [M.bind_apply, M.get_apply, M.zoom_apply, M.modify_apply, M.lift_apply, M.mapErr_apply]
      rw [e]
      simp only
      rw [Header.toBytes_eq (by exact hs)]
      rw [e1]
      simp only [Res.ofOption_some]
      rw [Dev.seekStart_nil (by exact hf)]
      simp only [Res.mapErr_ok]
      rw [e1']
      have hbl : resize (patch (({ h with crc32Parts := Gpt.crc32 (slice d.data (h.arrayStart lb) h.arrayLen) } : Header).fieldBytes
          (Gpt.crc32 (slice d.data (h.arrayStart lb) h.arrayLen))) 16 (le32 (Gpt.crc32
          (({ h with crc32Parts := Gpt.crc32 (slice d.data (h.arrayStart lb) h.arrayLen) } : Header).fieldBytes
          (Gpt.crc32 (slice d.data (h.arrayStart lb) h.arrayLen)))))) lb.usize =
          h.block (Gpt.crc32 (slice d.data (h.arrayStart lb) h.arrayLen)) lb := rfl
      rw [hbl]
      rcases hx : Dev.writeAll (h.block (Gpt.crc32 (slice d.data (h.arrayStart lb) h.arrayLen)) lb) { d with pos := lba.toNat * lb.usize } with ⟨r, d2⟩
      cases r with
      | ok u => simp only [Res.mapErr_ok, M.pure_apply, hlen]; exact ⟨trivial, trivial⟩
      | err x => exact ⟨rfl, rfl⟩
      | panic => exact ⟨rfl, rfl⟩
    exact Runs.of_eq hy rfl rfl key.1 key.2
  · intro h3
    have hn : checkedMul64 lba lb.u64 = none := by
      unfold checkedMul64
      rw [if_neg (by rw [lb_u64_toNat]; omega)]
    have key : ∃ s', Header.fileWriteHeader lba lb (h, d) = (.err (.overflow "writing header: lba * lbs"), s') ∧ s'.2 = { d with pos := n } := by
      unfold Header.fileWriteHeader Header.onDev
      simp only [M.bind_apply, M.get_apply, M.zoom_apply, M.modify_apply, M.lift_apply, M.mapErr_apply]
      rw [e]
      simp only
      rw [Header.toBytes_eq (by exact hs), hn]
      exact ⟨_, rfl, rfl⟩
    obtain ⟨s', k1, k2⟩ := key
    exact Runs.ret k1 (by rw [k2]) (by rw [k2]) (by rw [k2]; exact hf)

theorem onDev_runs {α : Type} {plan : List (Write × GptError)} {r : Res GptError α} {x : M Dev GptError α} {s : GptDisk}
    (h : Runs id plan r x s.device) : Runs GptDisk.device plan r (GptDisk.onDev id x) s := by
  refine Runs.of_eq h rfl rfl ?_ rfl
  rw [onDev_apply]
  cases (x s.device).1 <;> rfl

/-- The result of a header method as `write_inplace` passes it on. -/
def headerRes : Res HeaderError Nat → Res GptError Unit
  | .ok _ => .ok ()
  | .err e => .err (.header e)
  | .panic => .panic

/-- A header method run on the in-memory header, its result mapped. -/
theorem headerStep_runs {plan : List (Write × HeaderError)} {r : Res HeaderError Nat} {x : M (Header × Dev) HeaderError Nat} {h : Header}
    {s : GptDisk} (hx : Runs Prod.snd plan r x (h, s.device)) (y : M GptDisk GptError Unit)
    (h1 : (y s).1 = headerRes (x (h, s.device)).1)
    (h2 : (y s).2.device = (x (h, s.device)).2.2) :
    Runs GptDisk.device (plan.map fun w => (w.1, GptError.header w.2)) (headerRes r) y s := by
  have hend : ∀ cap, endOf cap (headerRes r) (plan.map fun w => (w.1, GptError.header w.2)) = headerRes (endOf cap r plan) := by
    intro cap
    clear hx
    induction plan with
    | nil => rfl
    | cons w ws ih =>
      simp only [List.map_cons, endOf]
      split
      · exact ih
      · rfl
  refine ⟨?_, ?_, ?_, ?_⟩
  · rw [h1, hend, hx.result]
  · rw [h2, hx.data, List.map_map]; rfl
  · rw [h2]; exact hx.cap
  · rw [h2]; exact hx.faults

/-- What a header needs for its block to be written. -/
structure Sealable (lb : LbSize) (h : Header) (d : Dev) : Prop where
  sig : h.signature.length = 8
  noWrap : h.NoWrap lb
  stored : h.arrayLen ≠ 0 → h.arrayStart lb + h.arrayLen ≤ d.data.length
  small : h.arrayLen < 2 ^ 63

theorem onPrimary_runs {lb : LbSize} {h : Header} {s : GptDisk} (hs : Sealable lb h s.device) (hf : s.device.faults = []) :
    (h.backupLba ≤ h.currentLba → Runs GptDisk.device [] (.err (.header .writingToWrongLba)) (onPrimary h (Header.writePrimary lb)) s) ∧
    (h.currentLba < h.backupLba → h.currentLba.toNat * lb.usize < 2 ^ 64 →
      Runs GptDisk.device [(headerW lb h s.device.data, .header (.io .writeZero))] (.ok ()) (onPrimary h (Header.writePrimary lb)) s) := by
  constructor
  · intro hle
    refine headerStep_runs (r := .err .writingToWrongLba) (plan := []) (Runs.ret (s' := (h, s.device)) ?_ rfl rfl hf) _ rfl rfl
    unfold Header.writePrimary
    simp only [M.bind_apply, M.get_apply]
    rw [if_pos hle]
    rfl
  · intro hlt h3
    have hn := hs.noWrap
    unfold Header.NoWrap at hn
    have hx := (fileWriteHeader_runs (lba := h.currentLba) (lb := lb) hs.sig hf (by omega) hs.small hs.stored).1 h3
    refine headerStep_runs (r := .ok lb.usize) (Runs.of_eq (x := Header.writePrimary lb) hx rfl rfl ?_ ?_) _ rfl rfl
    all_goals
      unfold Header.writePrimary
      simp only [M.bind_apply, M.get_apply]
      rw [if_neg (UInt64.not_le.mpr hlt)]

theorem onBackup_runs {lb : LbSize} {h : Header} {s : GptDisk} (hs : Sealable lb h s.device) (hf : s.device.faults = []) :
    (h.currentLba ≤ h.backupLba → Runs GptDisk.device [] (.err (.header .writingToWrongLba)) (onBackup h (Header.writeBackup lb)) s) ∧
    (h.backupLba < h.currentLba → h.currentLba.toNat * lb.usize < 2 ^ 64 →
      Runs GptDisk.device [(headerW lb h s.device.data, .header (.io .writeZero))] (.ok ()) (onBackup h (Header.writeBackup lb)) s) ∧
    (h.backupLba < h.currentLba → 2 ^ 64 ≤ h.currentLba.toNat * lb.usize →
      Runs GptDisk.device [] (.err (.header (.overflow "writing header: lba * lbs"))) (onBackup h (Header.writeBackup lb)) s) := by
  have hn := hs.noWrap
  unfold Header.NoWrap at hn
  refine ⟨?_, ?_, ?_⟩
  · intro hle
    refine headerStep_runs (r := .err .writingToWrongLba) (plan := []) (Runs.ret (s' := (h, s.device)) ?_ rfl rfl hf) _ rfl rfl
    unfold Header.writeBackup
    simp only [M.bind_apply, M.get_apply]
    rw [if_pos hle]
    rfl
  · intro hlt h3
    have hx := (fileWriteHeader_runs (lba := h.currentLba) (lb := lb) hs.sig hf (by omega) hs.small hs.stored).1 h3
    refine headerStep_runs (r := .ok lb.usize) (Runs.of_eq (x := Header.writeBackup lb) hx rfl rfl ?_ ?_) _ rfl rfl
    all_goals
      unfold Header.writeBackup
      simp only [M.bind_apply, M.get_apply]
      rw [if_neg (UInt64.not_le.mpr hlt)]
  · intro hlt h3
    have hx := (fileWriteHeader_runs (lba := h.currentLba) (lb := lb) hs.sig hf (by omega) hs.small hs.stored).2 h3
    refine headerStep_runs (r := .err (.overflow "writing header: lba * lbs")) (Runs.of_eq (x := Header.writeBackup lb) hx rfl rfl ?_ ?_) _ rfl rfl
    all_goals
      unfold Header.writeBackup
      simp only [M.bind_apply, M.get_apply]
      rw [if_neg (UInt64.not_le.mpr hlt)]

theorem reaches_of_mem {data : Bytes} {ws : List Write} {w : Write} (h : w ∈ ws) (h0 : w.2 ≠ []) :
    w.1 + w.2.length ≤ (applyWrites data ws).length := by
  obtain ⟨a, b, rfl⟩ := List.append_of_mem h
  rw [applyWrites_append, applyWrites_cons]
  refine Nat.le_trans ?_ (length_applyWrites _ _)
  unfold patchW
  rw [if_neg h0, patch_length]
  omega

theorem entryPlan_last {lb : LbSize} {ph : Header} {bh : Option Header} (ps : List Partition) (idx : Nat) (h0 : ps ≠ []) :
    ∃ p, slotW lb ph (idx + ps.length - 1) p ∈ entryPlan lb ph bh ps idx ∧
      ∀ b, bh = some b → ph.partStart ≠ b.partStart → slotW lb b (idx + ps.length - 1) p ∈ entryPlan lb ph bh ps idx := by
  induction ps generalizing idx with
  | nil => exact absurd rfl h0
  | cons p ps ih =>
    unfold entryPlan
    by_cases hn : ps = []
    · subst hn
      refine ⟨p, by simp, ?_⟩
      rintro b rfl hne
      unfold slotB
      simp [if_pos hne]
    · obtain ⟨q, h1, h2⟩ := ih (idx + 1) hn
      have e : idx + (p :: ps).length - 1 = idx + 1 + ps.length - 1 := by rw [List.length_cons]; omega
      rw [e]
      refine ⟨q, List.mem_append_right _ h1, fun b hb hne => List.mem_append_right _ (h2 b hb hne)⟩

/-- After the array writes the arrays lie on the device. -/
theorem arrays_stored {lb : LbSize} {ph : Header} {bh : Option Header} {ps : List Partition} (data : Bytes) (hl : ps.length ≤ ph.numParts.toNat)
    (hb : ∀ b, bh = some b → b.numParts = ph.numParts ∧ b.partSize = ph.partSize) (h : Header) (hh : h = ph ∨ bh = some h) (h0 : h.arrayLen ≠ 0) :
    h.arrayStart lb + h.arrayLen ≤ (applyWrites data (arrayPlan lb ph bh ps)).length := by
  have hnum : h.numParts = ph.numParts ∧ h.partSize = ph.partSize := by
    rcases hh with rfl | hh
    · exact ⟨rfl, rfl⟩
    · exact hb h hh
  unfold Header.arrayLen at h0
  have hs0 : h.partSize.toNat ≠ 0 := fun e => h0 (by rw [e, Nat.mul_zero])
  have hn0 : h.numParts.toNat ≠ 0 := fun e => h0 (by rw [e, Nat.zero_mul])
  by_cases hlt : ps.length < ph.numParts.toNat
  · have hmem : zeroW lb h ps.length ∈ arrayPlan lb ph bh ps := by
      unfold arrayPlan
      rcases hh with rfl | rfl
      · simp
      · simp
    have hpos : (h.numParts.toNat - ps.length) * h.partSize.toNat ≠ 0 := by
      rw [hnum.1]
      refine Nat.mul_ne_zero (by omega) hs0
    have := reaches_of_mem (data := data) hmem (by
      unfold zeroW
      intro e
      have := congrArg List.length e
      rw [zeros_length] at this
      exact hpos this)
    unfold zeroW at this
    simp only [zeros_length] at this
    have hsum : ps.length * h.partSize.toNat + (h.numParts.toNat - ps.length) * h.partSize.toNat = h.arrayLen := by
      unfold Header.arrayLen
      rw [← Nat.add_mul]; congr 1; rw [hnum.1]; omega
    omega
  · have hne : ps ≠ [] := by
      rintro rfl
      rw [hnum.1] at hn0
      simp only [List.length_nil] at hlt
      omega
    obtain ⟨p, m1, m2⟩ := entryPlan_last (lb := lb) (ph := ph) (bh := bh) ps 0 hne
    have fin : ∀ x : Header, x.numParts = h.numParts → x.partSize = h.partSize → slotW lb x (0 + ps.length - 1) p ∈ entryPlan lb ph bh ps 0 →
        x.arrayStart lb + h.arrayLen ≤ (applyWrites data (arrayPlan lb ph bh ps)).length := by
      intro x e1 e2 hm
      have := reaches_of_mem (data := data) (ws := arrayPlan lb ph bh ps) (by
        unfold arrayPlan; rw [List.append_assoc]; exact List.mem_append_left _ hm) (by
        unfold slotW
        intro e
        have := congrArg List.length e
        rw [Partition.asBytes_length, e2] at this
        exact hs0 this)
      unfold slotW at this
      simp only [Partition.asBytes_length, e2] at this
      have hp : 0 < ps.length := List.length_pos_iff.mpr hne
      have hsum : (0 + ps.length - 1) * h.partSize.toNat + h.partSize.toNat = h.arrayLen := by
        unfold Header.arrayLen
        rw [← Nat.succ_mul]; congr 1; rw [hnum.1]; omega
      omega
    rcases hh with rfl | hh
    · exact fin h rfl rfl m1
    · by_cases hst : ph.partStart = h.partStart
      · have := fin ph hnum.1.symm hnum.2.symm m1
        unfold Header.arrayStart at this ⊢
        rw [← hst]
        exact this
      · exact fin h rfl rfl (m2 h hh hst)

/-- The last steps of `write_inplace`. -/
def finish (lb : LbSize) (ph : Header) (sync : Bool) : M GptDisk GptError Unit := do
  onPrimary ph (Header.writePrimary lb)
  GptDisk.onDev GptError.io Dev.flush
  if sync = true then GptDisk.onDev GptError.io Dev.syncAll else pure ()

theorem finish_runs {lb : LbSize} {ph : Header} (sync : Bool) {s : GptDisk} (hs : Sealable lb ph s.device) (hf : s.device.faults = []) :
    (ph.backupLba ≤ ph.currentLba → Runs GptDisk.device [] (.err (.header .writingToWrongLba)) (finish lb ph sync) s) ∧
    (ph.currentLba < ph.backupLba → ph.currentLba.toNat * lb.usize < 2 ^ 64 →
      Runs GptDisk.device (inHeader [headerW lb ph s.device.data]) (.ok ()) (finish lb ph sync) s) := by
  constructor
  · intro hle
    exact Runs.stop ((onPrimary_runs hs hf).1 hle)
  · intro hlt h3
    refine Runs.bind (b := []) ((onPrimary_runs hs hf).2 hlt h3) fun s1 _ _ hf1 _ => ?_
    have e1 : GptDisk.onDev GptError.io Dev.flush s1 = (.ok (), { s1 with device := { s1.device with log := s1.device.log ++ [.flush] } }) := by
      rw [onDev_apply, Dev.flush_nil hf1]; rfl
    refine Runs.bind_nil (Runs.ret e1 rfl rfl hf1) fun s2 _ _ hf2 _ => ?_
    cases sync with
    | false => exact Runs.ret (s' := s2) rfl rfl rfl hf2
    | true =>
      have e2 : GptDisk.onDev GptError.io Dev.syncAll s2 = (.ok (), { s2 with device := { s2.device with log := s2.device.log ++ [.sync] } }) := by
        rw [onDev_apply, Dev.syncAll_nil hf2]; rfl
      exact Runs.ret e2 rfl rfl hf2

/-- The steps after the arrays. -/
def afterArrays (lb : LbSize) (ph : Header) (sync : Bool) : Option Header → M GptDisk GptError Unit
  | none => finish lb ph sync
  | some b => do
    onBackup b (Header.writeBackup lb)
    finish lb ph sync

theorem writeRest_tooMany {m : Mode} {lb : LbSize} {ph : Header} {bh : Option Header} {parts : List Partition} {sync : Bool} {s : GptDisk}
    (hf : s.device.faults = []) (hp : ph.NoWrap lb) (hb : ∀ b, bh = some b → b.NoWrap lb ∧ b.numParts = ph.numParts)
    (hl : ph.numParts.toNat < parts.length) :
    Runs GptDisk.device (inArray (entryPlan lb ph bh (parts.take ph.numParts.toNat) 0)) (.err .overflowPartitionCount)
      (writeRest m lb ph bh parts sync) s := by
  have h := writeEntries_runs m hp hb parts (idx := 0) (next := 0) hf
  rw [if_neg (by rintro rfl; simp at hl), if_neg (by omega), Nat.sub_zero] at h
  exact Runs.stop (onDev_runs h)

theorem writeRest_arrays {m : Mode} {lb : LbSize} {ph : Header} {bh : Option Header} {parts : List Partition} {sync : Bool} {s : GptDisk}
    (hf : s.device.faults = []) (hp : ph.NoWrap lb) (hb : ∀ b, bh = some b → b.NoWrap lb ∧ b.numParts = ph.numParts)
    (h0 : ph.arrayLen < 2 ^ 63 ∧ ∀ b, bh = some b → b.arrayLen < 2 ^ 63) (hl : parts.length ≤ ph.numParts.toNat) {T : List (Write × GptError)} {r : Res GptError Unit}
    (ht : ∀ s1 : GptDisk, s1.device.faults = [] → s1.device.data = applyWrites s.device.data (arrayPlan lb ph bh parts) →
      Runs GptDisk.device T r (afterArrays lb ph sync bh) s1) :
    Runs GptDisk.device (inArray (arrayPlan lb ph bh parts) ++ T) r (writeRest m lb ph bh parts sync) s := by
  have h := writeEntries_runs m hp hb parts (idx := 0) (next := 0) hf
  have hres : (if parts = [] then (.ok 0 : Res GptError Nat) else if 0 + parts.length ≤ ph.numParts.toNat then .ok (0 + parts.length)
      else .err .overflowPartitionCount) = .ok parts.length := by
    split
    · rename_i h; subst h; rfl
    · rw [if_pos (by omega), Nat.zero_add]
  rw [hres, Nat.sub_zero, List.take_of_length_le hl] at h
  unfold writeRest arrayPlan inArray
  rw [List.map_append, List.map_append, List.append_assoc, List.append_assoc]
  refine Runs.bind (onDev_runs h) fun s1 _ _ hf1 hd1 => ?_
  refine Runs.bind (a := [(zeroW lb ph parts.length, GptError.io .writeZero)]) (onDev_runs (writeZeros_runs m hp hl h0.1 hf1)) fun s2 _ _ hf2 hd2 => ?_
  rw [List.map_map, show (Prod.fst ∘ fun w : Write => (w, GptError.io IoErr.writeZero)) = id from rfl, List.map_id] at hd1
  cases bh with
  | none =>
    refine ht s2 hf2 ?_
    rw [hd2, hd1]
    unfold arrayPlan
    rw [applyWrites_append, applyWrites_append]
    rfl
  | some b =>
    obtain ⟨b1, b2⟩ := hb b rfl
    refine Runs.bind (a := [(zeroW lb b parts.length, GptError.io .writeZero)]) (onDev_runs (writeZeros_runs m b1 (by rw [b2]; exact hl) (h0.2 b rfl) hf2))
      fun s3 _ _ hf3 hd3 => ?_
    refine ht s3 hf3 ?_
    rw [hd3, hd2, hd1]
    unfold arrayPlan
    rw [applyWrites_append, applyWrites_append]
    rfl

theorem slotWrites_eq (lb : LbSize) (ph : Header) (bh : Option Header) (ps : List Partition) : entryPlan lb ph bh ps 0 = slotWrites lb ph bh ps := by
  have h := arrayWrites_eq lb ph bh ps
  unfold arrayPlan arrayWrites at h
  rw [List.append_assoc] at h
  exact List.append_inj_left' h (by simp)

/-- The LBAs of the headers a write makes. -/
theorem headers_lbas {m : Mode} {s : GptDisk} {h ph : Header} {bh : Option Header} (hw : WriteHeaders m s h ph bh) :
    ph.currentLba.toNat = min h.currentLba.toNat h.backupLba.toNat ∧ ph.backupLba.toNat = max h.currentLba.toNat h.backupLba.toNat ∧
    (∀ b, bh = some b → b.currentLba = ph.backupLba ∧ b.backupLba = ph.currentLba) ∧
    (h.currentLba ≠ h.backupLba → ph.currentLba.toNat * s.config.lbSize.usize < 2 ^ 64) := by
  have e1 : ph.currentLba.toNat = min h.currentLba.toNat h.backupLba.toNat ∧ ph.backupLba.toNat = max h.currentLba.toNat h.backupLba.toNat ∧
      ph.partStart.toNat = (ph.currentLba.toNat + 1) % 2 ^ 64 := by
    cases hw.primary with
    | header k _ _ _ _ _ _ a =>
      have a1 := a.current
      have a2 := a.backup
      have a3 := a.start
      simp only [primaryAgain, if_true] at a1 a2 a3
      refine ⟨?_, ?_, ?_⟩
      · rw [a1]
        split
        · rename_i hlt; rw [UInt64.lt_iff_toNat_lt] at hlt; omega
        · rename_i hlt; rw [UInt64.lt_iff_toNat_lt] at hlt; omega
      · rw [a2]
        split
        · rename_i hlt; rw [UInt64.lt_iff_toNat_lt] at hlt; omega
        · rename_i hlt; rw [UInt64.lt_iff_toNat_lt] at hlt; omega
      · rw [a3, a1]
  obtain ⟨e1, e2, e3⟩ := e1
  refine ⟨e1, e2, ?_, ?_⟩
  · intro b hb
    cases (hw.some b hb).2.1 with
    | header k _ _ _ _ _ _ a =>
      have a1 := a.current
      have a2 := a.backup
      simp only [backupFrom, Bool.false_eq_true, if_false] at a1 a2
      exact ⟨a1, a2⟩
  · intro hne
    have hne' : h.currentLba.toNat ≠ h.backupLba.toNat := fun e => hne (UInt64.toNat_inj.mp e)
    have l1 := h.currentLba.toNat_lt
    have l2 := h.backupLba.toNat_lt
    rw [Nat.mod_eq_of_lt (by omega)] at e3
    have := hw.primaryEnd
    unfold slotOf at this
    rw [e3, Nat.add_mul] at this
    omega

/-! ### The bytes of a header block are determined -/

theorem num_slice {a b : Bytes} {off n : Nat} (ha : off + n ≤ a.length) (hb : off + n ≤ b.length) (h : num a off n = num b off n) :
    slice a off n = slice b off n := by
  unfold num at h
  rw [← leBytes_leVal' (slice_length_of_le ha), ← leBytes_leVal' (slice_length_of_le hb), h]

theorem headerBlock_unique {lb : LbSize} {h : Header} {c : UInt32} {a b : Bytes} (ha : HeaderBlock lb h c a) (hb : HeaderBlock lb h c b) : a = b := by
  obtain ⟨a1, a2, ⟨x, a3⟩, a4⟩ := ha
  obtain ⟨b1, b2, ⟨y, b3⟩, b4⟩ := hb
  have la := a2.fits
  have lb' := b2.fits
  have s1 : slice a 0 8 = slice b 0 8 := a3.signature.symm.trans b3.signature
  have s2 : slice a 8 2 = slice b 8 2 := num_slice (by omega) (by omega) (a3.minor.symm.trans b3.minor)
  have s3 : slice a 10 2 = slice b 10 2 := num_slice (by omega) (by omega) (a3.major.symm.trans b3.major)
  have s4 : slice a 12 4 = slice b 12 4 := num_slice (by omega) (by omega) (a3.size.symm.trans b3.size)
  have s5 : slice a 20 4 = slice b 20 4 := num_slice (by omega) (by omega) (a3.reserved.symm.trans b3.reserved)
  have s6 : slice a 24 8 = slice b 24 8 := num_slice (by omega) (by omega) (a3.current.symm.trans b3.current)
  have s7 : slice a 32 8 = slice b 32 8 := num_slice (by omega) (by omega) (a3.backup.symm.trans b3.backup)
  have s8 : slice a 40 8 = slice b 40 8 := num_slice (by omega) (by omega) (a3.first.symm.trans b3.first)
  have s9 : slice a 48 8 = slice b 48 8 := num_slice (by omega) (by omega) (a3.last.symm.trans b3.last)
  have s10 : slice a 56 16 = slice b 56 16 := by
    have := a3.guid.symm.trans b3.guid
    exact List.map_injective_iff.mpr (fun _ _ h => UInt8.toNat_inj.mp h) this
  have s11 : slice a 72 8 = slice b 72 8 := num_slice (by omega) (by omega) (a3.start.symm.trans b3.start)
  have s12 : slice a 80 4 = slice b 80 4 := num_slice (by omega) (by omega) (a3.count.symm.trans b3.count)
  have s13 : slice a 84 4 = slice b 84 4 := num_slice (by omega) (by omega) (a3.entry.symm.trans b3.entry)
  have s14 : slice a 88 4 = slice b 88 4 := num_slice (by omega) (by omega) (a3.parts.symm.trans b3.parts)
  have lo : slice a 0 16 = slice b 0 16 := by
    rw [slice_add a 0 8 8, slice_add b 0 8 8, s1, slice_add a 8 2 6, slice_add b 8 2 6, s2, slice_add a 10 2 4, slice_add b 10 2 4, s3, s4]
  have hi : slice a 20 72 = slice b 20 72 := by
    rw [slice_add a 20 4 68, slice_add b 20 4 68, s5, slice_add a 24 8 60, slice_add b 24 8 60, s6, slice_add a 32 8 52, slice_add b 32 8 52, s7,
      slice_add a 40 8 44, slice_add b 40 8 44, s8, slice_add a 48 8 36, slice_add b 48 8 36, s9, slice_add a 56 16 20, slice_add b 56 16 20, s10,
      slice_add a 72 8 12, slice_add b 72 8 12, s11, slice_add a 80 4 8, slice_add b 80 4 8, s12, slice_add a 84 4 4, slice_add b 84 4 4, s13, s14]
  have crc : slice a 16 4 = slice b 16 4 := by
    refine num_slice (by omega) (by omega) (a2.checksum.trans (Eq.trans ?_ b2.checksum.symm))
    unfold withoutCrc
    rw [lo, hi]
  have all : slice a 0 92 = slice b 0 92 := by
    rw [slice_add a 0 16 76, slice_add b 0 16 76, lo, slice_add a 16 4 72, slice_add b 16 4 72, crc, hi]
  refine bytes_ext (a1.trans b1.symm) fun i _ => ?_
  by_cases hi : i < 92
  · have := congrArg (byteAt · i) all
    simp only [byteAt_slice, if_pos hi, Nat.zero_add] at this
    exact this
  · rw [a4 i (by omega), b4 i (by omega)]

theorem headerWrite_unique {lb : LbSize} {h : Header} {data : Bytes} {a b : Nat × Bytes} (ha : HeaderWrite lb h data a) (hb : HeaderWrite lb h data b) :
    a = b := Prod.ext (ha.offset.trans hb.offset.symm) (headerBlock_unique ha.block hb.block)

theorem writes_unique {lb : LbSize} {ph : Header} {bh : Option Header} {ps : List Partition} {data : Bytes} {a b : List (Nat × Bytes)}
    (ha : Writes lb ph bh ps data a) (hb : Writes lb ph bh ps data b) : a = b := by
  obtain ⟨bw, pw, rfl, a2, a3, a4⟩ := ha
  obtain ⟨bw', pw', rfl, b2, b3, b4⟩ := hb
  have e : bw = bw' := by
    cases bh with
    | none => rw [a2 rfl, b2 rfl]
    | some h =>
      obtain ⟨w, rfl, c⟩ := a3 h rfl
      obtain ⟨w', rfl, c'⟩ := b3 h rfl
      rw [headerWrite_unique c c']
  subst e
  rw [headerWrite_unique a4 b4]

/-! ### The writing part, with the headers of the specification -/

theorem rest_ready {m : Mode} {s : GptDisk} {h ph : Header} {bh : Option Header} (hw : WriteHeaders m s h ph bh) :
    ph.NoWrap s.config.lbSize ∧ (∀ b, bh = some b → b.NoWrap s.config.lbSize ∧ b.numParts = ph.numParts) ∧
    (ph.arrayLen < 2 ^ 63 ∧ ∀ b, bh = some b → b.arrayLen < 2 ^ 63) ∧
    ((Spec.used s.partitions).length ≤ ph.numParts.toNat → ∀ (data : Bytes) (s2 : GptDisk),
      s2.device.data = applyWrites data (arrayPlan s.config.lbSize ph bh (Spec.used s.partitions)) →
      Sealable s.config.lbSize ph s2.device ∧ ∀ b, bh = some b → Sealable s.config.lbSize b s2.device) := by
  have hp : ph.NoWrap s.config.lbSize := hw.primaryEnd
  have hb : ∀ b, bh = some b → b.NoWrap s.config.lbSize ∧ b.numParts = ph.numParts := fun b hb =>
    ⟨(hw.some b hb).2.2, (backup_count (hw.some b hb).2.1).1⟩
  have h0 : ph.arrayLen < 2 ^ 63 ∧ ∀ b, bh = some b → b.arrayLen < 2 ^ 63 := by
    refine ⟨hw.size, fun b hb => ?_⟩
    obtain ⟨e1, e2⟩ := backup_count (hw.some b hb).2.1
    unfold Header.arrayLen
    rw [e1, e2]
    exact hw.size
  refine ⟨hp, hb, h0, fun hl' data s2 e => ?_⟩
  have st := arrays_stored (lb := s.config.lbSize) (bh := bh) data hl' fun b hb => backup_count (hw.some b hb).2.1
  refine ⟨⟨by rw [(built_sig hw.primary).1]; rfl, hp, fun h0 => ?_, h0.1⟩,
    fun b hb' => ⟨by rw [(built_sig (hw.some b hb').2.1).1]; rfl, (hb b hb').1, fun h0 => ?_, h0.2 b hb'⟩⟩
  · rw [e]; exact st ph (.inl rfl) h0
  · rw [e]; exact st b (.inr hb') h0

theorem lbas_lt {m : Mode} {s : GptDisk} {h ph : Header} {bh : Option Header} (hw : WriteHeaders m s h ph bh) (hne : h.currentLba ≠ h.backupLba) :
    ph.currentLba < ph.backupLba := by
  obtain ⟨l1, l2, -, -⟩ := headers_lbas hw
  have : h.currentLba.toNat ≠ h.backupLba.toNat := fun e => hne (UInt64.toNat_inj.mp e)
  rw [UInt64.lt_iff_toNat_lt]
  omega

theorem rest_same {m : Mode} {s s1 : GptDisk} {h ph : Header} {bh : Option Header} (hw : WriteHeaders m s h ph bh) (hf : s1.device.faults = [])
    (hl : (Spec.used s.partitions).length ≤ ph.numParts.toNat) (hsame : h.currentLba = h.backupLba) :
    Runs GptDisk.device (inArray (arrayWrites s.config.lbSize ph bh (Spec.used s.partitions))) (.err (.header .writingToWrongLba))
      (writeRest m s.config.lbSize ph bh (Spec.used s.partitions) s.syncAll) s1 := by
  obtain ⟨l1, l2, l3, l4⟩ := headers_lbas hw
  obtain ⟨hp, hb, h0, hr⟩ := rest_ready hw
  rw [← arrayWrites_eq, ← List.append_nil (inArray _)]
  refine writeRest_arrays hf hp hb h0 hl fun s2 hf2 hd2 => ?_
  obtain ⟨q1, q2⟩ := hr hl _ s2 hd2
  have hsame' := congrArg UInt64.toNat hsame
  have heq : ph.currentLba = ph.backupLba := UInt64.toNat_inj.mp (by omega)
  cases bh with
  | none => exact (finish_runs _ q1 hf2).1 (by rw [heq]; exact UInt64.le_refl _)
  | some b =>
    refine Runs.stop ((onBackup_runs (q2 b rfl) hf2).1 ?_)
    rw [(l3 b rfl).1, (l3 b rfl).2, heq]
    exact UInt64.le_refl _

theorem rest_far {m : Mode} {s s1 : GptDisk} {h ph b : Header} (hw : WriteHeaders m s h ph (some b)) (hf : s1.device.faults = [])
    (hl : (Spec.used s.partitions).length ≤ ph.numParts.toNat) (hne : h.currentLba ≠ h.backupLba)
    (hfar : 2 ^ 64 ≤ b.currentLba.toNat * s.config.lbSize.usize) :
    Runs GptDisk.device (inArray (arrayWrites s.config.lbSize ph (some b) (Spec.used s.partitions)))
      (.err (.header (.overflow "writing header: lba * lbs")))
      (writeRest m s.config.lbSize ph (some b) (Spec.used s.partitions) s.syncAll) s1 := by
  obtain ⟨-, -, l3, -⟩ := headers_lbas hw
  obtain ⟨hp, hb, h0, hr⟩ := rest_ready hw
  rw [← arrayWrites_eq, ← List.append_nil (inArray _)]
  refine writeRest_arrays hf hp hb h0 hl fun s2 hf2 hd2 => ?_
  obtain ⟨q1, q2⟩ := hr hl _ s2 hd2
  refine Runs.stop ((onBackup_runs (q2 b rfl) hf2).2.2 ?_ hfar)
  rw [(l3 b rfl).1, (l3 b rfl).2]
  exact lbas_lt hw hne

theorem rest_all {m : Mode} {s s1 : GptDisk} {h ph : Header} {bh : Option Header} (hw : WriteHeaders m s h ph bh) (hf : s1.device.faults = [])
    (hd : s1.device.data = s.device.data) (hl : (Spec.used s.partitions).length ≤ ph.numParts.toNat) (hne : h.currentLba ≠ h.backupLba)
    (hnear : ∀ b, bh = some b → b.currentLba.toNat * s.config.lbSize.usize < 2 ^ 64) {bw : List (Nat × Bytes)} {pw : Nat × Bytes}
    (hws : Writes s.config.lbSize ph bh (Spec.used s.partitions) s.device.data
      (arrayWrites s.config.lbSize ph bh (Spec.used s.partitions) ++ bw ++ [pw])) :
    Runs GptDisk.device (inArray (arrayWrites s.config.lbSize ph bh (Spec.used s.partitions)) ++ inHeader (bw ++ [pw])) (.ok ())
      (writeRest m s.config.lbSize ph bh (Spec.used s.partitions) s.syncAll) s1 := by
  obtain ⟨l1, l2, l3, l4⟩ := headers_lbas hw
  obtain ⟨hp, hb, h0, hr⟩ := rest_ready hw
  have l4' := l4 hne
  have hlt := lbas_lt hw hne
  have hwrites := writes_of (lb := s.config.lbSize) (built_sig hw.primary) (fun b hb => built_sig (hw.some b hb).2.1) (Spec.used s.partitions)
    s.device.data
  have he := writes_unique hws hwrites
  unfold writePlan at he
  rw [← arrayWrites_eq, List.append_assoc, List.append_assoc] at he
  rw [List.append_cancel_left he, ← arrayWrites_eq]
  refine writeRest_arrays hf hp hb h0 hl fun s2 hf2 hd2 => ?_
  obtain ⟨q1, q2⟩ := hr hl _ s2 hd2
  rw [hd] at hd2
  cases bh with
  | none =>
    have := (finish_runs s.syncAll q1 hf2).2 hlt l4'
    rw [hd2] at this
    unfold backupW afterArrays
    simpa using this
  | some b =>
    have hbk := (onBackup_runs (q2 b rfl) hf2).2.1 (by rw [(l3 b rfl).1, (l3 b rfl).2]; exact hlt) (hnear b rfl)
    unfold backupW afterArrays inHeader
    rw [List.map_append, Option.toList_some, List.map_cons, List.map_nil]
    refine Runs.bind (by rw [hd2] at hbk; exact hbk) fun s3 _ _ hf3 hd3 => ?_
    have q3 : Sealable s.config.lbSize ph s3.device := ⟨q1.sig, q1.noWrap, fun h0 => by
      rw [hd3]; exact Nat.le_trans (q1.stored h0) (length_applyWrites _ _), q1.small⟩
    have := (finish_runs s.syncAll q3 hf3).2 hlt l4'
    rw [hd3, hd2, List.map_cons, List.map_nil] at this
    rw [applyWrites_append]
    exact this

/-- `write_inplace` gets to the writing part. -/
theorem inplace_rest {m : Mode} {s : GptDisk} {h ph : Header} {bh : Option Header} (hw : WriteHeaders m s h ph bh) (hwr : s.config.writable = true)
    (hsz : 3 * s.config.lbSize.usize ≤ s.device.data.length) (hf : s.device.faults = []) (hlen : s.device.data.length < 2 ^ 64) :
    ∃ s1 : GptDisk, s1.device = { s.device with pos := (UInt64.ofNat s.device.pos).toNat } ∧
      writeInplace m s = writeRest m s.config.lbSize ph bh (Spec.used s.partitions) s.syncAll s1 := by
  obtain ⟨h1, h2, h3, h4⟩ := headers_of hw
  rw [writeInplace_eq, findBackupLba_nil_any hf hlen, if_neg (by rw [hwr]; simp), if_neg (by omega)]
  simp only [h1, h2]
  rw [← usedParts_eq]
  cases bh with
  | none =>
    rw [if_pos (h3.mpr rfl)]
    exact ⟨_, by rfl, rfl⟩
  | some b =>
    rw [if_neg (fun hr => by cases h3.mp hr)]
    simp only [h4 b rfl]
    exact ⟨_, by rfl, rfl⟩

/-- **C91**: on a device that works, what `write_inplace` returns and what it leaves there: it carries out its plan of writes, up
to the first that does not fit the device. -/
theorem c91_write (m : Mode) (s : GptDisk) (hf : s.device.faults = []) (hlen : s.device.data.length < 2 ^ 64)
    (plan : List ((Nat × Bytes) × GptError)) (r : Res GptError Unit) (hp : WritePlan m s plan r) :
    (writeInplace m s).1 = endOf s.device.cap r plan ∧
    (writeInplace m s).2.device.data = overlay s.device.data (carried s.device.cap (plan.map Prod.fst)) := by
  have nothing : ∀ data : Bytes, data = overlay data (carried s.device.cap []) := fun data => by rw [← overlay_eq]; rfl
  have fin : ∀ (h ph : Header) (bh : Option Header), WriteHeaders m s h ph bh → s.config.writable = true →
      3 * s.config.lbSize.usize ≤ s.device.data.length →
      (∀ s1 : GptDisk, s1.device.faults = [] → s1.device.data = s.device.data →
        Runs GptDisk.device plan r (writeRest m s.config.lbSize ph bh (Spec.used s.partitions) s.syncAll) s1) →
      (writeInplace m s).1 = endOf s.device.cap r plan ∧
      (writeInplace m s).2.device.data = overlay s.device.data (carried s.device.cap (plan.map Prod.fst)) := by
    intro h ph bh hw hwr hsz hr
    obtain ⟨s1, e1, e2⟩ := inplace_rest hw hwr hsz hf hlen
    have hr := hr s1 (by rw [e1]; exact hf) (by rw [e1])
    rw [e2, hr.result, hr.data, overlay_eq, e1]
    exact ⟨rfl, rfl⟩
  cases hp with
  | tooMany h ph bh hwr hsz hw hl =>
    refine fin h ph bh hw hwr hsz fun s1 hf1 _ => ?_
    obtain ⟨k1, k2, -⟩ := rest_ready hw
    rw [← slotWrites_eq]
    exact writeRest_tooMany hf1 k1 k2 hl
  | sameBlock h ph bh hwr hsz hw hl hsame => exact fin h ph bh hw hwr hsz fun s1 hf1 _ => rest_same hw hf1 hl hsame
  | backupFar h ph b hwr hsz hw hl hne hfar => exact fin h ph (some b) hw hwr hsz fun s1 hf1 _ => rest_far hw hf1 hl hne hfar
  | all h ph bh bw pw hwr hsz hw hl hne hnear hws => exact fin h ph bh hw hwr hsz fun s1 hf1 hd1 => rest_all hw hf1 hd1 hl hne hnear hws
  | readOnly hwr =>
    rw [writeInplace_eq, if_pos hwr]
    exact ⟨rfl, nothing _⟩
  | small hwr hsz =>
    rw [writeInplace_eq, if_neg (by rw [hwr]; simp), findBackupLba_nil_any hf hlen, if_pos hsz]
    exact ⟨rfl, nothing _⟩
  | headerless hwr hsz hh =>
    rw [writeInplace_eq, if_neg (by rw [hwr]; simp), findBackupLba_nil_any hf hlen, if_neg (by omega)]
    unfold GptDisk.header at hh
    cases hx : s.tryHeader with
    | error e => exact ⟨rfl, nothing _⟩
    | ok h => rw [hx] at hh; cases hh
  | noPrimary h e hwr hsz hh hb =>
    rw [writeInplace_eq, if_neg (by rw [hwr]; simp), findBackupLba_nil_any hf hlen, if_neg (by omega)]
    have hx : primaryOf m h s.config.lbSize = .err e := (c86_build _ _ _ _).mpr hb
    simp only [header_ok_iff.mp hh, hx]
    exact ⟨rfl, nothing _⟩
  | primaryPanic h hwr hsz hh hb =>
    rw [writeInplace_eq, if_neg (by rw [hwr]; simp), findBackupLba_nil_any hf hlen, if_neg (by omega)]
    have hx : primaryOf m h s.config.lbSize = .panic := (c86_build _ _ _ _).mpr hb
    simp only [header_ok_iff.mp hh, hx]
    exact ⟨rfl, nothing _⟩
  | backupPanic h ph hwr hsz hh hb hro hm hlast =>
    rw [writeInplace_eq, if_neg (by rw [hwr]; simp), findBackupLba_nil_any hf hlen, if_neg (by omega)]
    have hx : primaryOf m h s.config.lbSize = .ok ph := (c86_build _ _ _ _).mpr hb
    obtain ⟨q1, q2⟩ := backup_built rfl hb
    have hy : backupOf m ph s.config.lbSize = .panic := by
      unfold backupOf
      rw [q1]
      rcases q2 with ⟨-, -, c3⟩ | ⟨c1, -⟩
      · exact (c86_build _ _ _ _).mpr c3
      · exact absurd hlast (c1 hm)
    simp only [header_ok_iff.mp hh, hx, hro, hy]
    exact ⟨rfl, nothing _⟩

/-- **C91**: there always is a plan, as long as the arrays of the headers made end below 2^64 and are shorter than 2^63 bytes. -/
theorem c91_total (m : Mode) (s : GptDisk) (he : EndsBelow m s) : ∃ plan r, WritePlan m s plan r := by
  by_cases hwr : s.config.writable = false
  · exact ⟨[], _, .readOnly hwr⟩
  have hwr' : s.config.writable = true := by simpa using hwr
  by_cases hsz : s.device.data.length < 3 * s.config.lbSize.usize
  · exact ⟨[], _, .small hwr' hsz⟩
  have hsz' : 3 * s.config.lbSize.usize ≤ s.device.data.length := by omega
  cases hh : s.tryHeader with
  | error e =>
    refine ⟨[], _, .headerless hwr' hsz' ?_⟩
    unfold GptDisk.header
    rw [hh]
  | ok h =>
    have hh' : s.header (ε := Empty) = .ok h := header_ok_iff.mpr hh
    have hpr : Built m s.config.lbSize (primaryAgain h) (primaryOf m h s.config.lbSize) := (c86_build _ _ _ _).mp rfl
    cases hx : primaryOf m h s.config.lbSize with
    | err e => rw [hx] at hpr; exact ⟨[], _, .noPrimary h e hwr' hsz' hh' hpr⟩
    | panic => rw [hx] at hpr; exact ⟨[], _, .primaryPanic h hwr' hsz' hh' hpr⟩
    | ok ph =>
      rw [hx] at hpr
      obtain ⟨e1, e0, e2⟩ := he h ph hh' hpr
      have fin : ∀ bh : Option Header, WriteHeaders m s h ph bh → ∃ plan r, WritePlan m s plan r := by
        intro bh hw
        by_cases hl : ph.numParts.toNat < (Spec.used s.partitions).length
        · exact ⟨_, _, .tooMany h ph bh hwr' hsz' hw hl⟩
        have hl' : (Spec.used s.partitions).length ≤ ph.numParts.toNat := by omega
        by_cases hsame : h.currentLba = h.backupLba
        · exact ⟨_, _, .sameBlock h ph bh hwr' hsz' hw hl' hsame⟩
        by_cases hfar : ∃ b, bh = some b ∧ 2 ^ 64 ≤ b.currentLba.toNat * s.config.lbSize.usize
        · obtain ⟨b, rfl, hfar⟩ := hfar
          exact ⟨_, _, .backupFar h ph b hwr' hsz' hw hl' hsame hfar⟩
        have hnear : ∀ b, bh = some b → b.currentLba.toNat * s.config.lbSize.usize < 2 ^ 64 := fun b hb => by
          by_contra hc
          exact hfar ⟨b, hb, by omega⟩
        have hwrites := writes_of (lb := s.config.lbSize) (built_sig hw.primary) (fun b hb => built_sig (hw.some b hb).2.1)
          (Spec.used s.partitions) s.device.data
        unfold writePlan at hwrites
        rw [arrayWrites_eq] at hwrites
        exact ⟨_, _, .all h ph bh _ _ hwr' hsz' hw hl' hsame hnear hwrites⟩
      by_cases hro : s.config.readonlyBackup = true
      · exact fin none ⟨hh', hpr, e1, e0, fun _ => hro, fun b hb => by cases hb⟩
      · have hro' : s.config.readonlyBackup = false := by simpa using hro
        rcases (backup_built rfl hpr).2 with ⟨c1, c2, c3⟩ | ⟨-, b, hb⟩
        · exact ⟨[], _, .backupPanic h ph hwr' hsz' hh' hpr hro' c1 c2⟩
        · exact fin (some b) ⟨hh', hpr, e1, e0, fun e => (by cases e), fun b' hb' => by
            cases hb'; exact ⟨hro', hb, e2 b hro' hb⟩⟩

/-! ### Cases -/

/-- `oddDisk` on a device of 11 blocks that cannot grow: the backup array is to start in block 21. -/
def fullDisk (z : Bytes) : GptDisk := { oddDisk z with device := ⟨z, 0, 5632, [], []⟩ }

theorem fullHeaders (m : Mode) (z : Bytes) :
    WriteHeaders m (fullDisk z) oddHeader oddHeader (some { oddHeader with currentLba := 9, backupLba := 1, partStart := 21 }) := by
  obtain ⟨a, b, c, d, e, f⟩ := oddHeaders m z
  exact ⟨a, b, c, d, e, f⟩

-- the write fails at the second write: the entry is in the primary array, no header has its checksum
example (m : Mode) (z : Bytes) (hz : z.length = 5632) :
    (writeInplace m (fullDisk z)).1 = .err (.io .writeZero) ∧
    (writeInplace m (fullDisk z)).2.device.data = overlay z [(1024, smallPart.asBytes 128), (10752, [])] := by
  have hw := fullHeaders m z
  have hl : (fullDisk z).device.data.length = 5632 := hz
  have hsz : 3 * (fullDisk z).config.lbSize.usize ≤ (fullDisk z).device.data.length := by rw [hl]; exact (by decide : 3 * 512 ≤ 5632)
  have hws := writes_of (lb := .lb512) (built_sig hw.primary) (fun b hb => built_sig (hw.some b hb).2.1) [smallPart] z
  unfold writePlan at hws
  rw [arrayWrites_eq] at hws
  have hp := c91_write m (fullDisk z) rfl (by rw [hl]; decide) _ _
    (.all _ _ _ _ _ rfl hsz hw (show 1 ≤ 4 by decide) (by decide) (by rintro _ ⟨⟩; exact (by decide : 9 * 512 < 2 ^ 64)) hws)
  have l3 : (smallPart.asBytes 128).length = 128 := smallPart.asBytes_length 128
  have f1 : Fits 5632 (1024, smallPart.asBytes 128) := .inr (by simp only [l3]; decide)
  have f2 : ¬ Fits 5632 (10752, smallPart.asBytes 128) := by
    rintro (h | h)
    · simp only at h; rw [h] at l3; cases l3
    · simp only at h; omega
  rw [hp.1, hp.2]
  constructor
  · show (if Fits 5632 (1024, smallPart.asBytes 128) then if Fits 5632 (10752, smallPart.asBytes 128) then _ else _ else _) = _
    rw [if_pos f1, if_neg f2]
  · show overlay z (if Fits 5632 (1024, smallPart.asBytes 128) then
      _ :: (if Fits 5632 (10752, smallPart.asBytes 128) then _ else [(10752, (smallPart.asBytes 128).take (5632 - 10752))]) else _) = _
    rw [if_pos f1, if_neg f2]
    rfl

-- the premise of `c91_total`
example (m : Mode) (z : Bytes) : EndsBelow m (fullDisk z) := by
  have hw := fullHeaders m z
  intro h ph hh hb
  have e1 := hw.header
  rw [hh, Res.ok.injEq] at e1
  subst e1
  have e2 := built_unique hb hw.primary
  rw [Res.ok.injEq] at e2
  subst e2
  refine ⟨hw.primaryEnd, hw.size, fun b hro hb' => ?_⟩
  obtain ⟨-, b1, b2⟩ := hw.some _ rfl
  have e3 := built_unique hb' b1
  rw [Res.ok.injEq] at e3
  subst e3
  exact b2

/-- A header that names its own block as that of the other header. -/
def loneHeader : Header := { smallHeader with currentLba := 9 }

def loneDisk : GptDisk := { smallDisk [(1, smallPart)] with
  config := (GptConfig.new.setWritable true).setReadonlyBackup true, device := ⟨zeros 7168, 0, 7168, [], []⟩, primaryHeader := .ok loneHeader }

-- the array is written to block 10 and no header is
example (m : Mode) : (writeInplace m loneDisk).1 = .err (.header .writingToWrongLba) ∧
    (writeInplace m loneDisk).2.device.data = overlay (zeros 7168) [(5120, smallPart.asBytes 128), (5248, zeros 384)] := by
  have hw : WriteHeaders m loneDisk loneHeader { loneHeader with partStart := 10 } none := {
    header := rfl
    primary := .header 1 _ (by decide) (fun _ => by decide) just1 (by unfold HasRoom; decide) (fun _ => by decide)
      ⟨by decide +kernel, rfl, rfl, ⟨rfl, rfl, rfl⟩, rfl, rfl, by decide, by decide, rfl, by decide, rfl, rfl⟩
    primaryEnd := by show slotOf .lb512 _ _ < _; decide
    size := by decide
    none := fun _ => rfl
    some := fun b hb => by cases hb }
  have hl : loneDisk.device.data.length = 7168 := zeros_length _
  have hp := c91_write m loneDisk rfl (by rw [hl]; decide) _ _
    (.sameBlock _ _ _ rfl (by rw [hl]; exact (by decide : 3 * 512 ≤ 7168)) hw (show 1 ≤ 4 by decide) rfl)
  have l3 : (smallPart.asBytes 128).length = 128 := smallPart.asBytes_length 128
  have fits : ∀ w ∈ ([(5120, smallPart.asBytes 128), (5248, zeros 384)] : List Write), Fits 7168 w := by
    intro w hw
    simp only [List.mem_cons, List.not_mem_nil, or_false] at hw
    rcases hw with rfl | rfl
    · exact .inr (by simp only [l3]; decide)
    · exact .inr (by simp only [zeros_length]; decide)
  have e : arrayWrites .lb512 { loneHeader with partStart := 10 } none [smallPart] = [(5120, smallPart.asBytes 128), (5248, zeros 384)] := rfl
  rw [hp.1, hp.2]
  constructor
  · show endOf 7168 _ (inArray (arrayWrites .lb512 { loneHeader with partStart := 10 } none [smallPart])) = _
    rw [e]
    exact endOf_fit (a := inArray [(5120, smallPart.asBytes 128), (5248, zeros 384)]) fits _
  · show overlay _ (carried 7168 ((inArray (arrayWrites .lb512 { loneHeader with partStart := 10 } none [smallPart])).map Prod.fst)) = _
    rw [e]
    exact congrArg _ (carried_all fits)

/-- Five used entries for four slots. -/
def crowdedDisk : GptDisk := { smallDisk [(1, smallPart), (2, smallPart), (3, smallPart), (4, smallPart), (5, smallPart)] with
  config := (GptConfig.new.setWritable true).setReadonlyBackup true }

-- the first four are written
example (m : Mode) : (writeInplace m crowdedDisk).1 = .err .overflowPartitionCount ∧
    (writeInplace m crowdedDisk).2.device.data = overlay (zeros 5120) [(1024, smallPart.asBytes 128), (1152, smallPart.asBytes 128),
      (1280, smallPart.asBytes 128), (1408, smallPart.asBytes 128)] := by
  have hw : WriteHeaders m crowdedDisk smallHeader smallHeader none := {
    header := rfl
    primary := .header 1 _ (by decide) (fun _ => by decide) just1 (by unfold HasRoom; decide) (fun _ => by decide)
      ⟨by decide +kernel, rfl, rfl, ⟨rfl, rfl, rfl⟩, rfl, rfl, by decide, by decide, rfl, by decide, rfl, rfl⟩
    primaryEnd := by show slotOf .lb512 _ _ < _; decide
    size := by decide
    none := fun _ => rfl
    some := fun b hb => by cases hb }
  have hl : crowdedDisk.device.data.length = 5120 := zeros_length _
  have hp := c91_write m crowdedDisk rfl (by rw [hl]; decide) _ _
    (.tooMany _ _ _ rfl (by rw [hl]; exact (by decide : 3 * 512 ≤ 5120)) hw (show 4 < 5 by decide))
  have l3 : (smallPart.asBytes 128).length = 128 := smallPart.asBytes_length 128
  have fits : ∀ w ∈ ([(1024, smallPart.asBytes 128), (1152, smallPart.asBytes 128), (1280, smallPart.asBytes 128),
      (1408, smallPart.asBytes 128)] : List Write), Fits 5120 w := by
    intro w hw
    simp only [List.mem_cons, List.not_mem_nil, or_false] at hw
    rcases hw with rfl | rfl | rfl | rfl <;> exact .inr (by simp only [l3]; decide)
  rw [hp.1, hp.2]
  exact ⟨endOf_fit (a := inArray [(1024, smallPart.asBytes 128), (1152, smallPart.asBytes 128), (1280, smallPart.asBytes 128),
    (1408, smallPart.asBytes 128)]) fits _, congrArg _ (carried_all fits)⟩

end Gpt
