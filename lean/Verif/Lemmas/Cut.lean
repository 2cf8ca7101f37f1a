import Verif.Lemmas.WriteSane
/-!
# Every torn prefix of a plan really happens

`Follows` (Lemmas/Journal) bounds what a failing run can leave behind. `Cuts` is the converse: for every torn prefix of the
plan there is a fault list under which the run stops with exactly that on the medium. Together they say that the outcomes of
failing runs are exactly the torn prefixes.
-/

namespace Gpt

/-- A state with a device in it whose fault list can be replaced. -/
structure FaultLens (σ : Type) where
  dev : σ → Dev
  with_ : List Fault → σ → σ
  dev_with : ∀ fs s, dev (with_ fs s) = { dev s with faults := fs }
  with_with : ∀ fs gs s, with_ fs (with_ gs s) = with_ fs s
  with_self : ∀ s, with_ (dev s).faults s = s

/-- The device itself. -/
def devLens : FaultLens Dev where
  dev := id
  with_ fs d := { d with faults := fs }
  dev_with _ _ := rfl
  with_with _ _ _ := rfl
  with_self _ := rfl

/-- A disk. -/
def diskLens : FaultLens GptDisk where
  dev := GptDisk.device
  with_ fs s := { s with device := { s.device with faults := fs } }
  dev_with _ _ := rfl
  with_with _ _ _ := rfl
  with_self _ := rfl

/-- `n` calls that go well, then `fs`. -/
abbrev after (n : Nat) (fs : List Fault) : List Fault := List.replicate n Fault.none ++ fs

theorem after_add (n k : Nat) (fs : List Fault) : after n (after k fs) = after (n + k) fs := by
  unfold after
  rw [← List.append_assoc, List.replicate_append_replicate]

/-- See the head of the file. `s'` is the state after the undisturbed run. -/
structure Cuts {σ ε α : Type} (L : FaultLens σ) (plan : List Write) (x : M σ ε α) (s : σ) (a : α) (s' : σ) : Prop where
  run : ∃ n, ∀ fs, x (L.with_ (after n fs) s) = (.ok a, L.with_ fs s')
  cut : ∀ ws, Torn ws plan → applyWrites (L.dev s).data ws = (L.dev s).data ∨
    ∃ fs e, (x (L.with_ fs s)).1 = .err e ∧ (L.dev (x (L.with_ fs s)).2).data = applyWrites (L.dev s).data ws
  data : (L.dev s').data = applyWrites (L.dev s).data plan
  cap : (L.dev s').cap = (L.dev s).cap

section
variable {σ ε ε' α β : Type} {L : FaultLens σ}

theorem Cuts.of_run {x : M σ ε α} {s s' : σ} {a : α} (n : Nat) (h : ∀ fs, x (L.with_ (after n fs) s) = (.ok a, L.with_ fs s'))
    (hd : (L.dev s').data = (L.dev s).data) (hc : (L.dev s').cap = (L.dev s).cap) : Cuts L [] x s a s' := by
  refine ⟨⟨n, h⟩, fun ws hws => .inl ?_, hd, hc⟩
  cases hws
  rfl

theorem Cuts.pure (a : α) (s : σ) : Cuts L [] (Pure.pure a : M σ ε α) s a s := .of_run 0 (fun _ => rfl) rfl rfl

theorem Cuts.lift {r : Res ε α} {a : α} (h : r = .ok a) (s : σ) : Cuts L [] (M.lift r : M σ ε α) s a s := by
  subst h; exact .of_run 0 (fun _ => rfl) rfl rfl

theorem Cuts.bind {p q : List Write} {x : M σ ε α} {f : α → M σ ε β} {s s1 s2 : σ} {a : α} {b : β}
    (hx : Cuts L p x s a s1) (hf : Cuts L q (f a) s1 b s2) :
    Cuts L (p ++ q) (x >>= f) s b s2 := by
  obtain ⟨n, hn⟩ := hx.run
  obtain ⟨k, hk⟩ := hf.run
  have hd := hx.data
  refine ⟨⟨n + k, fun fs => ?_⟩, fun ws hws => ?_, by rw [hf.data, hd, applyWrites_append], by rw [hf.cap, hx.cap]⟩
  · rw [M.bind_apply, ← after_add, hn]; exact hk fs
  · have early : ∀ ws, Torn ws p → applyWrites (L.dev s).data ws = (L.dev s).data ∨
        ∃ fs e, ((x >>= f) (L.with_ fs s)).1 = .err e ∧ (L.dev ((x >>= f) (L.with_ fs s)).2).data = applyWrites (L.dev s).data ws := by
      intro ws h1
      rcases hx.cut ws h1 with h | ⟨fs, e, h2, h3⟩
      · exact .inl h
      · right
        refine ⟨fs, e, ?_⟩
        rcases hr : x (L.with_ fs s) with ⟨r, t⟩
        rw [hr] at h2 h3
        simp only at h2 h3
        subst h2
        rw [M.bind_apply, hr]
        exact ⟨rfl, h3⟩
    rcases hws.split with h1 | ⟨ws', rfl, h1⟩
    · exact early _ h1
    · rcases hf.cut ws' h1 with h | ⟨fs, e, h2, h3⟩
      · rw [hd] at h
        rw [applyWrites_append, h]
        exact early _ (Torn.self p)
      · right
        refine ⟨after n fs, e, ?_⟩
        rw [M.bind_apply, hn, applyWrites_append, ← hd]
        exact ⟨h2, h3⟩

theorem Cuts.bind_nil {q : List Write} {x : M σ ε α} {f : α → M σ ε β} {s s1 s2 : σ} {a : α} {b : β}
    (hx : Cuts L [] x s a s1) (hf : Cuts L q (f a) s1 b s2) :
    Cuts L q (x >>= f) s b s2 := by
  have := Cuts.bind hx hf
  exact this

theorem Cuts.mapErr {p : List Write} {x : M σ ε α} {s s1 : σ} {a : α} (g : ε → ε') (hx : Cuts L p x s a s1) :
    Cuts L p (x.mapErr g) s a s1 := by
  obtain ⟨n, hn⟩ := hx.run
  refine ⟨⟨n, fun fs => ?_⟩, fun ws hws => ?_, hx.data, hx.cap⟩
  · rw [M.mapErr_apply, hn]; rfl
  · rcases hx.cut ws hws with h | ⟨fs, e, h2, h3⟩
    · exact .inl h
    · right
      refine ⟨fs, g e, ?_, ?_⟩
      · rw [M.mapErr_apply]; simp only; rw [h2]; rfl
      · rw [M.mapErr_apply]; exact h3

end

namespace Dev

theorem seekStart_cuts (n : UInt64) (d : Dev) : Cuts devLens [] (seekStart n) d n { d with pos := n.toNat } :=
  .of_run 1 (fun _ => rfl) rfl rfl

theorem seekEnd_cuts (d : Dev) : Cuts devLens [] seekEnd d (UInt64.ofNat d.data.length) { d with pos := d.data.length } :=
  .of_run 1 (fun _ => rfl) rfl rfl

theorem streamPosition_cuts (d : Dev) : Cuts devLens [] streamPosition d (UInt64.ofNat d.pos) d :=
  .of_run 1 (fun _ => rfl) rfl rfl

theorem flush_cuts (d : Dev) : Cuts devLens [] flush d () { d with log := d.log ++ [.flush] } := .of_run 1 (fun _ => rfl) rfl rfl

theorem syncAll_cuts (d : Dev) : Cuts devLens [] syncAll d () { d with log := d.log ++ [.sync] } := .of_run 1 (fun _ => rfl) rfl rfl

theorem readExact_cuts {n : Nat} {d : Dev} (h : d.pos + n ≤ d.data.length) :
    Cuts devLens [] (readExact n) d (slice d.data d.pos n) { d with pos := d.pos + n } := by
  by_cases h0 : n = 0
  · subst h0
    refine .of_run 0 (fun fs => ?_) rfl rfl
    simp [readExact, devLens, slice, after]
  · refine .of_run 1 (fun fs => ?_) rfl rfl
    unfold readExact
    rw [if_neg h0]
    show (if d.pos + n ≤ d.data.length then _ else _) = _
    rw [if_pos h]
    rfl

theorem writeAll_cuts {bs : Bytes} {d : Dev} (h : d.pos + bs.length ≤ d.cap) :
    Cuts devLens [(d.pos, bs)] (writeAll bs) d () (d.put bs) := by
  by_cases h0 : bs = []
  · subst h0
    refine ⟨⟨0, fun fs => ?_⟩, fun ws hws => .inl ?_, put_eq_patchW d [], rfl⟩
    · simp [writeAll, put, devLens, after]
    · cases hws with
      | nil => rfl
      | part o b k plan => simp [patchW]
      | cons w h => cases h; simp [patchW]
  · refine ⟨⟨1, fun fs => ?_⟩, fun ws hws => .inr ?_, put_eq_patchW d bs, by unfold put; rw [if_neg h0]; rfl⟩
    · unfold writeAll
      rw [if_neg h0]
      show (if d.pos + bs.length ≤ d.cap then _ else _) = _
      rw [if_pos h]
      unfold put
      rw [if_neg h0]
      simp only [h0, if_false]
      rfl
    · have key : ∀ k, k ≤ bs.length → ∃ fs e, (writeAll bs (devLens.with_ fs d)).1 = .err e ∧
          (devLens.dev (writeAll bs (devLens.with_ fs d)).2).data = patchW d.data (d.pos, bs.take k) := by
        intro k hk
        refine ⟨[.fail k], .device, ?_, ?_⟩
        · unfold writeAll; rw [if_neg h0]; rfl
        · unfold writeAll
          rw [if_neg h0]
          show (put _ (bs.take (min k (d.cap - d.pos)))).data = _
          rw [Nat.min_eq_left (by omega), put_eq_patchW]
          rfl
      cases hws with
      | nil =>
        obtain ⟨fs, e, h1, h2⟩ := key 0 (Nat.zero_le _)
        exact ⟨fs, e, h1, by rw [h2]; simp [patchW, devLens]⟩
      | part o b k plan =>
        obtain ⟨fs, e, h1, h2⟩ := key (min k bs.length) (Nat.min_le_right _ _)
        refine ⟨fs, e, h1, ?_⟩
        rw [h2]
        simp only [applyWrites_cons, applyWrites_nil]
        rw [show bs.take (min k bs.length) = bs.take k by rw [List.take_eq_take_iff]; omega]
        rfl
      | cons w h' =>
        cases h'
        obtain ⟨fs, e, h1, h2⟩ := key bs.length (Nat.le_refl _)
        refine ⟨fs, e, h1, ?_⟩
        rw [h2, List.take_length]
        rfl

end Dev

open GptDisk (ofNat64)
open Spec

namespace Partition

theorem writeToDevice_cuts (m : Mode) (p : Partition) {idx startLba : UInt64} {lb : LbSize} {sz : UInt32} {d : Dev}
    (h : startLba.toNat * lb.usize + idx.toNat * sz.toNat < 2 ^ 64)
    (hc : startLba.toNat * lb.usize + idx.toNat * sz.toNat + sz.toNat ≤ d.cap) :
    ∃ d', Cuts devLens [(startLba.toNat * lb.usize + idx.toNat * sz.toNat, p.asBytes sz)] (writeToDevice m p idx startLba lb sz)
      d () d' := by
  unfold writeToDevice
  obtain ⟨st, e1, e1'⟩ := checkedMul64_lb (a := startLba) (lb := lb) (by omega)
  obtain ⟨off, e2, e2'⟩ : ∃ off, checkedMul64 idx sz.toUInt64 = some off ∧ off.toNat = idx.toNat * sz.toNat := by
    refine ⟨UInt64.ofNat (idx.toNat * sz.toNat), ?_, ofNat64 (by omega)⟩
    rw [checkedMul64_some, UInt32.toNat_toUInt64, ofNat64 (by omega)]
    exact ⟨by omega, rfl⟩
  have hsum : (st + off).toNat = startLba.toNat * lb.usize + idx.toNat * sz.toNat := by
    rw [u64_add_toNat (by omega), e1', e2']
  rw [← hsum] at h hc ⊢
  refine ⟨({ d with pos := (st + off).toNat } : Dev).put (p.asBytes sz), ?_⟩
  refine Cuts.bind_nil (.lift (by rw [e1]; rfl) _) ?_
  refine Cuts.bind_nil (.lift (by rw [e2]; rfl) _) ?_
  refine Cuts.bind_nil (.lift (add64_eq m (by omega)) _) ?_
  refine Cuts.bind_nil (Dev.seekStart_cuts _ _) ?_
  exact Dev.writeAll_cuts (d := { d with pos := (st + off).toNat }) (by rw [asBytes_length]; exact hc)

theorem writeZeroEntries_cuts (m : Mode) {idx n startLba : UInt64} {lb : LbSize} {sz : UInt32} {d : Dev}
    (h : startLba.toNat * lb.usize + idx.toNat * sz.toNat < 2 ^ 64) (hn : n.toNat * sz.toNat < 2 ^ 63)
    (hc : startLba.toNat * lb.usize + idx.toNat * sz.toNat + n.toNat * sz.toNat ≤ d.cap) :
    ∃ d', Cuts devLens [(startLba.toNat * lb.usize + idx.toNat * sz.toNat, zeros (n.toNat * sz.toNat))]
      (writeZeroEntries m idx n startLba lb sz) d () d' := by
  unfold writeZeroEntries
  obtain ⟨st, e1, e1'⟩ := checkedMul64_lb (a := startLba) (lb := lb) (by omega)
  obtain ⟨off, e2, e2'⟩ : ∃ off, checkedMul64 idx sz.toUInt64 = some off ∧ off.toNat = idx.toNat * sz.toNat := by
    refine ⟨UInt64.ofNat (idx.toNat * sz.toNat), ?_, ofNat64 (by omega)⟩
    rw [checkedMul64_some, UInt32.toNat_toUInt64, ofNat64 (by omega)]
    exact ⟨by omega, rfl⟩
  obtain ⟨cnt, e3, e3'⟩ : ∃ cnt, checkedMul64 sz.toUInt64 n = some cnt ∧ cnt.toNat = n.toNat * sz.toNat := by
    refine ⟨UInt64.ofNat (n.toNat * sz.toNat), ?_, ofNat64 (by omega)⟩
    rw [checkedMul64_some, UInt32.toNat_toUInt64, ofNat64 (by omega), Nat.mul_comm]
    exact ⟨by omega, rfl⟩
  have hsum : (st + off).toNat = startLba.toNat * lb.usize + idx.toNat * sz.toNat := by
    rw [u64_add_toNat (by omega), e1', e2']
  rw [← hsum] at h hc ⊢
  rw [← e3'] at hc ⊢
  refine ⟨({ d with pos := (st + off).toNat } : Dev).put (zeros cnt.toNat), ?_⟩
  refine Cuts.bind_nil (.lift (by rw [e1]; rfl) _) ?_
  refine Cuts.bind_nil (.lift (by rw [e2]; rfl) _) ?_
  refine Cuts.bind_nil (.lift (add64_eq m (by omega)) _) ?_
  refine Cuts.bind_nil (Dev.seekStart_cuts _ _) ?_
  refine Cuts.bind_nil (.lift (by rw [e3]; rfl) _) ?_
  refine Cuts.bind_nil (.lift (vecOf_pos (e3'.trans_lt hn)) _) ?_
  exact Dev.writeAll_cuts (d := { d with pos := (st + off).toNat }) (by rw [zeros_length]; exact hc)

end Partition

/-- The device calls of `file_write_header`; the result is the checksum of the array. -/
def devHeader (h : Header) (lba : UInt64) (lb : LbSize) : M Dev HeaderError UInt32 := do
  let c ← partentryChecksum h lb
  let start ← M.lift (Res.ofOption (.overflow "writing header: lba * lbs") (checkedMul64 lba lb.u64))
  let _ ← (Dev.seekStart start).mapErr .io
  (Dev.writeAll (h.block c lb)).mapErr .io
  pure c

theorem fileWriteHeader_dev {h : Header} (hs : h.signature.length = 8) (lba : UInt64) (lb : LbSize) (d : Dev) :
    (Header.fileWriteHeader lba lb (h, d)).2.2 = (devHeader h lba lb d).2 ∧
    (∀ e, (devHeader h lba lb d).1 = .err e → (Header.fileWriteHeader lba lb (h, d)).1 = .err e) ∧
    (∀ c, (devHeader h lba lb d).1 = .ok c → (Header.fileWriteHeader lba lb (h, d)).1 = .ok (h.block c lb).length ∧
      (Header.fileWriteHeader lba lb (h, d)).2.1 = { h with crc32Parts := c, crc32 := Gpt.crc32 (h.fieldBytes c) }) := by
  unfold Header.fileWriteHeader devHeader
  simp only [M.bind_apply, M.get_apply, Header.onDev, M.zoom_apply]
  rcases partentryChecksum h lb d with ⟨r, d1⟩
  cases r with
  | err e => simp
  | panic => simp
  | ok c =>
    simp only [M.modify_apply, M.lift_apply]
    rw [Header.toBytes_eq (by exact hs)]
    simp only
    cases checkedMul64 lba lb.u64 with
    | none => simp
    | some st =>
      simp only [Res.ofOption_some, M.mapErr_apply]
      rcases Dev.seekStart st d1 with ⟨r, d2⟩
      cases r with
      | err e => simp [Res.mapErr]
      | panic => simp [Res.mapErr]
      | ok v =>
        simp only [Res.mapErr_ok]
        have hb : resize (patch (({ h with crc32Parts := c } : Header).fieldBytes c) 16
            (le32 (Gpt.crc32 (({ h with crc32Parts := c } : Header).fieldBytes c)))) lb.usize = h.block c lb := rfl
        rw [hb]
        rcases Dev.writeAll (h.block c lb) d2 with ⟨r, d3⟩
        cases r with
        | err e => simp [Res.mapErr]
        | panic => simp [Res.mapErr]
        | ok v =>
          refine ⟨rfl, by simp [Res.mapErr], ?_⟩
          intro c' hc'
          simp only [Res.mapErr_ok, M.pure_apply, Res.ok.injEq] at hc'
          subst hc'
          exact ⟨rfl, rfl⟩

theorem devHeader_cuts {h : Header} {lba : UInt64} {lb : LbSize} {d : Dev} (h1 : h.arrayStart lb < 2 ^ 64)
    (h0 : h.arrayLen < 2 ^ 63) (h2 : h.arrayStart lb + h.arrayLen ≤ d.data.length) (h3 : lba.toNat * lb.usize < 2 ^ 64)
    (h4 : lba.toNat * lb.usize + lb.usize ≤ d.cap) :
    ∃ c d', Cuts devLens [(lba.toNat * lb.usize, h.block (Gpt.crc32 (slice d.data (h.arrayStart lb) h.arrayLen)) lb)]
      (devHeader h lba lb) d c d' := by
  unfold devHeader partentryChecksum
  obtain ⟨st, e1, e1'⟩ := checkedMul64_lb (a := h.partStart) (lb := lb) h1
  obtain ⟨ln, e2, e2'⟩ := checkedMul64_u32 h.numParts h.partSize
  obtain ⟨at_, e3, e3'⟩ := checkedMul64_lb (a := lba) (lb := lb) h3
  have hst : st.toNat = h.arrayStart lb := e1'
  have hln : ln.toNat = h.arrayLen := e2'
  rw [← hst, ← hln] at h2
  rw [← hst, ← hln, ← e3']
  refine ⟨Gpt.crc32 (slice d.data st.toNat ln.toNat),
    ({ d with pos := at_.toNat } : Dev).put (h.block (Gpt.crc32 (slice d.data st.toNat ln.toNat)) lb), ?_⟩
  refine Cuts.bind_nil (s1 := { d with pos := st.toNat + ln.toNat }) (a := Gpt.crc32 (slice d.data st.toNat ln.toNat)) ?_ ?_
  · refine Cuts.bind_nil (.lift (by rw [e1]; rfl) _) ?_
    refine Cuts.bind_nil (Cuts.mapErr _ (Dev.seekStart_cuts _ _)) ?_
    refine Cuts.bind_nil (.lift (by rw [e2]; rfl) _) ?_
    refine Cuts.bind_nil (.lift (vecOf_pos (hln.trans_lt h0)) _) ?_
    exact Cuts.bind_nil (Cuts.mapErr _ (Dev.readExact_cuts (d := { d with pos := st.toNat }) h2)) (Cuts.pure _ _)
  · refine Cuts.bind_nil (.lift (by rw [e3]; rfl) _) ?_
    refine Cuts.bind_nil (Cuts.mapErr _ (Dev.seekStart_cuts _ _)) ?_
    have := Cuts.bind (f := fun _ => Pure.pure (Gpt.crc32 (slice d.data st.toNat ln.toNat)))
      (Cuts.mapErr HeaderError.io (Dev.writeAll_cuts (d := { d with pos := at_.toNat })
        (bs := h.block (Gpt.crc32 (slice d.data st.toNat ln.toNat)) lb) (by rw [Header.block_length]; rw [e3']; exact h4)))
      (Cuts.pure (ε := HeaderError) (Gpt.crc32 (slice d.data st.toNat ln.toNat)) _)
    rw [List.append_nil] at this
    exact this

namespace GptDisk

theorem onDev_cuts {ε ε' α : Type} {plan : List Write} {x : M Dev ε α} {s : GptDisk} {a : α} {d' : Dev} (g : ε → ε')
    (h : Cuts devLens plan x s.device a d') : Cuts diskLens plan (onDev g x) s a { s with device := d' } := by
  have h := Cuts.mapErr g h
  obtain ⟨n, hn⟩ := h.run
  refine ⟨⟨n, fun fs => ?_⟩, fun ws hws => ?_, h.data, h.cap⟩
  · unfold onDev
    rw [M.zoom_apply]
    have := hn fs
    unfold devLens at this
    simp only at this
    simp only [diskLens]
    rw [this]
  · rcases h.cut ws hws with h | ⟨fs, e, h2, h3⟩
    · exact .inl h
    · exact .inr ⟨fs, e, h2, h3⟩

/-- A header method whose device calls are those of `devHeader`. -/
theorem onHeader_cuts {h : Header} {lba : UInt64} {lb : LbSize} {s : GptDisk} (hs : h.signature.length = 8)
    (h1 : h.arrayStart lb < 2 ^ 64) (h0 : h.arrayLen < 2 ^ 63)
    (h2 : h.arrayStart lb + h.arrayLen ≤ s.device.data.length) (h3 : lba.toNat * lb.usize < 2 ^ 64)
    (h4 : lba.toNat * lb.usize + lb.usize ≤ s.device.cap) (put : Header → GptDisk → GptDisk)
    (hput : ∀ h s, (put h s).device = s.device) (hcomm : ∀ h s d, { put h s with device := d } = put h { s with device := d })
    (y : M GptDisk GptError Unit) (hy : ∀ s, y s = (match (Header.fileWriteHeader lba lb (h, s.device)).1 with
      | .ok _ => .ok ()
      | .err e => .err (.header e)
      | .panic => .panic, put (Header.fileWriteHeader lba lb (h, s.device)).2.1
        { s with device := (Header.fileWriteHeader lba lb (h, s.device)).2.2 })) :
    ∃ s', Cuts diskLens [(lba.toNat * lb.usize, h.block (Gpt.crc32 (slice s.device.data (h.arrayStart lb) h.arrayLen)) lb)]
      y s () s' := by
  obtain ⟨c, d', hd⟩ := devHeader_cuts (d := s.device) h1 h0 h2 h3 h4
  obtain ⟨n, hn⟩ := hd.run
  refine ⟨put { h with crc32Parts := c, crc32 := Gpt.crc32 (h.fieldBytes c) } { s with device := d' },
    ⟨n, fun fs => ?_⟩, fun ws hws => ?_, ?_, ?_⟩
  · obtain ⟨f1, f2, f3⟩ := fileWriteHeader_dev hs lba lb { s.device with faults := after n fs }
    have hn := hn fs
    simp only [devLens] at hn
    rw [hn] at f1 f2 f3
    obtain ⟨f4, f5⟩ := f3 c rfl
    rw [hy]
    simp only [diskLens]
    rw [f4, f5, f1]
    simp only
    rw [hcomm, hput]
  · rcases hd.cut ws hws with h | ⟨fs, e, c2, c3⟩
    · exact .inl h
    · right
      refine ⟨fs, .header e, ?_⟩
      obtain ⟨f1, f2, f3⟩ := fileWriteHeader_dev hs lba lb { s.device with faults := fs }
      rw [hy]
      simp only [diskLens, devLens, id] at c2 c3 ⊢
      rw [f2 e c2, hput, f1]
      exact ⟨rfl, c3⟩
  · have := hd.data
    simp only [diskLens]
    rw [hput]; exact this
  · have := hd.cap
    simp only [diskLens]
    rw [hput]; exact this

theorem onPrimary_cuts {h : Header} {lb : LbSize} {s : GptDisk} (hs : h.signature.length = 8)
    (h1 : h.arrayStart lb < 2 ^ 64) (h0 : h.arrayLen < 2 ^ 63)
    (h2 : h.arrayStart lb + h.arrayLen ≤ s.device.data.length) (h3 : h.currentLba.toNat * lb.usize < 2 ^ 64)
    (h4 : h.currentLba.toNat * lb.usize + lb.usize ≤ s.device.cap) (hlt : h.currentLba < h.backupLba) :
    ∃ s', Cuts diskLens [headerW lb h s.device.data] (onPrimary h (Header.writePrimary lb)) s () s' := by
  refine onHeader_cuts hs h1 h0 h2 h3 h4 (fun h s => { s with primaryHeader := .ok h }) (fun _ _ => rfl) (fun _ _ _ => rfl) _
    fun t => ?_
  have : Header.writePrimary lb (h, t.device) = Header.fileWriteHeader h.currentLba lb (h, t.device) := by
    unfold Header.writePrimary
    rw [M.bind_apply, M.get_apply]
    simp only
    rw [if_neg (by rw [ge_iff_le, UInt64.le_iff_toNat_le]; rw [UInt64.lt_iff_toNat_lt] at hlt; omega)]
  unfold onPrimary
  rw [this]
  rfl

theorem onBackup_cuts {h : Header} {lb : LbSize} {s : GptDisk} (hs : h.signature.length = 8)
    (h1 : h.arrayStart lb < 2 ^ 64) (h0 : h.arrayLen < 2 ^ 63)
    (h2 : h.arrayStart lb + h.arrayLen ≤ s.device.data.length) (h3 : h.currentLba.toNat * lb.usize < 2 ^ 64)
    (h4 : h.currentLba.toNat * lb.usize + lb.usize ≤ s.device.cap) (hlt : h.backupLba < h.currentLba) :
    ∃ s', Cuts diskLens [headerW lb h s.device.data] (onBackup h (Header.writeBackup lb)) s () s' := by
  refine onHeader_cuts hs h1 h0 h2 h3 h4 (fun h s => { s with backupHeader := .ok h }) (fun _ _ => rfl) (fun _ _ _ => rfl) _
    fun t => ?_
  have : Header.writeBackup lb (h, t.device) = Header.fileWriteHeader h.currentLba lb (h, t.device) := by
    unfold Header.writeBackup
    rw [M.bind_apply, M.get_apply]
    simp only
    rw [if_neg (by rw [UInt64.le_iff_toNat_le]; rw [UInt64.lt_iff_toNat_lt] at hlt; omega)]
  unfold onBackup
  rw [this]
  rfl

theorem slot_below {h : Header} {lb : LbSize} {cap : Nat} (hb : Room h lb cap) {idx : Nat} (hi : idx < h.numParts.toNat) :
    h.partStart.toNat * lb.usize + idx * h.partSize.toNat + h.partSize.toNat ≤ cap := by
  have : (idx + 1) * h.partSize.toNat ≤ h.numParts.toNat * h.partSize.toNat := Nat.mul_le_mul_right _ hi
  rw [Nat.add_mul, Nat.one_mul] at this
  unfold Room Header.arrayStart Header.arrayLen at hb
  omega

theorem entry_cuts (m : Mode) (p : Partition) {h : Header} {lb : LbSize} {d : Dev} (hn : h.NoWrap lb) (hb : Room h lb d.cap)
    {idx : Nat} (hi : idx < h.numParts.toNat) : ∃ d', Cuts devLens [slotW lb h idx p]
      ((Partition.writeToDevice m p (UInt64.ofNat idx) h.partStart lb h.partSize).mapErr GptError.io) d () d' := by
  obtain ⟨h1, h2⟩ := slot_noWrap hn (idx := idx) (by omega)
  have h3 := slot_below hb hi
  obtain ⟨d', h⟩ := Partition.writeToDevice_cuts m p (d := d) h1 (by rw [h2]; exact h3)
  rw [h2] at h
  exact ⟨d', Cuts.mapErr _ h⟩

theorem writeEntries_cuts (m : Mode) {lb : LbSize} {ph : Header} {bh : Option Header} (hp : ph.NoWrap lb)
    (parts : List Partition) (idx next : Nat) (d : Dev) (hpb : Room ph lb d.cap)
    (hb : ∀ b, bh = some b → b.NoWrap lb ∧ Room b lb d.cap ∧ b.numParts = ph.numParts)
    (hroom : idx + parts.length ≤ ph.numParts.toNat) :
    ∃ d', Cuts devLens (entryPlan lb ph bh parts idx) (writeEntries m lb ph bh parts idx next) d
      (if parts = [] then next else idx + parts.length) d' := by
  induction parts generalizing idx next d with
  | nil => exact ⟨d, Cuts.pure _ _⟩
  | cons p ps ih =>
    rw [List.length_cons] at hroom
    obtain ⟨d1, c1⟩ := entry_cuts m p hp hpb (idx := idx) (by omega)
    have hcap1 : d1.cap = d.cap := c1.cap
    have fin : ∀ d2 : Dev, d2.cap = d.cap → ∃ d', Cuts devLens (entryPlan lb ph bh ps (idx + 1))
        (writeEntries m lb ph bh ps (idx + 1) (idx + 1)) d2 (if p :: ps = [] then next else idx + (p :: ps).length) d' := by
      intro d2 h2
      obtain ⟨d', h⟩ := ih (idx + 1) (idx + 1) d2 (by rw [h2]; exact hpb) (by rw [h2]; exact hb) (by omega)
      refine ⟨d', ?_⟩
      have e : (if ps = [] then idx + 1 else idx + 1 + ps.length) = (if p :: ps = [] then next else idx + (p :: ps).length) := by
        rw [if_neg (List.cons_ne_nil _ _), List.length_cons]
        split
        · rename_i h; subst h; rfl
        · omega
      rw [e] at h
      exact h
    unfold writeEntries
    rw [if_neg (by omega)]
    unfold entryPlan
    rw [List.append_assoc]
    cases bh with
    | none =>
      obtain ⟨d', h⟩ := fin d1 hcap1
      exact ⟨d', Cuts.bind c1 (by simpa [slotB] using h)⟩
    | some b =>
      obtain ⟨b1, b2, b3⟩ := hb b rfl
      have hib : ¬ idx ≥ b.numParts.toNat := by rw [b3]; omega
      by_cases hne : ph.partStart ≠ b.partStart
      · obtain ⟨d2, c2⟩ := entry_cuts m p (d := d1) b1 (by rw [hcap1]; exact b2) (idx := idx) (by omega)
        obtain ⟨d', h⟩ := fin d2 (by rw [← hcap1]; exact c2.cap)
        refine ⟨d', Cuts.bind c1 ?_⟩
        simp only [slotB]
        rw [if_pos hne, if_neg hib, if_pos hne]
        exact Cuts.bind c2 h
      · obtain ⟨d', h⟩ := fin d1 hcap1
        refine ⟨d', Cuts.bind c1 ?_⟩
        simp only [slotB]
        rw [if_neg hne, if_neg hib, if_neg hne]
        exact h

theorem writeZeros_cuts (m : Mode) {lb : LbSize} {h : Header} (hn : h.NoWrap lb) {next : Nat} (hx : next ≤ h.numParts.toNat)
    (h0 : h.arrayLen < 2 ^ 63) {d : Dev} (hb : Room h lb d.cap) : ∃ d', Cuts devLens [zeroW lb h next] (writeZeros m lb h next) d () d' := by
  obtain ⟨h1, h2⟩ := slot_noWrap hn hx
  have hlt := h.numParts.toNat_lt
  have hc : checkedSub64 h.numParts.toUInt64 (UInt64.ofNat next) = some (UInt64.ofNat (h.numParts.toNat - next)) := by
    rw [checkedSub64_some]
    rw [h2, UInt32.toNat_toUInt64, UInt64.toNat_ofNat', Nat.mod_eq_of_lt (by omega)]
    exact ⟨hx, rfl⟩
  have hk : (UInt64.ofNat (h.numParts.toNat - next)).toNat = h.numParts.toNat - next := ofNat64 (by omega)
  have hsum : next * h.partSize.toNat + (h.numParts.toNat - next) * h.partSize.toNat = h.numParts.toNat * h.partSize.toNat := by
    rw [← Nat.add_mul]; congr 1; omega
  unfold Room Header.arrayStart Header.arrayLen at hb
  unfold Header.NoWrap Header.arrayStart Header.arrayLen at hn
  unfold Header.arrayLen at h0
  unfold writeZeros
  rw [hc]
  obtain ⟨d', h⟩ := Partition.writeZeroEntries_cuts m (n := UInt64.ofNat (h.numParts.toNat - next)) (d := d) h1
    (by rw [hk]; omega) (by rw [h2, hk]; omega)
  rw [h2, hk] at h
  exact ⟨d', Cuts.mapErr _ h⟩

theorem writeRest_cuts (m : Mode) {lb : LbSize} {ph : Header} {bh : Option Header} (parts : List Partition) (sync : Bool)
    (s : GptDisk) (hp : Good ph lb s.device) (hlt : ph.currentLba < ph.backupLba)
    (hb : ∀ b, bh = some b → Good b lb s.device ∧ b.backupLba < b.currentLba ∧ b.numParts = ph.numParts)
    (hroom : parts.length ≤ ph.numParts.toNat) :
    ∃ s', Cuts diskLens (writePlan lb ph bh parts s.device.data) (writeRest m lb ph bh parts sync) s () s' := by
  have keep : ∀ {plan : List Write} {α : Type} {x : M GptDisk GptError α} {s1 s2 : GptDisk} {a : α} {h : Header},
      Cuts diskLens plan x s1 a s2 → Good h lb s1.device → Good h lb s2.device := by
    intro plan α x s1 s2 a h hc hg
    have hd : s2.device.data = applyWrites s1.device.data plan := hc.data
    exact hg.step hc.cap (by rw [hd]; exact length_applyWrites _ _)
  have htail : ∀ s1 : GptDisk, Good ph lb s1.device → ∃ s', Cuts diskLens [headerW lb ph s1.device.data] (do
      onPrimary ph (Header.writePrimary lb)
      onDev GptError.io Dev.flush
      if sync = true then onDev GptError.io Dev.syncAll else pure () : M GptDisk GptError Unit) s1 () s' := by
    intro s1 hg
    obtain ⟨s2, c2⟩ := onPrimary_cuts hg.sig (by have := hg.noWrap; unfold Header.NoWrap at this; omega) hg.small hg.stored hg.start hg.block hlt
    have c3 := onDev_cuts (s := s2) GptError.io (Dev.flush_cuts s2.device)
    cases sync with
    | true =>
      have c4 := onDev_cuts (s := { s2 with device := { s2.device with log := s2.device.log ++ [.flush] } }) GptError.io (Dev.syncAll_cuts _)
      have := Cuts.bind c2 (f := fun _ => (do onDev GptError.io Dev.flush; if true = true then onDev GptError.io Dev.syncAll else pure () : M GptDisk GptError Unit))
        (Cuts.bind_nil c3 (by rw [if_pos rfl]; exact c4))
      rw [List.append_nil] at this
      exact ⟨_, this⟩
    | false =>
      have := Cuts.bind c2 (f := fun _ => (do onDev GptError.io Dev.flush; if false = true then onDev GptError.io Dev.syncAll else pure () : M GptDisk GptError Unit))
        (Cuts.bind_nil c3 (by rw [if_neg (by simp)]; exact Cuts.pure _ _))
      rw [List.append_nil] at this
      exact ⟨_, this⟩
  obtain ⟨d1, c1⟩ := writeEntries_cuts m hp.noWrap parts 0 0 s.device hp.room
    (fun b h => ⟨(hb b h).1.noWrap, (hb b h).1.room, (hb b h).2.2⟩) (by omega)
  have c1 := onDev_cuts (s := s) id c1
  have hnext : (if parts = [] then 0 else 0 + parts.length) = parts.length := by
    split
    · rename_i h; subst h; rfl
    · omega
  rw [hnext] at c1
  have g1 := keep c1 hp
  obtain ⟨d2, c2⟩ := writeZeros_cuts m hp.noWrap hroom hp.small (d := d1) g1.room
  have c2 := onDev_cuts (s := { s with device := d1 }) id c2
  have g2 := keep c2 g1
  have e1 : d1.data = applyWrites s.device.data (entryPlan lb ph bh parts 0) := c1.data
  have e2 : d2.data = applyWrites d1.data [zeroW lb ph parts.length] := c2.data
  unfold writeRest writePlan
  rw [List.append_assoc]
  unfold arrayPlan
  rw [List.append_assoc, List.append_assoc, List.append_assoc]
  cases bh with
  | none =>
    obtain ⟨s3, c3⟩ := htail _ g2
    refine ⟨s3, Cuts.bind c1 (Cuts.bind c2 ?_)⟩
    simp only at c3
    rw [e2, e1, ← applyWrites_append] at c3
    simpa [backupW] using c3
  | some b =>
    obtain ⟨hb1, hb2, hb3⟩ := hb b rfl
    have gb2 := keep c2 (keep c1 hb1)
    obtain ⟨d3, c3⟩ := writeZeros_cuts m hb1.noWrap (next := parts.length) (by rw [hb3]; exact hroom) hb1.small (d := d2) gb2.room
    have c3 := onDev_cuts (s := { s with device := d2 }) id c3
    have gb3 := keep c3 gb2
    have e3 : d3.data = applyWrites d2.data [zeroW lb b parts.length] := c3.data
    obtain ⟨s4, c4⟩ := onBackup_cuts (s := { s with device := d3 }) gb3.sig
      (by have := gb3.noWrap; unfold Header.NoWrap at this; omega) gb3.small gb3.stored gb3.start gb3.block hb2
    have g4 := keep c4 (keep c3 g2)
    obtain ⟨s5, c5⟩ := htail _ g4
    have e4 : s4.device.data = applyWrites d3.data [headerW lb b d3.data] := c4.data
    refine ⟨s5, Cuts.bind c1 (Cuts.bind c2 (Cuts.bind (p := (some b).toList.map (zeroW lb · parts.length)) c3 ?_))⟩
    have e5 : d3.data = applyWrites s.device.data (entryPlan lb ph (some b) parts 0 ++ ([zeroW lb ph parts.length] ++
        (some b).toList.map (zeroW lb · parts.length))) := by
      rw [e3, e2, e1, ← applyWrites_append, ← applyWrites_append]; rfl
    have e6 : s4.device.data = applyWrites s.device.data (entryPlan lb ph (some b) parts 0 ++ ([zeroW lb ph parts.length] ++
        (some b).toList.map (zeroW lb · parts.length)) ++ backupW lb (some b) d3.data) := by
      rw [applyWrites_append, ← e5]; exact e4
    rw [← e5, ← e6]
    exact Cuts.bind (p := backupW lb (some b) d3.data) c4 c5

theorem findBackupLba_cuts {lb : LbSize} {d : Dev} (hlen : d.data.length < 2 ^ 64) (h : 3 * lb.usize ≤ d.data.length) :
    ∃ v, Cuts devLens [] (findBackupLba lb) d v { d with pos := (UInt64.ofNat d.pos).toNat } := by
  unfold findBackupLba
  refine ⟨(UInt64.ofNat d.data.length - lb.u64) / lb.u64, ?_⟩
  refine Cuts.bind_nil (Cuts.mapErr _ (Dev.streamPosition_cuts d)) ?_
  refine Cuts.bind_nil (Cuts.mapErr _ (Dev.seekEnd_cuts d)) ?_
  refine Cuts.bind_nil (Cuts.mapErr _ (Dev.seekStart_cuts _ _)) ?_
  rw [if_neg ?_]
  · exact Cuts.pure _ _
  · rw [UInt64.lt_iff_toNat_lt, ofNat64 hlen]
    have : (lb.u64 * 3).toNat = 3 * lb.usize := by cases lb <;> rfl
    omega

/-- The fault-free hypotheses of a header of a sane disk. -/
theorem good_sane {s : GptDisk} {h : Header} {k B : Nat} (hs : SaneDisk s h k B)
    (hcap : (B + 1) * s.config.lbSize.usize ≤ s.device.cap) {d : Dev} (hd : d.data = s.device.data) (hc : d.cap = s.device.cap) :
    Good (rebuiltP k B h) s.config.lbSize d ∧ (rebuiltP k B h).currentLba < (rebuiltP k B h).backupLba ∧
    ∀ b, bakOf s.config k B h = some b → Good b s.config.lbSize d ∧ b.backupLba < b.currentLba ∧
      b.numParts = (rebuiltP k B h).numParts := by
  have g := geo_sane hs.sane hs.fits s.config
  obtain ⟨hB, hkB⟩ := sane_bounds hs.sane
  have hpos := lb_pos s.config.lbSize
  have s1 := g.sep
  have s2 := g.sepB
  have s3 := g.fits
  have hlen := hs.length
  have hcap' : B * s.config.lbSize.usize + s.config.lbSize.usize ≤ s.device.cap := by
    rw [Nat.add_mul, Nat.one_mul] at hcap; exact hcap
  have e1 : (1 : UInt64).toNat = 1 := rfl
  have goodOf : ∀ (h' : Header) (o c : Nat), h'.signature = efiPart → h'.partSize = 128 → h'.arrayStart s.config.lbSize = o →
      h'.numParts = h.numParts → h'.currentLba.toNat * s.config.lbSize.usize = c →
      o + h.numParts.toNat * 128 ≤ B * s.config.lbSize.usize → c ≤ B * s.config.lbSize.usize →
      Good h' s.config.lbSize d := by
    intro h' o c a1 a2 a3 a4 a5 a6 a7
    have hal : h'.arrayLen = h.numParts.toNat * 128 := by unfold Header.arrayLen; rw [a2, a4]; rfl
    refine ⟨by rw [a1]; rfl, ?_, ?_, ?_, ?_, ?_, by rw [hal]; have := h.numParts.toNat_lt; omega⟩
    · unfold Header.NoWrap; rw [hal, a3]; omega
    · unfold Room; rw [hal, a3]; omega
    · rw [hal, a3, hd]; omega
    · rw [a5]; omega
    · rw [a5]; omega
  have hnp : (rebuiltP k B h).numParts = h.numParts := rfl
  rw [hnp] at s1 s2
  refine ⟨goodOf _ _ _ rfl rfl g.start rfl g.cur (by omega) (by omega), ?_, ?_⟩
  · rw [UInt64.lt_iff_toNat_lt]
    show (1 : UInt64).toNat < (UInt64.ofNat B).toNat
    rw [ofNat64 hB, e1]; omega
  · intro b hb
    obtain ⟨b1, b2, b3, b4, b5, b6, b7⟩ := g.bak b hb
    refine ⟨goodOf b _ _ b1 b3 b6 b4 b5 s2 (Nat.le_refl _), ?_, b4⟩
    unfold bakOf at hb
    split at hb
    · simp at hb
    · simp only [Option.some.injEq] at hb
      subst hb
      rw [UInt64.lt_iff_toNat_lt]
      show (1 : UInt64).toNat < (UInt64.ofNat B).toNat
      rw [ofNat64 hB, e1]; omega

/-- Another fault list does not matter to saneness. -/
theorem sane_faults {s : GptDisk} {h : Header} {k B : Nat} (hs : SaneDisk s h k B) (fs : List Fault) :
    SaneDisk { s with device := { s.device with faults := fs } } h k B :=
  ⟨hs.header, hs.sane, hs.fits, hs.length⟩

/-- Every torn prefix of the plan is what some failing run of `write_inplace` leaves behind. -/
theorem write_cut (m : Mode) {s : GptDisk} {h : Header} {k B : Nat} (hs : SaneDisk s h k B) (hw : s.config.writable = true)
    (hroom : (Spec.used s.partitions).length ≤ h.numParts.toNat)
    (hcap : (B + 1) * s.config.lbSize.usize ≤ s.device.cap) {ws : List Write}
    (ht : Torn ws (planOf s h k B (Spec.used s.partitions))) :
    ∃ fs e s', writeInplace m { s with device := { s.device with faults := fs } } = (.err e, s') ∧
      s'.device.data = applyWrites s.device.data ws := by
  obtain ⟨hB, hkB⟩ := sane_bounds hs.sane
  have hlen3 : 3 * s.config.lbSize.usize ≤ s.device.data.length :=
    (Nat.mul_le_mul_right _ (by omega)).trans hs.fits
  have g := geo_sane hs.sane hs.fits s.config
  obtain ⟨v, c0⟩ := findBackupLba_cuts hs.length hlen3
  obtain ⟨n, hn⟩ := c0.run
  simp only [devLens] at hn
  obtain ⟨t1, t2, t3⟩ := good_sane hs hcap (d := { s.device with pos := (UInt64.ofNat s.device.pos).toNat }) rfl rfl
  let s1 : GptDisk := { s with device := { s.device with pos := (UInt64.ofNat s.device.pos).toNat }, primaryHeader := .ok (rebuiltP k B h), backupHeader := if s.config.readonlyBackup then s.backupHeader else .ok (rebuiltB k B h) }
  obtain ⟨s2, c1⟩ := writeRest_cuts m (Spec.used s.partitions) s.syncAll s1 t1 t2 t3 hroom
  have hdat : s1.device.data = s.device.data := rfl
  rw [hdat, writePlan_eq g hroom rfl] at c1
  have hrun : ∀ fs, writeInplace m { s with device := { s.device with faults := after n fs } } =
      writeRest m s.config.lbSize (rebuiltP k B h) (bakOf s.config k B h) (Spec.used s.partitions) s.syncAll
        (diskLens.with_ fs s1) := by
    intro fs
    rw [writeInplace_sane m (sane_faults hs _)]
    simp only
    rw [if_neg (by simp [hw]), hn fs]
    rfl
  rcases c1.cut ws ht with h | ⟨fs, e, h1, h2⟩
  · have h : applyWrites s.device.data ws = s.device.data := h
    refine ⟨[.fail 0], .header (.io .device), { s with device := { s.device with faults := [] } }, ?_, h.symm⟩
    rw [writeInplace_sane m (sane_faults hs _)]
    simp only
    rw [if_neg (by simp [hw])]
    rfl
  · rcases hr : writeRest m s.config.lbSize (rebuiltP k B h) (bakOf s.config k B h) (Spec.used s.partitions) s.syncAll
        (diskLens.with_ fs s1) with ⟨r, s3⟩
    rw [hr] at h1 h2
    simp only at h1 h2
    subst h1
    exact ⟨after n fs, e, s3, by rw [hrun, hr], h2⟩

end GptDisk

end Gpt
