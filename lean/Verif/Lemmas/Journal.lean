import Verif.Lemmas.Header
/-!
# What a sequence of writes leaves on the medium

`Follows π ws x s`: in every outcome, the calls `x` makes on the device `π s` amount to a prefix of the writes `ws`, the last
of them possibly torn; and to all of them if `x` succeeds.
-/

namespace Gpt

/-- A write: byte offset and bytes. -/
abbrev Write := Nat × Bytes

/-- `b` written over `data` at `o`; an empty write does nothing. -/
def patchW (data : Bytes) (w : Write) : Bytes := if w.2 = [] then data else patch data w.1 w.2

/-- All writes, in order. -/
def applyWrites (data : Bytes) (ws : List Write) : Bytes := ws.foldl patchW data

/-- `ws` is a prefix of `plan` whose last element may have been cut short. -/
inductive Torn : List Write → List Write → Prop
  | nil (plan) : Torn [] plan
  | part (o b k plan) : Torn [(o, b.take k)] ((o, b) :: plan)
  | cons (w) {ws plan} : Torn ws plan → Torn (w :: ws) (w :: plan)

theorem Torn.self : ∀ ws, Torn ws ws
  | [] => .nil _
  | w :: ws => .cons w (Torn.self ws)

theorem Torn.append_left {ws plan : List Write} (h : Torn ws plan) (rest : List Write) : Torn ws (plan ++ rest) := by
  induction h with
  | nil => exact .nil _
  | part o b k plan => exact .part ..
  | cons w _ ih => exact .cons w ih

theorem Torn.append_right {ws plan : List Write} (pre : List Write) (h : Torn ws plan) : Torn (pre ++ ws) (pre ++ plan) := by
  induction pre with
  | nil => exact h
  | cons w pre ih => exact .cons w ih

/-- Either the writes stopped within `a`, or all of `a` was done. -/
theorem Torn.split {ws a b : List Write} (h : Torn ws (a ++ b)) : Torn ws a ∨ ∃ ws', ws = a ++ ws' ∧ Torn ws' b := by
  induction a generalizing ws with
  | nil => exact .inr ⟨ws, rfl, h⟩
  | cons w a ih =>
    cases h with
    | nil => exact .inl (.nil _)
    | part o b k plan => exact .inl (.part ..)
    | cons w h =>
      rcases ih h with h' | ⟨ws', rfl, h'⟩
      · exact .inl (.cons w h')
      · exact .inr ⟨ws', rfl, h'⟩

theorem applyWrites_append (data : Bytes) (a b : List Write) : applyWrites data (a ++ b) = applyWrites (applyWrites data a) b :=
  List.foldl_append

@[simp] theorem applyWrites_nil (data : Bytes) : applyWrites data [] = data := rfl
@[simp] theorem applyWrites_cons (data : Bytes) (w : Write) (ws : List Write) :
    applyWrites data (w :: ws) = applyWrites (patchW data w) ws := rfl

theorem byteAt_patchW (data : Bytes) (w : Write) (i : Nat) :
    byteAt (patchW data w) i = if w.1 ≤ i ∧ i < w.1 + w.2.length then byteAt w.2 (i - w.1) else byteAt data i := by
  unfold patchW
  split
  · rename_i h
    rw [h, if_neg (by simp)]
  · rw [byteAt_patch]

theorem length_patchW (data : Bytes) (w : Write) : data.length ≤ (patchW data w).length := by
  unfold patchW
  split
  · exact Nat.le_refl _
  · rw [patch_length]; omega

theorem length_patchW_eq {data : Bytes} {w : Write} (h : w.1 + w.2.length ≤ data.length) :
    (patchW data w).length = data.length := by
  unfold patchW
  split
  · rfl
  · rw [patch_length]; omega

theorem length_patchW_ge {data : Bytes} {w : Write} (h : w.2 ≠ []) : w.1 + w.2.length ≤ (patchW data w).length := by
  unfold patchW
  rw [if_neg h, patch_length]; omega

theorem length_applyWrites (data : Bytes) (ws : List Write) : data.length ≤ (applyWrites data ws).length := by
  induction ws generalizing data with
  | nil => exact Nat.le_refl _
  | cons w ws ih => exact (length_patchW data w).trans (ih _)

/-- The position is covered by the write. -/
def Write.Covers (w : Write) (i : Nat) : Prop := w.1 ≤ i ∧ i < w.1 + w.2.length

/-- Torn writes cover no more than the plan. -/
theorem Torn.covers {ws plan : List Write} (h : Torn ws plan) {w : Write} (hw : w ∈ ws) {i : Nat} (hc : w.Covers i) :
    ∃ p ∈ plan, p.Covers i ∧ byteAt w.2 (i - w.1) = byteAt p.2 (i - p.1) := by
  induction h with
  | nil => simp at hw
  | part o b k plan =>
    simp only [List.mem_singleton] at hw
    subst hw
    obtain ⟨h1, h2⟩ := hc
    simp only [List.length_take] at h1 h2
    refine ⟨(o, b), List.mem_cons_self, ⟨h1, by simp only; omega⟩, ?_⟩
    simp only
    unfold byteAt
    rw [List.getElem?_take, if_pos (by omega)]
  | cons w' _ ih =>
    rcases List.mem_cons.mp hw with rfl | hw
    · exact ⟨w, List.mem_cons_self, hc, rfl⟩
    · obtain ⟨p, h1, h2⟩ := ih hw
      exact ⟨p, List.mem_cons_of_mem _ h1, h2⟩

theorem byteAt_applyWrites_outside {data : Bytes} {ws : List Write} {i : Nat} (h : ∀ w ∈ ws, ¬ w.Covers i) :
    byteAt (applyWrites data ws) i = byteAt data i := by
  induction ws generalizing data with
  | nil => rfl
  | cons w ws ih =>
    rw [applyWrites_cons, ih (fun w' hw' => h w' (List.mem_cons_of_mem _ hw')), byteAt_patchW]
    exact if_neg (h w List.mem_cons_self)

/-- If all writes that cover `i` put the same byte there, then that is the result. -/
theorem byteAt_applyWrites_inside {data : Bytes} {ws : List Write} {i : Nat} {x : UInt8}
    (h : ∀ w ∈ ws, w.Covers i → byteAt w.2 (i - w.1) = x) (hc : (∃ w ∈ ws, w.Covers i) ∨ byteAt data i = x) :
    byteAt (applyWrites data ws) i = x := by
  induction ws generalizing data with
  | nil =>
    rcases hc with ⟨w, hw, _⟩ | hc
    · simp at hw
    · exact hc
  | cons w ws ih =>
    rw [applyWrites_cons]
    apply ih (fun w' hw' => h w' (List.mem_cons_of_mem _ hw'))
    by_cases hw : w.Covers i
    · right
      rw [byteAt_patchW]
      unfold Write.Covers at hw
      rw [if_pos hw]
      exact h w List.mem_cons_self hw
    · rcases hc with ⟨w', hw', hc'⟩ | hc
      · rcases List.mem_cons.mp hw' with rfl | hw'
        · exact absurd hc' hw
        · exact .inl ⟨w', hw', hc'⟩
      · right
        rw [byteAt_patchW]
        unfold Write.Covers at hw
        rw [if_neg hw]
        exact hc

/-- In every outcome a byte is the old one or one the plan puts there. -/
theorem Torn.byteAt {ws plan : List Write} (h : Torn ws plan) (data : Bytes) (i : Nat) :
    byteAt (applyWrites data ws) i = byteAt data i ∨
    ∃ p ∈ plan, p.Covers i ∧ byteAt (applyWrites data ws) i = Gpt.byteAt p.2 (i - p.1) := by
  induction h generalizing data with
  | nil => exact .inl rfl
  | part o b k plan =>
    rw [applyWrites_cons, applyWrites_nil, byteAt_patchW]
    split
    · rename_i hc
      right
      obtain ⟨p, h1, h2, h3⟩ := (Torn.part o b k plan).covers (w := (o, b.take k)) (by simp) hc
      exact ⟨p, h1, h2, h3⟩
    · exact .inl rfl
  | cons w _ ih =>
    rw [applyWrites_cons]
    rcases ih (patchW data w) with h | ⟨p, h1, h2, h3⟩
    · rw [byteAt_patchW] at h
      split at h
      · rename_i hc
        exact .inr ⟨w, List.mem_cons_self, hc, h⟩
      · exact .inl h
    · exact .inr ⟨p, List.mem_cons_of_mem _ h1, h2, h3⟩

/-- Writes inside the device do not change its length. -/
theorem Torn.length {ws plan : List Write} (h : Torn ws plan) {data : Bytes}
    (hfit : ∀ p ∈ plan, p.1 + p.2.length ≤ data.length) : (applyWrites data ws).length = data.length := by
  induction h generalizing data with
  | nil => rfl
  | part o b k plan =>
    have := hfit (o, b) List.mem_cons_self
    rw [applyWrites_cons, applyWrites_nil]
    exact length_patchW_eq (by simp only [List.length_take] at *; omega)
  | cons w _ ih =>
    have hw := length_patchW_eq (hfit w List.mem_cons_self)
    rw [applyWrites_cons, ih (fun p hp => by rw [hw]; exact hfit p (List.mem_cons_of_mem _ hp)), hw]

/-! ## Programs that follow a plan -/

/-- See the head of the file. -/
structure Follows {σ ε α : Type} (π : σ → Dev) (plan : List Write) (x : M σ ε α) (s : σ) : Prop where
  writes : ∃ ws, Torn ws plan ∧ (π (x s).2).data = applyWrites (π s).data ws ∧ (∀ a, (x s).1 = .ok a → ws = plan)
  cap : (π (x s).2).cap = (π s).cap
  faults : (π s).faults = [] → (π (x s).2).faults = []

section
variable {σ τ ε ε' α β : Type} {π : σ → Dev}

theorem Follows.ok {plan : List Write} {x : M σ ε α} {s s' : σ} {a : α} (h : Follows π plan x s) (hx : x s = (.ok a, s')) :
    (π s').data = applyWrites (π s).data plan := by
  obtain ⟨ws, _, h2, h3⟩ := h.writes
  rw [hx] at h2 h3
  rw [h2, h3 a rfl]

theorem Follows.bind {a b : List Write} {x : M σ ε α} {f : α → M σ ε β} {s : σ} (hx : Follows π a x s)
    (hf : ∀ v s', x s = (.ok v, s') → (π s').data = applyWrites (π s).data a → Follows π b (f v) s') :
    Follows π (a ++ b) (x >>= f) s := by
  obtain ⟨ws, h1, h2, h3⟩ := hx.writes
  have hcap := hx.cap
  have hflt := hx.faults
  rcases hr : x s with ⟨r, s'⟩
  rw [hr] at h2 h3 hcap hflt
  cases r with
  | ok v =>
    have e : ws = a := h3 v rfl
    subst e
    have hf := hf v s' hr h2
    obtain ⟨ws', g1, g2, g3⟩ := hf.writes
    have hb : (x >>= f) s = f v s' := by rw [M.bind_apply, hr]
    refine ⟨⟨ws ++ ws', g1.append_right _, ?_, ?_⟩, ?_, ?_⟩
    · rw [hb, g2, h2, applyWrites_append]
    · intro c hc
      rw [hb] at hc
      rw [g3 c hc]
    · rw [hb, hf.cap]; exact hcap
    · rw [hb]; exact fun h => hf.faults (hflt h)
  | err e =>
    have hb : (x >>= f) s = (.err e, s') := by rw [M.bind_apply, hr]
    exact ⟨⟨ws, h1.append_left _, by rw [hb]; exact h2, by rw [hb]; simp⟩, by rw [hb]; exact hcap, by rw [hb]; exact hflt⟩
  | panic =>
    have hb : (x >>= f) s = (.panic, s') := by rw [M.bind_apply, hr]
    exact ⟨⟨ws, h1.append_left _, by rw [hb]; exact h2, by rw [hb]; simp⟩, by rw [hb]; exact hcap, by rw [hb]; exact hflt⟩

/-- Nothing is written by a quiet call. -/
theorem Follows.quiet {x : M σ ε α} {s : σ} (h : Dev.Quiet (π s) (π (x s).2)) : Follows π [] x s :=
  ⟨⟨[], .nil _, h.data, fun _ _ => rfl⟩, h.cap, h.faults⟩

/-- A call that does nothing to the device and does not succeed follows every plan. -/
theorem Follows.stop {plan : List Write} {x : M σ ε α} {s : σ} (h : Dev.Quiet (π s) (π (x s).2)) (hn : ∀ a, (x s).1 ≠ .ok a) :
    Follows π plan x s :=
  ⟨⟨[], .nil _, h.data, fun a ha => absurd ha (hn a)⟩, h.cap, h.faults⟩

theorem Follows.pure (a : α) (s : σ) : Follows π [] (Pure.pure a : M σ ε α) s := .quiet (.refl _)

theorem Follows.throw {plan : List Write} (e : ε) (s : σ) : Follows π plan (M.throw e : M σ ε α) s :=
  .stop (.refl _) (by simp)

theorem Follows.panic {plan : List Write} (s : σ) : Follows π plan (M.panic : M σ ε α) s :=
  .stop (.refl _) (by simp)

theorem Follows.lift (r : Res ε α) (s : σ) : Follows π [] (M.lift r : M σ ε α) s := .quiet (.refl _)

theorem Follows.get (s : σ) : Follows π [] (M.get : M σ ε σ) s := .quiet (.refl _)

theorem Follows.mapErr {plan : List Write} {x : M σ ε α} {s : σ} (g : ε → ε') (h : Follows π plan x s) :
    Follows π plan (x.mapErr g) s := by
  obtain ⟨ws, h1, h2, h3⟩ := h.writes
  refine ⟨⟨ws, h1, h2, fun a ha => h3 a ?_⟩, h.cap, h.faults⟩
  simpa using ha

/-- Bind after a step that writes nothing. -/
theorem Follows.bind_nil {b : List Write} {x : M σ ε α} {f : α → M σ ε β} {s : σ} (hx : Follows π [] x s)
    (hf : ∀ v s', x s = (.ok v, s') → (π s').data = (π s).data → Follows π b (f v) s') : Follows π b (x >>= f) s := by
  have := Follows.bind (a := []) hx (b := b) (f := f) (fun v s' h1 h2 => hf v s' h1 h2)
  simpa using this

theorem Follows.zoom {plan : List Write} {proj : σ → Dev} {put : Dev → σ → σ} {x : M Dev ε α} {s : σ}
    (hput : ∀ d s, proj (put d s) = d) (h : Follows id plan x (proj s)) : Follows proj plan (M.zoom proj put x) s := by
  obtain ⟨ws, h1, h2, h3⟩ := h.writes
  have h4 := h.cap
  have h5 := h.faults
  simp only [id_eq] at h2 h4 h5
  refine ⟨⟨ws, h1, ?_, ?_⟩, ?_, ?_⟩
  · rw [M.zoom_apply]; simp only; rw [hput, h2]
  · intro a ha
    rw [M.zoom_apply] at ha
    exact h3 a ha
  · rw [M.zoom_apply]; simp only; rw [hput, h4]
  · rw [M.zoom_apply]; simp only; rw [hput]; exact h5

end

theorem Dev.put_eq_patchW (d : Dev) (bs : Bytes) : (d.put bs).data = patchW d.data (d.pos, bs) := Dev.put_data d bs

theorem Dev.writeAll_follows (bs : Bytes) (d : Dev) : Follows id [(d.pos, bs)] (Dev.writeAll bs) d := by
  obtain ⟨k, hk, h1, h2, _, h4, h5⟩ := Dev.writeAll_any bs d
  refine ⟨⟨[(d.pos, bs.take k)], .part .., ?_, ?_⟩, h2, h4⟩
  · simp only [id_eq, applyWrites_cons, applyWrites_nil]
    rw [h1, Dev.put_eq_patchW]
  · intro a ha
    rw [h5 ha, List.take_length]

theorem Dev.seekStart_follows (n : UInt64) (d : Dev) : Follows id [] (Dev.seekStart n) d := .quiet (Dev.seekStart_quiet n d)
theorem Dev.flush_follows (d : Dev) : Follows id [] Dev.flush d := by
  refine ⟨⟨[], .nil _, ?_, fun _ _ => rfl⟩, ?_, fun h => ?_⟩ <;> unfold Dev.flush <;> simp only [id_eq] at * <;> split <;>
    first | rfl | exact Dev.tick_faults_nil h
theorem Dev.syncAll_follows (d : Dev) : Follows id [] Dev.syncAll d := by
  refine ⟨⟨[], .nil _, ?_, fun _ _ => rfl⟩, ?_, fun h => ?_⟩ <;> unfold Dev.syncAll <;> simp only [id_eq] at * <;> split <;>
    first | rfl | exact Dev.tick_faults_nil h

end Gpt
