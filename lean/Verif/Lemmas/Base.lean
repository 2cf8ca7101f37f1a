import Verif.Model.Base
import Mathlib.Tactic.Linarith
/-!
# Laws of `Res`, `M` and the machine arithmetic
-/

namespace Gpt

/-! ## `Res` -/
namespace Res
variable {ε ε' α β : Type}

@[simp] theorem pure_eq (a : α) : (Pure.pure a : Res ε α) = .ok a := rfl
@[simp] theorem ok_bind (a : α) (f : α → Res ε β) : (Res.ok a >>= f) = f a := rfl
@[simp] theorem err_bind (e : ε) (f : α → Res ε β) : (Res.err e >>= f) = .err e := rfl
@[simp] theorem panic_bind (f : α → Res ε β) : ((Res.panic : Res ε α) >>= f) = .panic := rfl

theorem bind_eq_ok {x : Res ε α} {f : α → Res ε β} {b : β} :
    (x >>= f) = .ok b ↔ ∃ a, x = .ok a ∧ f a = .ok b := by
  cases x <;> simp

theorem bind_eq_err {x : Res ε α} {f : α → Res ε β} {e : ε} :
    (x >>= f) = .err e ↔ x = .err e ∨ ∃ a, x = .ok a ∧ f a = .err e := by
  cases x <;> simp

theorem bind_eq_panic {x : Res ε α} {f : α → Res ε β} :
    (x >>= f) = .panic ↔ x = .panic ∨ ∃ a, x = .ok a ∧ f a = .panic := by
  cases x <;> simp

@[simp] theorem mapErr_ok (g : ε → ε') (a : α) : (Res.ok a : Res ε α).mapErr g = .ok a := rfl
@[simp] theorem mapErr_err (g : ε → ε') (e : ε) : (Res.err e : Res ε α).mapErr g = .err (g e) := rfl
@[simp] theorem mapErr_panic (g : ε → ε') : (Res.panic : Res ε α).mapErr g = .panic := rfl

@[simp] theorem mapErr_eq_ok {g : ε → ε'} {x : Res ε α} {a : α} : x.mapErr g = .ok a ↔ x = .ok a := by
  cases x <;> simp [mapErr]

@[simp] theorem mapErr_eq_panic {g : ε → ε'} {x : Res ε α} : x.mapErr g = .panic ↔ x = .panic := by
  cases x <;> simp [mapErr]

theorem mapErr_eq_err {g : ε → ε'} {x : Res ε α} {e : ε'} : x.mapErr g = .err e ↔ ∃ e0, x = .err e0 ∧ g e0 = e := by
  cases x <;> simp [mapErr]

@[simp] theorem ofOption_some (e : ε) (a : α) : ofOption e (some a) = .ok a := rfl
@[simp] theorem ofOption_none (e : ε) : (ofOption e none : Res ε α) = .err e := rfl

@[simp] theorem ofOption_eq_ok {e : ε} {o : Option α} {a : α} : ofOption e o = .ok a ↔ o = some a := by
  cases o <;> simp [ofOption]

@[simp] theorem ofOption_eq_err {e e' : ε} {o : Option α} : ofOption e o = .err e' ↔ o = none ∧ e = e' := by
  cases o <;> simp [ofOption]

@[simp] theorem ofOption_ne_panic {e : ε} {o : Option α} : ofOption e o ≠ .panic := by
  cases o <;> simp [ofOption]

end Res

/-! ## `M` -/
namespace M
variable {σ τ ε ε' α β : Type}

@[simp] theorem pure_apply (a : α) (s : σ) : (Pure.pure a : M σ ε α) s = (.ok a, s) := rfl

theorem bind_apply (x : M σ ε α) (f : α → M σ ε β) (s : σ) : (x >>= f) s = match x s with
    | (.ok a, s') => f a s'
    | (.err e, s') => (.err e, s')
    | (.panic, s') => (.panic, s') := rfl

@[simp] theorem throw_apply (e : ε) (s : σ) : (M.throw e : M σ ε α) s = (.err e, s) := rfl
@[simp] theorem panic_apply (s : σ) : (M.panic : M σ ε α) s = (.panic, s) := rfl
@[simp] theorem get_apply (s : σ) : (M.get : M σ ε σ) s = (.ok s, s) := rfl
@[simp] theorem modify_apply (f : σ → σ) (s : σ) : (M.modify f : M σ ε Unit) s = (.ok (), f s) := rfl
@[simp] theorem lift_apply (r : Res ε α) (s : σ) : (M.lift r : M σ ε α) s = (r, s) := rfl
@[simp] theorem mapErr_apply (g : ε → ε') (x : M σ ε α) (s : σ) : x.mapErr g s = ((x s).1.mapErr g, (x s).2) := rfl
@[simp] theorem zoom_apply (proj : σ → τ) (put : τ → σ → σ) (x : M τ ε α) (s : σ) :
    M.zoom proj put x s = ((x (proj s)).1, put (x (proj s)).2 s) := rfl

theorem attempt_apply (x : M σ ε α) (s : σ) : (x.attempt : M σ ε' (Except ε α)) s = match x s with
    | (.ok a, s') => (.ok (.ok a), s')
    | (.err e, s') => (.ok (.error e), s')
    | (.panic, s') => (.panic, s') := rfl

/-- Inversion of a successful sequence. -/
theorem bind_ok {x : M σ ε α} {f : α → M σ ε β} {s s' : σ} {b : β} :
    (x >>= f) s = (.ok b, s') ↔ ∃ a s1, x s = (.ok a, s1) ∧ f a s1 = (.ok b, s') := by
  rw [bind_apply]
  rcases h : x s with ⟨r, s1⟩
  cases r <;> simp

theorem lift_ok {r : Res ε α} {s s' : σ} {a : α} : (M.lift r : M σ ε α) s = (.ok a, s') ↔ r = .ok a ∧ s' = s := by
  simp [Prod.ext_iff, eq_comm]

theorem pure_ok {a b : α} {s s' : σ} : (Pure.pure a : M σ ε α) s = (.ok b, s') ↔ a = b ∧ s' = s := by
  simp [Prod.ext_iff, eq_comm]

theorem mapErr_ok {g : ε → ε'} {x : M σ ε α} {s s' : σ} {a : α} :
    x.mapErr g s = (.ok a, s') ↔ x s = (.ok a, s') := by
  simp [Prod.ext_iff]

theorem get_ok {s s' a : σ} : (M.get : M σ ε σ) s = (.ok a, s') ↔ a = s ∧ s' = s := by
  simp [Prod.ext_iff, eq_comm]

theorem modify_ok {f : σ → σ} {s s' : σ} {u : Unit} : (M.modify f : M σ ε Unit) s = (.ok u, s') ↔ s' = f s := by
  simp [Prod.ext_iff, eq_comm]

theorem throw_ok {e : ε} {s s' : σ} {a : α} : (M.throw e : M σ ε α) s = (.ok a, s') ↔ False := by
  simp [Prod.ext_iff]

theorem panic_ok {s s' : σ} {a : α} : (M.panic : M σ ε α) s = (.ok a, s') ↔ False := by
  simp [Prod.ext_iff]

theorem zoom_ok {proj : σ → τ} {put : τ → σ → σ} {x : M τ ε α} {s s' : σ} {a : α} :
    M.zoom proj put x s = (.ok a, s') ↔ ∃ t, x (proj s) = (.ok a, t) ∧ s' = put t s := by
  rw [zoom_apply]
  rcases h : x (proj s) with ⟨r, t⟩
  constructor
  · intro h'
    simp only [Prod.mk.injEq] at h'
    exact ⟨t, by rw [← h'.1], h'.2.symm⟩
  · rintro ⟨t', h1, h2⟩
    simp only [Prod.mk.injEq] at h1
    simp [h1, h2]

/-- How a computation may change the state, whatever its outcome. -/
def Pres (P : σ → σ → Prop) (x : M σ ε α) : Prop := ∀ s, P s (x s).2

/-- Properties `Pres` can be chained for. -/
structure Chain (P : σ → σ → Prop) : Prop where
  refl : ∀ s, P s s
  trans : ∀ a b c, P a b → P b c → P a c

theorem Pres.bind {P : σ → σ → Prop} (hP : Chain P) {x : M σ ε α} {f : α → M σ ε β}
    (hx : Pres P x) (hf : ∀ a, Pres P (f a)) : Pres P (x >>= f) := by
  intro s
  have h := hx s
  rw [bind_apply]
  rcases hxs : x s with ⟨r, s1⟩
  rw [hxs] at h
  cases r with
  | ok a => exact hP.trans _ _ _ h (hf a s1)
  | err e => exact h
  | panic => exact h

/-- `bind` where the continuation may use the result of the first part. -/
theorem Pres.bind' {P : σ → σ → Prop} (hP : Chain P) {x : M σ ε α} {f : α → M σ ε β} {s : σ}
    (hx : P s (x s).2) (hf : ∀ a s1, x s = (.ok a, s1) → P s1 (f a s1).2) : P s ((x >>= f) s).2 := by
  rw [bind_apply]
  rcases hxs : x s with ⟨r, s1⟩
  rw [hxs] at hx
  cases r with
  | ok a => exact hP.trans _ _ _ hx (hf a s1 hxs)
  | err e => exact hx
  | panic => exact hx

theorem Pres.pure {P : σ → σ → Prop} (hP : Chain P) (a : α) : Pres P (Pure.pure a : M σ ε α) := fun s => hP.refl s
theorem Pres.throw {P : σ → σ → Prop} (hP : Chain P) (e : ε) : Pres P (M.throw e : M σ ε α) := fun s => hP.refl s
theorem Pres.panic {P : σ → σ → Prop} (hP : Chain P) : Pres P (M.panic : M σ ε α) := fun s => hP.refl s
theorem Pres.get {P : σ → σ → Prop} (hP : Chain P) : Pres P (M.get : M σ ε σ) := fun s => hP.refl s
theorem Pres.lift {P : σ → σ → Prop} (hP : Chain P) (r : Res ε α) : Pres P (M.lift r : M σ ε α) := fun s => hP.refl s
theorem Pres.mapErr {P : σ → σ → Prop} {x : M σ ε α} (g : ε → ε') (hx : Pres P x) : Pres P (x.mapErr g) := fun s => hx s
theorem Pres.attempt {P : σ → σ → Prop} {x : M σ ε α} (hx : Pres P x) :
    Pres P (x.attempt : M σ ε' (Except ε α)) := by
  intro s
  have h := hx s
  rw [attempt_apply]
  rcases hxs : x s with ⟨r, s1⟩
  rw [hxs] at h
  cases r <;> exact h

/-- Error-for-error behaviour: `x` never panics. -/
def NoPanic (x : M σ ε α) : Prop := ∀ s, (x s).1 ≠ .panic

theorem NoPanic.bind {x : M σ ε α} {f : α → M σ ε β} (hx : NoPanic x) (hf : ∀ a, NoPanic (f a)) :
    NoPanic (x >>= f) := by
  intro s
  have h := hx s
  rw [bind_apply]
  rcases hxs : x s with ⟨r, s1⟩
  rw [hxs] at h
  cases r with
  | ok a => exact hf a s1
  | err e => simp
  | panic => exact absurd rfl h

theorem NoPanic.pure (a : α) : NoPanic (Pure.pure a : M σ ε α) := fun s => by simp
theorem NoPanic.throw (e : ε) : NoPanic (M.throw e : M σ ε α) := fun s => by simp
theorem NoPanic.get : NoPanic (M.get : M σ ε σ) := fun s => by simp
theorem NoPanic.lift {r : Res ε α} (h : r ≠ .panic) : NoPanic (M.lift r : M σ ε α) := fun s => by simpa using h
theorem NoPanic.bind_lift {r : Res ε α} {f : α → M σ ε β} (h : r ≠ .panic) (hf : ∀ a, r = .ok a → NoPanic (f a)) :
    NoPanic (M.lift r >>= f) := by
  intro s
  cases r with
  | ok a => exact hf a rfl s
  | err e => simp [M.bind_apply]
  | panic => exact absurd rfl h
theorem NoPanic.mapErr {x : M σ ε α} (g : ε → ε') (hx : NoPanic x) : NoPanic (x.mapErr g) := fun s => by
  simpa using hx s
theorem NoPanic.attempt {x : M σ ε α} (hx : NoPanic x) : NoPanic (x.attempt : M σ ε' (Except ε α)) := by
  intro s
  have h := hx s
  rw [attempt_apply]
  rcases hxs : x s with ⟨r, s1⟩
  rw [hxs] at h
  cases r <;> simp_all

end M

/-! ## Arithmetic -/

theorem arith_true {ε α : Type} (m : Mode) (a : α) : (arith m true a : Res ε α) = .ok a := rfl

theorem arith_ok {ε α : Type} {m : Mode} {b : Bool} {a r : α} (h : (arith m b a : Res ε α) = .ok r) : r = a := by
  unfold arith at h
  split at h
  · simpa [eq_comm] using h
  · cases m <;> simp_all

theorem add64_eq {ε : Type} (m : Mode) {a b : UInt64} (h : a.toNat + b.toNat < 2 ^ 64) :
    (add64 m a b : Res ε UInt64) = .ok (a + b) := by
  unfold add64; rw [decide_eq_true h]; rfl

theorem sub64_eq {ε : Type} (m : Mode) {a b : UInt64} (h : b.toNat ≤ a.toNat) :
    (sub64 m a b : Res ε UInt64) = .ok (a - b) := by
  unfold sub64; rw [decide_eq_true h]; rfl

theorem add32_eq {ε : Type} (m : Mode) {a b : UInt32} (h : a.toNat + b.toNat < 2 ^ 32) :
    (add32 m a b : Res ε UInt32) = .ok (a + b) := by
  unfold add32; rw [decide_eq_true h]; rfl

theorem mul32_eq {ε : Type} (m : Mode) {a b : UInt32} (h : a.toNat * b.toNat < 2 ^ 32) :
    (mul32 m a b : Res ε UInt32) = .ok (a * b) := by
  unfold mul32; rw [decide_eq_true h]; rfl

theorem arith_debug_ok {ε α : Type} {b : Bool} {a r : α} : (arith .debug b a : Res ε α) = .ok r ↔ b = true ∧ r = a := by
  cases b <;> simp [arith, eq_comm]

theorem arith_panic {ε α : Type} {m : Mode} {b : Bool} {a : α} :
    (arith m b a : Res ε α) = .panic ↔ m = .debug ∧ b = false := by
  cases b <;> cases m <;> simp [arith]

theorem arith_ne_err {ε α : Type} {m : Mode} {b : Bool} {a : α} {e : ε} : (arith m b a : Res ε α) ≠ .err e := by
  cases b <;> cases m <;> simp [arith]

theorem add64_ok {ε : Type} {m : Mode} {a b r : UInt64} (h : (add64 m a b : Res ε UInt64) = .ok r) : r = a + b := arith_ok h
theorem sub64_ok {ε : Type} {m : Mode} {a b r : UInt64} (h : (sub64 m a b : Res ε UInt64) = .ok r) : r = a - b := arith_ok h
theorem add32_ok {ε : Type} {m : Mode} {a b r : UInt32} (h : (add32 m a b : Res ε UInt32) = .ok r) : r = a + b := arith_ok h
theorem mul32_ok {ε : Type} {m : Mode} {a b r : UInt32} (h : (mul32 m a b : Res ε UInt32) = .ok r) : r = a * b := arith_ok h

theorem add64_release {ε : Type} (a b : UInt64) : (add64 .release a b : Res ε UInt64) = .ok (a + b) := by
  unfold add64 arith; split <;> rfl
theorem sub64_release {ε : Type} (a b : UInt64) : (sub64 .release a b : Res ε UInt64) = .ok (a - b) := by
  unfold sub64 arith; split <;> rfl
theorem add32_release {ε : Type} (a b : UInt32) : (add32 .release a b : Res ε UInt32) = .ok (a + b) := by
  unfold add32 arith; split <;> rfl
theorem mul32_release {ε : Type} (a b : UInt32) : (mul32 .release a b : Res ε UInt32) = .ok (a * b) := by
  unfold mul32 arith; split <;> rfl

theorem u64_add_toNat {a b : UInt64} (h : a.toNat + b.toNat < 2 ^ 64) : (a + b).toNat = a.toNat + b.toNat := by
  rw [UInt64.toNat_add, Nat.mod_eq_of_lt h]

theorem u64_sub_toNat {a b : UInt64} (h : b.toNat ≤ a.toNat) : (a - b).toNat = a.toNat - b.toNat :=
  UInt64.toNat_sub_of_le _ _ (UInt64.le_iff_toNat_le.mpr h)

theorem u64_mul_toNat {a b : UInt64} (h : a.toNat * b.toNat < 2 ^ 64) : (a * b).toNat = a.toNat * b.toNat := by
  rw [UInt64.toNat_mul, Nat.mod_eq_of_lt h]

theorem u32_add_toNat {a b : UInt32} (h : a.toNat + b.toNat < 2 ^ 32) : (a + b).toNat = a.toNat + b.toNat := by
  rw [UInt32.toNat_add, Nat.mod_eq_of_lt h]

theorem u32_mul_toNat {a b : UInt32} (h : a.toNat * b.toNat < 2 ^ 32) : (a * b).toNat = a.toNat * b.toNat := by
  rw [UInt32.toNat_mul, Nat.mod_eq_of_lt h]

theorem checkedMul64_some {a b r : UInt64} : checkedMul64 a b = some r ↔
    a.toNat * b.toNat < 2 ^ 64 ∧ r.toNat = a.toNat * b.toNat := by
  unfold checkedMul64
  split
  · rename_i h
    simp only [Option.some.injEq, h, true_and, ← UInt64.toNat_inj, u64_mul_toNat h]
    exact eq_comm
  · simp_all

theorem checkedAdd64_some {a b r : UInt64} : checkedAdd64 a b = some r ↔
    a.toNat + b.toNat < 2 ^ 64 ∧ r.toNat = a.toNat + b.toNat := by
  unfold checkedAdd64
  split
  · rename_i h
    simp only [Option.some.injEq, h, true_and, ← UInt64.toNat_inj, u64_add_toNat h]
    exact eq_comm
  · simp_all

theorem checkedSub64_some {a b r : UInt64} : checkedSub64 a b = some r ↔
    b.toNat ≤ a.toNat ∧ r.toNat = a.toNat - b.toNat := by
  unfold checkedSub64
  split
  · rename_i h
    simp only [Option.some.injEq, h, true_and, ← UInt64.toNat_inj, u64_sub_toNat h]
    exact eq_comm
  · simp_all

theorem checkedMul64_none {a b : UInt64} : checkedMul64 a b = none ↔ 2 ^ 64 ≤ a.toNat * b.toNat := by
  simp [checkedMul64]

theorem checkedAdd64_none {a b : UInt64} : checkedAdd64 a b = none ↔ 2 ^ 64 ≤ a.toNat + b.toNat := by
  simp [checkedAdd64]

theorem checkedSub64_none {a b : UInt64} : checkedSub64 a b = none ↔ a.toNat < b.toNat := by
  simp [checkedSub64]

theorem max64_toNat (a b : UInt64) : (max64 a b).toNat = max a.toNat b.toNat := by
  unfold max64
  split
  · rename_i h; rw [UInt64.le_iff_toNat_le] at h; omega
  · rename_i h; rw [UInt64.le_iff_toNat_le] at h; omega

theorem max32_toNat (a b : UInt32) : (max32 a b).toNat = max a.toNat b.toNat := by
  unfold max32
  split
  · rename_i h; rw [UInt32.le_iff_toNat_le] at h; omega
  · rename_i h; rw [UInt32.le_iff_toNat_le] at h; omega

end Gpt
