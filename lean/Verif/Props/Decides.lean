import Verif.Props.Table
import Verif.Props.Halves
import Verif.Props.ShrinkCut
/-!
# C132: what the settings of the configuration decide
-/

namespace Gpt

open Spec GptDisk

/-- What the calls return, one after the other. -/
def Spec.outcomes (m : Mode) : List Op → GptDisk → List (Res GptError OpVal)
  | [], _ => []
  | op :: ops, s => (op.step m s).1 :: outcomes m ops (op.step m s).2

/-- The disk `s` as if it had been opened with another setting of `only_valid_headers`. -/
def Spec.withValid (b : Bool) (s : GptDisk) : GptDisk := { s with config := s.config.setOnlyValidHeaders b }

/-- The disk `s` as if it had been opened with another setting of `writable`. -/
def Spec.withWritable (b : Bool) (s : GptDisk) : GptDisk := { s with config := s.config.setWritable b }

/-- The disk `s` as if it had been opened with permission to change the count. -/
def Spec.permitted (s : GptDisk) : GptDisk := { s with config := s.config.setChangePartitionCount true }

/-! ## Programs that do not see a setting -/

/-- A change of settings: what becomes of `writable`, `only_valid_headers` and `change_partition_count`. -/
def unseen (w v p : Bool → Bool) (s : GptDisk) : GptDisk :=
  { s with config := { s.config with writable := w s.config.writable, onlyValidHeaders := v s.config.onlyValidHeaders, changePartitionCount := p s.config.changePartitionCount } }

/-- `x` does the same before and after `f`. -/
def M.Blind {σ ε α : Type} (f : σ → σ) (x : M σ ε α) : Prop := ∀ s, x (f s) = ((x s).1, f (x s).2)

namespace M.Blind
variable {σ ε ε' α β : Type} {f : σ → σ}

theorem bind {x : M σ ε α} {k : α → M σ ε β} (hx : M.Blind f x) (hk : ∀ a, M.Blind f (k a)) : M.Blind f (x >>= k) := by
  intro s
  rw [M.bind_apply, M.bind_apply, hx s]
  rcases x s with ⟨r, s'⟩
  cases r with
  | ok a => exact hk a s'
  | err e => rfl
  | panic => rfl

theorem get {k : σ → M σ ε β} (hk : ∀ s, k (f s) (f s) = ((k s s).1, f (k s s).2)) : M.Blind f (M.get >>= k) := fun s => hk s

theorem pure (a : α) : M.Blind f (Pure.pure a : M σ ε α) := fun _ => rfl
theorem lift (r : Res ε α) : M.Blind f (M.lift r : M σ ε α) := fun _ => rfl
theorem throw (e : ε) : M.Blind f (M.throw e : M σ ε α) := fun _ => rfl
theorem panic : M.Blind f (M.panic : M σ ε α) := fun _ => rfl
theorem modify {g : σ → σ} (h : ∀ s, g (f s) = f (g s)) : M.Blind f (M.modify g : M σ ε Unit) := fun s => by
  show (Res.ok (), g (f s)) = (Res.ok (), f (g s))
  rw [h]

theorem ite {c : Prop} [Decidable c] {x y : M σ ε α} (hx : M.Blind f x) (hy : M.Blind f y) : M.Blind f (if c then x else y) := by
  split
  · exact hx
  · exact hy

theorem mapOk {x : M σ ε α} (g : α → β) (hx : M.Blind f x) : M.Blind f (x.mapOk g) := by
  intro s
  show (_, _) = (_, _)
  simp only [M.mapOk, hx s]

end M.Blind

section
variable {w v p : Bool → Bool} {m : Mode}

theorem onDev_blind {ε ε' α : Type} (g : ε → ε') (x : M Dev ε α) : M.Blind (unseen w v p) (GptDisk.onDev g x) := fun _ => rfl

theorem initHeaders_blind (fresh : Uuid) : M.Blind (unseen w v p) (initHeaders m fresh) := by
  unfold initHeaders
  refine .get fun s => ?_
  refine M.Blind.bind (onDev_blind _ _) (fun bak => ?_) s
  refine M.Blind.bind (.lift _) fun h1 => ?_
  refine M.Blind.bind (.modify fun _ => rfl) fun _ => ?_
  refine M.Blind.ite (.pure _) ?_
  refine M.Blind.bind (.lift _) fun h2 => ?_
  exact .modify fun _ => rfl

theorem insertPartition_blind (name : String) (id : UInt32) (first length : UInt64) (ty : PType) (flags : UInt64) (fresh fresh2 : Uuid) :
    M.Blind (unseen w v _root_.id) (insertPartition m name id first length ty flags fresh fresh2) := by
  unfold insertPartition
  refine .bind (.lift _) fun e => .bind (.lift _) fun last => .get fun s => ?_
  refine M.Blind.bind (.lift _) (fun h => ?_) s
  refine M.Blind.ite (.throw _) ?_
  refine M.Blind.bind (.modify fun _ => rfl) fun _ => ?_
  exact M.Blind.ite (.bind (initHeaders_blind _) fun _ => .pure _) (.pure _)

theorem addPartitionLoop_blind (name : String) (sizeLba : UInt64) (ty : PType) (flags : UInt64) (align : Option UInt64) (fresh fresh2 : Uuid)
    (L : List (UInt64 × UInt64)) : M.Blind (unseen w v _root_.id) (addPartitionLoop m name sizeLba ty flags align fresh fresh2 L) := by
  induction L with
  | nil => exact .throw _
  | cons sec rest ih =>
    unfold addPartitionLoop
    refine .bind (.lift _) fun off => .bind (.lift _) fun need => .ite (.bind (.lift _) fun st => .get fun s => ?_) ih
    refine M.Blind.bind (.lift _) (fun id? => ?_) s
    cases id? with
    | some i => exact M.Blind.bind (.pure _) fun id => insertPartition_blind _ _ _ _ _ _ _ _
    | none =>
      dsimp only
      exact M.Blind.bind (.lift _) fun _ => .bind (.lift _) fun id => insertPartition_blind _ _ _ _ _ _ _ _

theorem addPartition_blind (name : String) (size : UInt64) (ty : PType) (flags : UInt64) (align : Option UInt64) (fresh fresh2 : Uuid) :
    M.Blind (unseen w v _root_.id) (addPartition m name size ty flags align fresh fresh2) := by
  unfold addPartition
  refine .ite .panic (.get fun s => ?_)
  exact M.Blind.bind (.lift _) (fun _ => .bind (.lift _) fun _ => .bind (.lift _) fun _ => addPartitionLoop_blind _ _ _ _ _ _ _ _) s

theorem addPartitionAtLoop_blind (name : String) (id : UInt32) (first length : UInt64) (ty : PType) (flags : UInt64) (fresh fresh2 : Uuid)
    (L : List (UInt64 × UInt64)) : M.Blind (unseen w v _root_.id) (addPartitionAtLoop m name id first length ty flags fresh fresh2 L) := by
  induction L with
  | nil => exact .throw _
  | cons sec rest ih =>
    unfold addPartitionAtLoop
    exact .ite (insertPartition_blind _ _ _ _ _ _ _ _) ih

theorem addPartitionAt_blind (name : String) (id : UInt32) (first length : UInt64) (ty : PType) (flags : UInt64) (fresh fresh2 : Uuid) :
    M.Blind (unseen w v _root_.id) (addPartitionAt m name id first length ty flags fresh fresh2) := by
  unfold addPartitionAt
  refine .ite .panic (.ite .panic (.get fun s => ?_))
  exact M.Blind.ite (c := (PMap.get s.partitions id).any (·.isUsed) = true) (.throw _) (.bind (.lift _) fun _ => addPartitionAtLoop_blind _ _ _ _ _ _ _ _ _) s

theorem updatePartitions_blind (pp : PMap) (fresh : Uuid) : M.Blind (unseen w v _root_.id) (updatePartitions m pp fresh) := by
  unfold updatePartitions
  refine .ite .panic (.get fun s => ?_)
  refine M.Blind.bind (.lift _) (fun h => ?_) s
  exact M.Blind.ite (.throw _) (.bind (.modify fun _ => rfl) fun _ => initHeaders_blind _)

theorem writeInplace_blind : M.Blind (unseen id v p) (writeInplace m) := by
  unfold writeInplace
  refine .get fun s => ?_
  refine M.Blind.ite (c := (!s.config.writable) = true) (.throw _) ?_ s
  dsimp only
  refine M.Blind.bind (onDev_blind _ _) fun _ => .bind (.lift _) fun h => .bind (.lift _) fun ph => .bind (.modify fun _ => rfl) fun _ => ?_
  have rest : ∀ bh, M.Blind (unseen id v p) (do
      let next ← onDev id (writeEntries m s.config.lbSize ph bh (usedParts s.partitions) 0 0)
      onDev id (writeZeros m s.config.lbSize ph next)
      match bh with
      | some bh => do
        onDev id (writeZeros m s.config.lbSize bh next)
        onBackup bh (Header.writeBackup s.config.lbSize)
      | none => pure ()
      onPrimary ph (Header.writePrimary s.config.lbSize)
      onDev .io Dev.flush
      if s.syncAll then onDev .io Dev.syncAll else pure ()) := by
    intro bh
    refine M.Blind.bind (onDev_blind _ _) fun next => .bind (onDev_blind _ _) fun _ => ?_
    have last : M.Blind (unseen id v p) (do
        onPrimary ph (Header.writePrimary s.config.lbSize)
        onDev .io Dev.flush
        if s.syncAll then onDev .io Dev.syncAll else pure ()) :=
      .bind (fun _ => rfl) fun _ => .bind (onDev_blind _ _) fun _ => .ite (onDev_blind _ _) (.pure _)
    cases bh with
    | none => exact last
    | some bh => exact .bind (onDev_blind _ _) fun _ => .bind (fun _ => rfl) fun _ => last
  refine M.Blind.ite (.bind (.pure _) rest) ?_
  exact .bind (.lift _) fun bh => .bind (.modify fun _ => rfl) fun _ => .bind (.pure _) rest

theorem removePartition_blind (id : UInt32) : M.Blind (unseen w v p) (removePartition id : M GptDisk GptError _) := by
  intro s
  show removePartition id (unseen w v p s) = _
  unfold removePartition
  show (match PMap.get s.partitions id with | some _ => _ | none => _) = _
  cases PMap.get s.partitions id <;> rfl

theorem removePartitionByGuid_blind (g : Uuid) : M.Blind (unseen w v p) (removePartitionByGuid g : M GptDisk GptError _) := by
  intro s
  unfold removePartitionByGuid
  show (match s.partitions.find? (fun e => e.2.partGuid == g) with | some _ => _ | none => _) = _
  cases s.partitions.find? (fun e => e.2.partGuid == g) <;> rfl

end

/-- **C132**, `only_valid_headers`: once a disk is open, the setting decides nothing. -/
theorem c132_valid (m : Mode) (b : Bool) (ops : List Op) (s : GptDisk) :
    outcomes m ops (withValid b s) = outcomes m ops s ∧ runOps m ops (withValid b s) = withValid b (runOps m ops s) := by
  have key : ∀ op : Op, M.Blind (unseen id (fun _ => b) id) (op.step m) := by
    intro op
    cases op with
    | addPartition n sz t f a r r2 => exact M.Blind.mapOk _ (addPartition_blind _ _ _ _ _ _ _)
    | addPartitionAt n i fl l t f r r2 => exact M.Blind.mapOk _ (addPartitionAt_blind _ _ _ _ _ _ _ _)
    | removePartition i => exact M.Blind.mapOk _ (removePartition_blind _)
    | removePartitionByGuid g => exact M.Blind.mapOk _ (removePartitionByGuid_blind _)
    | takePartitions => exact fun _ => rfl
    | updateGuid u r => exact fun _ => rfl
    | updatePartitions pp r => exact M.Blind.mapOk _ (updatePartitions_blind _ _)
    | updateDiskDevice d w => exact fun _ => rfl
    | deviceMut d => exact fun _ => rfl
    | writeInplace => exact M.Blind.mapOk _ writeInplace_blind
  induction ops generalizing s with
  | nil => exact ⟨rfl, rfl⟩
  | cons op ops ih =>
    have := key op s
    change op.step m (withValid b s) = (_, withValid b _) at this
    have i := ih (op.step m s).2
    constructor
    · show _ :: outcomes m ops _ = _ :: outcomes m ops _
      rw [this, ← i.1]
    · show runOps m ops (op.step m (withValid b s)).2 = _
      rw [this]
      exact i.2

/-- **C132**, `writable`: it decides nothing but what `write_inplace` does (without it: `ReadOnly` and nothing else, C34). -/
theorem c132_writable (m : Mode) (b : Bool) (ops : List Op) (s : GptDisk) (hops : Op.writeInplace ∉ ops) :
    outcomes m ops (withWritable b s) = outcomes m ops s ∧ ∃ b', runOps m ops (withWritable b s) = withWritable b' (runOps m ops s) := by
  have key : ∀ op : Op, op ≠ .writeInplace → ∀ b s, ∃ b', op.step m (withWritable b s) = ((op.step m s).1, withWritable b' (op.step m s).2) := by
    intro op hne b s
    have blind : ∀ {x : M GptDisk GptError OpVal}, M.Blind (unseen (fun _ => b) id id) x → ∃ b', x (withWritable b s) = ((x s).1, withWritable b' (x s).2) :=
      fun h => ⟨b, h s⟩
    cases op with
    | addPartition n sz t f a r r2 => exact blind (M.Blind.mapOk _ (addPartition_blind _ _ _ _ _ _ _))
    | addPartitionAt n i fl l t f r r2 => exact blind (M.Blind.mapOk _ (addPartitionAt_blind _ _ _ _ _ _ _ _))
    | removePartition i => exact blind (M.Blind.mapOk _ (removePartition_blind _))
    | removePartitionByGuid g => exact blind (M.Blind.mapOk _ (removePartitionByGuid_blind _))
    | takePartitions => exact blind fun _ => rfl
    | updateGuid u r => exact blind fun _ => rfl
    | updatePartitions pp r => exact blind (M.Blind.mapOk _ (updatePartitions_blind _ _))
    | updateDiskDevice d w => exact ⟨w, rfl⟩
    | deviceMut d => exact blind fun _ => rfl
    | writeInplace => exact absurd rfl hne
  induction ops generalizing s b with
  | nil => exact ⟨rfl, b, rfl⟩
  | cons op ops ih =>
    obtain ⟨b', this⟩ := key op (fun h => hops (h ▸ List.mem_cons_self)) b s
    have i := ih b' (op.step m s).2 fun h => hops (List.mem_cons_of_mem _ h)
    constructor
    · show _ :: outcomes m ops _ = _ :: outcomes m ops _
      rw [this, ← i.1]
    · show ∃ b', runOps m ops (op.step m (withWritable b s)).2 = _
      rw [this]
      exact i.2


/-! ## The permission to change the count -/

/-- Without the permission `x` either refuses and leaves everything as it was, or does the same as with it. -/
def M.Asks (x : M GptDisk GptError α) : Prop :=
  ∀ s, x s = (.err .partitionCountWouldChange, s) ∨ x (permitted s) = ((x s).1, permitted (x s).2)

namespace M.Asks
variable {α β : Type}

theorem blind {x : M GptDisk GptError α} (h : M.Blind (unseen _root_.id _root_.id fun _ => true) x) : M.Asks x := fun s => .inr (h s)

theorem lift {r : Res GptError β} {k : β → M GptDisk GptError α} (h : ∀ a, M.Asks (k a)) : M.Asks (M.lift r >>= k) := by
  intro s
  cases r with
  | ok a => exact h a s
  | err e => exact .inr rfl
  | panic => exact .inr rfl

theorem get {k : GptDisk → M GptDisk GptError α}
    (hk : ∀ s, k s s = (.err .partitionCountWouldChange, s) ∨ k (permitted s) (permitted s) = ((k s s).1, permitted (k s s).2)) :
    M.Asks (M.get >>= k) := fun s => hk s

theorem ite {c : Prop} [Decidable c] {x y : M GptDisk GptError α} (hx : M.Asks x) (hy : M.Asks y) : M.Asks (if c then x else y) := by
  split
  · exact hx
  · exact hy

theorem mapOk {x : M GptDisk GptError α} (g : α → β) (hx : M.Asks x) : M.Asks (x.mapOk g) := by
  intro s
  rcases hx s with h | h
  · refine .inl ?_
    simp only [M.mapOk, h]
  · refine .inr ?_
    simp only [M.mapOk, h]

end M.Asks

theorem insertPartition_asks (m : Mode) (name : String) (i : UInt32) (first length : UInt64) (ty : PType) (flags : UInt64) (fresh fresh2 : Uuid) :
    M.Asks (insertPartition m name i first length ty flags fresh fresh2) := by
  unfold insertPartition
  refine .lift fun e => .lift fun last => .get fun s => ?_
  have hd : ((permitted s).header : Res GptError Header) = s.header := rfl
  rw [hd]
  cases s.header (ε := GptError) with
  | err e => exact .inr rfl
  | panic => exact .inr rfl
  | ok h =>
    have ok : ∀ c, M.lift (Res.ok h : Res GptError Header) >>= c = (c h : M GptDisk GptError UInt32) := fun _ => rfl
    rw [ok, ok]
    have hp : (permitted s).config.changePartitionCount = true := rfl
    rw [hp]
    simp only [Bool.not_true, Bool.and_false, Bool.false_eq_true, if_false]
    by_cases hc : (h.numPartsWouldChange i && !s.config.changePartitionCount) = true
    · rw [if_pos hc]
      exact .inl rfl
    · rw [if_neg hc]
      refine .inr ?_
      have b : M.Blind (unseen _root_.id _root_.id fun _ => true) (do
          M.modify fun s => { s with partitions := PMap.insert i ⟨ty, fresh, first, last, flags, name⟩ s.partitions }
          if h.numPartsWouldChange i then initHeaders m fresh2
          pure i : M GptDisk GptError UInt32) := by
        refine M.Blind.bind (.modify fun _ => rfl) fun _ => ?_
        exact M.Blind.ite (.bind (initHeaders_blind _) fun _ => .pure _) (.pure _)
      exact b s

theorem addPartitionLoop_asks (m : Mode) (name : String) (sizeLba : UInt64) (ty : PType) (flags : UInt64) (align : Option UInt64) (fresh fresh2 : Uuid)
    (L : List (UInt64 × UInt64)) : M.Asks (addPartitionLoop m name sizeLba ty flags align fresh fresh2 L) := by
  induction L with
  | nil => exact .blind (.throw _)
  | cons sec rest ih =>
    unfold addPartitionLoop
    refine .lift fun off => .lift fun need => .ite (.lift fun st => .get fun s => ?_) ih
    refine M.Asks.lift (fun id? => ?_) s
    cases id? with
    | some i =>
      exact insertPartition_asks _ _ _ _ _ _ _ _ _
    | none =>
      dsimp only
      exact M.Asks.lift fun _ => .lift fun id => insertPartition_asks _ _ _ _ _ _ _ _ _

theorem addPartition_asks (m : Mode) (name : String) (size : UInt64) (ty : PType) (flags : UInt64) (align : Option UInt64) (fresh fresh2 : Uuid) :
    M.Asks (addPartition m name size ty flags align fresh fresh2) := by
  unfold addPartition
  refine .ite (.blind .panic) (.get fun s => ?_)
  exact M.Asks.lift (fun _ => .lift fun _ => .lift fun _ => addPartitionLoop_asks _ _ _ _ _ _ _ _ _) s

theorem addPartitionAtLoop_asks (m : Mode) (name : String) (i : UInt32) (first length : UInt64) (ty : PType) (flags : UInt64) (fresh fresh2 : Uuid)
    (L : List (UInt64 × UInt64)) : M.Asks (addPartitionAtLoop m name i first length ty flags fresh fresh2 L) := by
  induction L with
  | nil => exact .blind (.throw _)
  | cons sec rest ih =>
    unfold addPartitionAtLoop
    exact .ite (insertPartition_asks _ _ _ _ _ _ _ _ _) ih

theorem addPartitionAt_asks (m : Mode) (name : String) (i : UInt32) (first length : UInt64) (ty : PType) (flags : UInt64) (fresh fresh2 : Uuid) :
    M.Asks (addPartitionAt m name i first length ty flags fresh fresh2) := by
  unfold addPartitionAt
  refine .ite (.blind .panic) (.ite (.blind .panic) (.get fun s => ?_))
  exact M.Asks.ite (c := (PMap.get s.partitions i).any (·.isUsed) = true) (.blind (.throw _)) (.lift fun _ => addPartitionAtLoop_asks _ _ _ _ _ _ _ _ _ _) s

theorem updatePartitions_asks (m : Mode) (pp : PMap) (fresh : Uuid) : M.Asks (updatePartitions m pp fresh) := by
  unfold updatePartitions
  refine .ite (.blind .panic) (.get fun s => ?_)
  have hd : ((permitted s).header : Res GptError Header) = s.header := rfl
  rw [hd]
  cases s.header (ε := GptError) with
  | err e => exact .inr rfl
  | panic => exact .inr rfl
  | ok h =>
    have ok : ∀ c, M.lift (Res.ok h : Res GptError Header) >>= c = (c h : M GptDisk GptError Unit) := fun _ => rfl
    rw [ok, ok]
    have hp : (permitted s).config.changePartitionCount = true := rfl
    rw [hp]
    simp only [Bool.not_true, Bool.and_false, Bool.false_eq_true, if_false]
    by_cases hc : (h.numPartsWouldChange (UInt32.ofNat pp.length) && !s.config.changePartitionCount) = true
    · rw [if_pos hc]
      exact .inl rfl
    · rw [if_neg hc]
      refine .inr ?_
      have b : M.Blind (unseen _root_.id _root_.id fun _ => true) (do
          M.modify fun s => { s with partitions := pp }
          initHeaders m fresh : M GptDisk GptError Unit) :=
        M.Blind.bind (.modify fun _ => rfl) fun _ => initHeaders_blind _
      exact b s

/-- **C132**, `change_partition_count`: without it a call either refuses with `PartitionCountWouldChange` and leaves everything as it was, or does the same as with it. -/
theorem c132_permit (m : Mode) (op : Op) (s : GptDisk) :
    op.step m s = (.err .partitionCountWouldChange, s) ∨ op.step m (permitted s) = ((op.step m s).1, permitted (op.step m s).2) := by
  have key : M.Asks (op.step m) := by
    cases op with
    | addPartition n sz t f a r r2 => exact M.Asks.mapOk _ (addPartition_asks _ _ _ _ _ _ _ _)
    | addPartitionAt n i fl l t f r r2 => exact M.Asks.mapOk _ (addPartitionAt_asks _ _ _ _ _ _ _ _ _)
    | removePartition i => exact .blind (M.Blind.mapOk _ (removePartition_blind _))
    | removePartitionByGuid g => exact .blind (M.Blind.mapOk _ (removePartitionByGuid_blind _))
    | takePartitions => exact .blind fun _ => rfl
    | updateGuid u r => exact .blind fun _ => rfl
    | updatePartitions pp r => exact M.Asks.mapOk _ (updatePartitions_asks _ _ _)
    | updateDiskDevice d w => exact .blind fun _ => rfl
    | deviceMut d => exact .blind fun _ => rfl
    | writeInplace => exact .blind (M.Blind.mapOk _ writeInplace_blind)
  exact key s

/-- **C132**, `change_partition_count`: a history in which no call refuses goes the same with the permission. -/
theorem c132_permit_run (m : Mode) (ops : List Op) (s : GptDisk) (h : ∀ r ∈ outcomes m ops s, r ≠ .err .partitionCountWouldChange) :
    outcomes m ops (permitted s) = outcomes m ops s ∧ runOps m ops (permitted s) = permitted (runOps m ops s) := by
  induction ops generalizing s with
  | nil => exact ⟨rfl, rfl⟩
  | cons op ops ih =>
    have h0 : (op.step m s).1 ≠ .err .partitionCountWouldChange := h _ List.mem_cons_self
    rcases c132_permit m op s with e | this
    · rw [e] at h0
      exact absurd rfl h0
    · have i := ih (op.step m s).2 fun r hr => h r (List.mem_cons_of_mem _ hr)
      constructor
      · show _ :: outcomes m ops _ = _ :: outcomes m ops _
        rw [this, ← i.1]
      · show runOps m ops (op.step m (permitted s)).2 = _
        rw [this]
        exact i.2

/-! ## Opening -/

/-- What `open_from_device` finds, with another configuration written into it. -/
def Spec.underConfig (cfg : GptConfig) : Res GptError GptDisk → Res GptError GptDisk
  | .ok s => .ok { s with config := cfg }
  | .err e => .err e
  | .panic => .panic

theorem openRest_config (m : Mode) {cfg cfg' : GptConfig} (h : cfg.lbSize = cfg'.lbSize) (h1 h2 : Except HeaderError Header) (hd : Header) (d : Dev) :
    openRest m cfg' h1 h2 hd d = (underConfig cfg' (openRest m cfg h1 h2 hd d).1, (openRest m cfg h1 h2 hd d).2) := by
  unfold openRest
  rw [← h]
  simp only [M.bind_apply]
  rcases (fileReadPartitions m hd cfg.lbSize).mapErr GptError.io d with ⟨r, d'⟩
  cases r <;> rfl

/-- **C132**, opening: it uses the block size and `only_valid_headers`; the other settings decide nothing, whatever the device holds and however its operations turn out. -/
theorem c132_open (m : Mode) (cfg cfg' : GptConfig) (d : Dev) (hlb : cfg.lbSize = cfg'.lbSize) (hv : cfg.onlyValidHeaders = cfg'.onlyValidHeaders) :
    openFromDevice m cfg' d = (underConfig cfg' (openFromDevice m cfg d).1, (openFromDevice m cfg d).2) := by
  rw [openFromDevice_eq, openFromDevice_eq m cfg, ← hlb, ← hv]
  rcases ((readPrimaryHeader cfg.lbSize).attempt : M Dev GptError _) d with ⟨r1, d1⟩
  cases r1 with
  | err e => rfl
  | panic => rfl
  | ok h1 =>
    simp only
    rcases ((readBackupHeader cfg.lbSize).attempt : M Dev GptError _) d1 with ⟨r2, d2⟩
    cases r2 with
    | err e => rfl
    | panic => rfl
    | ok h2 =>
      simp only
      cases selectHeader cfg.onlyValidHeaders h1 h2 with
      | error e => rfl
      | ok hd => exact openRest_config m hlb h1 h2 hd d2

/-- Both openings, from the headers they both read. -/
theorem open_both (m : Mode) (cfg : GptConfig) (d : Dev) :
    ∃ h1 h2 d2, ∀ b, openFromDevice m (cfg.setOnlyValidHeaders b) d = match selectHeader b h1 h2 with
      | .error e => (.err (.header e), d2)
      | .ok h => openRest m (cfg.setOnlyValidHeaders b) h1 h2 h d2 := by
  obtain ⟨h1, _, f1⟩ := attempt_ofExcept (ε' := GptError) (readPrimaryHeader_noPanic cfg.lbSize d)
  obtain ⟨h2, _, f2⟩ := attempt_ofExcept (ε' := GptError) (readBackupHeader_noPanic cfg.lbSize (readPrimaryHeader cfg.lbSize d).2)
  refine ⟨h1, h2, (readBackupHeader cfg.lbSize (readPrimaryHeader cfg.lbSize d).2).2, fun b => ?_⟩
  have hl : (cfg.setOnlyValidHeaders b).lbSize = cfg.lbSize := rfl
  have hv : (cfg.setOnlyValidHeaders b).onlyValidHeaders = b := rfl
  rw [openFromDevice_eq, hl, hv]
  rw [f1]
  simp only
  rw [f2]
  dsimp only
  cases selectHeader b h1 h2 <;> rfl

/-- **C132**, `only_valid_headers` when opening: where the strict opening succeeds, the lenient one finds the same and reports both headers as valid. -/
theorem c132_strict (m : Mode) (cfg : GptConfig) (d d' : Dev) (s : GptDisk) (h : openFromDevice m (cfg.setOnlyValidHeaders true) d = (.ok s, d')) :
    openFromDevice m (cfg.setOnlyValidHeaders false) d = (.ok (withValid false s), d') ∧ (∃ p, s.primaryHeader = .ok p) ∧ ∃ b, s.backupHeader = .ok b := by
  obtain ⟨h1, h2, d2, e⟩ := open_both m cfg d
  rw [e true] at h
  rw [e false]
  cases h1 with
  | error e1 => cases h2 <;> simp [selectHeader] at h
  | ok k1 =>
    cases h2 with
    | error e2 => simp [selectHeader] at h
    | ok k2 =>
      simp only [selectHeader] at h ⊢
      have hs := (openRest_ok h).2
      refine ⟨?_, ⟨k1, by rw [hs]⟩, k2, by rw [hs]⟩
      have hr := openRest_config m (cfg := cfg.setOnlyValidHeaders true) (cfg' := cfg.setOnlyValidHeaders false) rfl (.ok k1) (.ok k2) k1 d2
      rw [hr, h, hs]
      rfl

/-- **C132**, `only_valid_headers` when opening: where the lenient opening succeeds and reports both headers as valid, the strict one finds the same. -/
theorem c132_lenient (m : Mode) (cfg : GptConfig) (d d' : Dev) (s : GptDisk) (h : openFromDevice m (cfg.setOnlyValidHeaders false) d = (.ok s, d'))
    (hp : ∃ p, s.primaryHeader = .ok p) (hb : ∃ b, s.backupHeader = .ok b) :
    openFromDevice m (cfg.setOnlyValidHeaders true) d = (.ok (withValid true s), d') := by
  obtain ⟨h1, h2, d2, e⟩ := open_both m cfg d
  rw [e false] at h
  rw [e true]
  cases hsel : selectHeader false h1 h2 with
  | error e1 => simp [hsel] at h
  | ok k =>
    rw [hsel] at h
    simp only at h
    have hs := (openRest_ok h).2
    rw [hs] at hp hb
    obtain ⟨p, hp⟩ := hp
    obtain ⟨b, hb⟩ := hb
    simp only at hp hb
    subst hp hb
    have hk : p = k := by simpa [selectHeader] using hsel
    subst hk
    simp only [selectHeader]
    have hr := openRest_config m (cfg := cfg.setOnlyValidHeaders false) (cfg' := cfg.setOnlyValidHeaders true) rfl (.ok p) (.ok b) p d2
    rw [hr, h, hs]
    rfl

/-! ## Interrupted writes and strict openings -/

section
variable {m m' m'' : Mode} {cfg cfg' : GptConfig} {n k B B' : Nat} {d d' dc d3 : Dev} {s s1 s3 : GptDisk} {fs : List Fault}

/-- **C132** with C124: when the first write of a session was interrupted, an opening that insists on both headers refuses, or finds the old
table or the new one. -/
theorem c132_first (hw : FirstWrite m m' cfg n k B d s fs dc) (hlb : cfg'.lbSize = cfg.lbSize)
    {s0 : GptDisk} {d0 : Dev} (h0 : openFromDevice m'' (cfg'.setOnlyValidHeaders false) d = (.ok s0, d0))
    (hok : openFromDevice m'' (cfg'.setOnlyValidHeaders true) dc = (.ok s3, d3)) :
    ∃ h sd, s.tryHeader = .ok h ∧ writeInplace m' (undisturbed s) = (.ok (), sd) ∧
      (((s3.partitions = s0.partitions ∧ s3.guid = s0.guid) ∨ (Numbered (Spec.used s.partitions) s3.partitions ∧ s3.guid = h.diskGuid)) ∨
      Collision (withoutCrc dc.data cfg.lbSize.usize) (withoutCrc sd.device.data cfg.lbSize.usize)) := by
  obtain ⟨h, sd, a, b, c⟩ := c124_first (cfg' := cfg'.setOnlyValidHeaders false) hw hlb rfl h0
  refine ⟨h, sd, a, b, c.imp_left ?_⟩
  rintro ⟨s4, d4, e, f⟩
  rw [(c132_strict m'' cfg' dc d3 s3 hok).1] at e
  cases e
  exact f

/-- **C132** with C129: when making a disk fill a larger device was interrupted, an opening that insists on both headers refuses, or finds the
same partitions and the same GUID. -/
theorem c132_grow (g : GrowCut m m' cfg k B B' d d' s s1 fs dc) (ha : ArrayStays m' cfg.lbSize k d.data s1) (hlb : cfg'.lbSize = cfg.lbSize)
    (hok : openFromDevice m'' (cfg'.setOnlyValidHeaders true) dc = (.ok s3, d3)) :
    ∃ sd, writeInplace m' (undisturbed s1) = (.ok (), sd) ∧
      ((s3.guid = s.guid ∧ (s3.partitions = s.partitions ∨ Numbered (Spec.used s.partitions) s3.partitions)) ∨
      Collision (withoutCrc dc.data cfg.lbSize.usize) (withoutCrc sd.device.data cfg.lbSize.usize)) := by
  obtain ⟨sd, b, c⟩ := c129_cut (m'' := m'') (cfg' := cfg'.setOnlyValidHeaders false) g ha hlb rfl
  refine ⟨sd, b, c.imp_left ?_⟩
  rintro ⟨s4, d4, e, f⟩
  rw [(c132_strict m'' cfg' dc d3 s3 hok).1] at e
  cases e
  exact f

/-- **C132** with C130: the same for making a disk fit a smaller device. -/
theorem c132_shrink (g : ShrinkCut m m' cfg k B B' d d' s s1 fs dc) (ha : ArrayStays m' cfg.lbSize k d.data s1) (hlb : cfg'.lbSize = cfg.lbSize)
    (hok : openFromDevice m'' (cfg'.setOnlyValidHeaders true) dc = (.ok s3, d3)) :
    ∃ sd, writeInplace m' (undisturbed s1) = (.ok (), sd) ∧
      ((s3.guid = s.guid ∧ (s3.partitions = s.partitions ∨ Numbered (Spec.used s.partitions) s3.partitions)) ∨
      Collision (withoutCrc dc.data cfg.lbSize.usize) (withoutCrc sd.device.data cfg.lbSize.usize)) := by
  obtain ⟨sd, b, c⟩ := c130_cut (m'' := m'') (cfg' := cfg'.setOnlyValidHeaders false) g ha hlb rfl
  refine ⟨sd, b, c.imp_left ?_⟩
  rintro ⟨s4, d4, e, f⟩
  rw [(c132_strict m'' cfg' dc d3 s3 hok).1] at e
  cases e
  exact f

end

/-! ## Examples -/

/-- Calls of every kind but `write_inplace`, none of them refused for the count: C132 for `writable` and for the permission. -/
def decideOps : List Op := [.addPartition "a" 512 (exPart 0 0).partType 0 none ⟨0, 0, 0, 9⟩ Uuid.nil,
  .addPartitionAt "b" 1 80 5 (exPart 0 0).partType 0 Uuid.nil Uuid.nil, .removePartition 1, .removePartitionByGuid ⟨0, 0, 0, 9⟩, .takePartitions]

example : Op.writeInplace ∉ decideOps ∧ (∀ r ∈ outcomes .debug decideOps exDisk, r ≠ .err .partitionCountWouldChange) ∧
    outcomes .debug (decideOps.take 4) exDisk = [.ok (.id 3), .err .partitionIdAlreadyUsed, .ok (.optId (some 1)), .ok (.optId (some 3))] := by
  refine ⟨by simp [decideOps], ?_, by decide +kernel⟩
  have h : (outcomes .debug decideOps exDisk).all (fun r => decide (r ≠ .err .partitionCountWouldChange)) = true := by decide +kernel
  exact fun r hr => of_decide_eq_true (List.all_eq_true.mp h r hr)

/-- The settings do decide something: one call is refused without the permission and not with it, one without `writable`. -/
example : ((Op.addPartitionAt "x" 129 90 1 (exPart 0 0).partType 0 Uuid.nil Uuid.nil).step .debug exDisk) = (.err .partitionCountWouldChange, exDisk) ∧
    ((Op.addPartitionAt "x" 129 90 1 (exPart 0 0).partType 0 Uuid.nil Uuid.nil).step .debug (permitted exDisk)).1 ≠ .err .partitionCountWouldChange ∧
    (Op.writeInplace.step .debug exDisk).1 = .err .readOnly ∧ (Op.writeInplace.step .debug (withWritable true exDisk)).1 ≠ .err .readOnly := by
  refine ⟨?_, by decide +kernel, by decide +kernel, by decide +kernel⟩
  have h : ((Op.addPartitionAt "x" 129 90 1 (exPart 0 0).partType 0 Uuid.nil Uuid.nil).step .debug exDisk).1 = .err .partitionCountWouldChange := by decide +kernel
  rcases c132_permit .debug (Op.addPartitionAt "x" 129 90 1 (exPart 0 0).partType 0 Uuid.nil Uuid.nil) exDisk with e | e
  · exact e
  · have h2 : ((Op.addPartitionAt "x" 129 90 1 (exPart 0 0).partType 0 Uuid.nil Uuid.nil).step .debug (permitted exDisk)).1 ≠ .err .partitionCountWouldChange := by
      decide +kernel
    rw [e] at h2
    exact absurd h h2

/-- The disk of C116, written, opens in both ways, and both headers are reported valid. -/
example (m : Mode) : ∃ s1 s2 d2, writeInplace m wideDisk = (.ok (), s1) ∧
    openFromDevice m (GptConfig.new.setOnlyValidHeaders false) s1.device = (.ok s2, d2) ∧ (∃ h, s2.primaryHeader = .ok h) ∧ (∃ b, s2.backupHeader = .ok b) ∧
    openFromDevice m (GptConfig.new.setOnlyValidHeaders true) s1.device = (.ok (withValid true s2), d2) := by
  have hwk : wideDisk.device.Works := ⟨rfl, by show 204800 < 2 ^ 64; decide, Nat.le_of_eq bigDev_length, by show 0 < 2 ^ 64; decide⟩
  have hl : wideDisk.device.data.length = 204800 := bigDev_length
  have hok := write_nil (m := m) wideDisk_sane rfl (by decide) rfl (by decide)
  have hwk1 := Dev.works_frame.writeInplace m wideDisk hwk
  rcases hx : writeInplace m wideDisk with ⟨r, s1⟩
  rw [hx] at hok hwk1
  simp only at hok
  subst hok
  have u := c116_written wideDisk_sane wideDisk_tidy rfl (by rw [hl]; rfl) (by decide) hx
  obtain ⟨s2, d2, h, b, e, -, hp, hb, -⟩ := c116_opens (cfg := GptConfig.new.setOnlyValidHeaders false) m hwk1.1 u
  exact ⟨s1, s2, d2, rfl, e, ⟨h, hp⟩, ⟨b, hb⟩, c132_lenient m GptConfig.new _ _ s2 e ⟨h, hp⟩ ⟨b, hb⟩⟩

end Gpt
