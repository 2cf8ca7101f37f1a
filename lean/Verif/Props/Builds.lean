import Verif.Props.Errors
import Verif.Model.File
/-!
# Debug and release builds

C80: the two builds differ only where the debug build panics.
-/

namespace Gpt

/-- `x` panics or is `y`. -/
def Res.Unless {ε α : Type} (x y : Res ε α) : Prop := x = .panic ∨ x = y

/-- From every state `x` panics or does what `y` does: same outcome, same state afterwards. -/
def M.Unless {σ ε α : Type} (x y : M σ ε α) : Prop := ∀ s, (x s).1 = .panic ∨ x s = y s

namespace Res.Unless
variable {ε ε' α β : Type}

theorem refl (x : Res ε α) : Res.Unless x x := .inr rfl

theorem bind {x y : Res ε α} {f g : α → Res ε β} (h : Res.Unless x y) (hf : ∀ a, Res.Unless (f a) (g a)) :
    Res.Unless (x >>= f) (y >>= g) := by
  rcases h with h | h
  · subst h; exact .inl rfl
  · subst h
    cases x with
    | ok a => exact hf a
    | err e => exact .inr rfl
    | panic => exact .inl rfl

theorem mapErr {x y : Res ε α} (g : ε → ε') (h : Res.Unless x y) : Res.Unless (x.mapErr g) (y.mapErr g) := by
  rcases h with h | h
  · subst h; exact .inl rfl
  · subst h; exact .inr rfl

theorem wraps (b : Bool) (a : α) : Res.Unless (Gpt.arith .debug b a : Res ε α) (Gpt.arith .release b a) := by
  cases b
  · exact .inl rfl
  · exact .inr rfl

end Res.Unless

namespace M.Unless
variable {σ τ ε ε' α β : Type}

theorem refl (x : M σ ε α) : M.Unless x x := fun _ => .inr rfl

theorem bind {x y : M σ ε α} {f g : α → M σ ε β} (h : M.Unless x y) (hf : ∀ a, M.Unless (f a) (g a)) : M.Unless (x >>= f) (y >>= g) := by
  intro s
  have h0 := h s
  rw [M.bind_apply, M.bind_apply]
  rcases hx : x s with ⟨r, s1⟩
  rw [hx] at h0
  rcases h0 with h0 | h0
  · simp only at h0
    subst h0
    exact .inl rfl
  · rw [← h0]
    cases r with
    | ok a => exact hf a s1
    | err e => exact .inr rfl
    | panic => exact .inl rfl

theorem lift {x y : Res ε α} (h : Res.Unless x y) : M.Unless (M.lift x : M σ ε α) (M.lift y) := by
  intro s
  rcases h with h | h
  · subst h; exact .inl rfl
  · subst h; exact .inr rfl

theorem mapErr {x y : M σ ε α} (g : ε → ε') (h : M.Unless x y) : M.Unless (x.mapErr g) (y.mapErr g) := by
  intro s
  rw [M.mapErr_apply, M.mapErr_apply]
  rcases h s with h | h
  · rw [h]; exact .inl rfl
  · rw [h]; exact .inr rfl

theorem zoom {x y : M τ ε α} (proj : σ → τ) (put : τ → σ → σ) (h : M.Unless x y) : M.Unless (M.zoom proj put x) (M.zoom proj put y) := by
  intro s
  rw [M.zoom_apply, M.zoom_apply]
  rcases h (proj s) with h | h
  · rw [h]; exact .inl rfl
  · rw [h]; exact .inr rfl

theorem onDev {x y : M Dev ε α} (g : ε → ε') (h : M.Unless x y) : M.Unless (GptDisk.onDev g x) (GptDisk.onDev g y) := by
  unfold GptDisk.onDev
  exact zoom _ _ (mapErr g h)

theorem mapOk {x y : M σ ε α} (f : α → β) (h : M.Unless x y) : M.Unless (x.mapOk f) (y.mapOk f) := by
  intro s
  unfold M.mapOk
  rcases h s with h | h
  · rw [h]; exact .inl rfl
  · rw [h]; exact .inr rfl

theorem attempt {x y : M σ ε α} (h : M.Unless x y) : M.Unless (x.attempt : M σ ε' (Except ε α)) y.attempt := by
  intro s
  rw [M.attempt_apply, M.attempt_apply]
  rcases hx : x s with ⟨r, s1⟩
  have h0 := h s
  rw [hx] at h0
  rcases h0 with h0 | h0
  · simp only at h0
    subst h0
    exact .inl rfl
  · rw [← h0]; exact .inr rfl

end M.Unless

theorem divCeil_unless (a b : UInt64) :
    Res.Unless (HeaderBuilder.divCeil .debug a b : Res HeaderError UInt64) (HeaderBuilder.divCeil .release a b) :=
  .bind (Res.Unless.wraps _ _) fun _ => .bind (Res.Unless.wraps _ _) fun _ => .refl _

theorem build_unless (b : HeaderBuilder) (lb : LbSize) : Res.Unless (b.build .debug lb) (b.build .release lb) := by
  unfold HeaderBuilder.build
  split
  · exact .refl _
  refine .bind (Res.Unless.wraps _ _) fun _ => .bind (divCeil_unless _ _) fun _ => .bind (Res.Unless.wraps _ _) fun _ => .bind (Res.Unless.wraps _ _) fun _ =>
    .bind (.refl _) fun _ => ?_
  dsimp only
  by_cases hp : b.primary = true <;> simp only [hp, if_true, if_false, Bool.false_eq_true] <;> split
  · exact .refl _
  · exact .bind (Res.Unless.wraps _ _) fun _ => .refl _
  · exact .refl _
  · exact .bind (Res.Unless.wraps _ _) fun _ => .refl _

theorem writeToDevice_unless (p : Partition) (i l : UInt64) (lb : LbSize) (n : UInt32) :
    M.Unless (p.writeToDevice .debug i l lb n) (p.writeToDevice .release i l lb n) :=
  .bind (.refl _) fun _ => .bind (.refl _) fun _ => .bind (.lift (Res.Unless.wraps _ _)) fun _ => .refl _

theorem writeZeroEntries_unless (i c l : UInt64) (lb : LbSize) (n : UInt32) :
    M.Unless (Partition.writeZeroEntries .debug i c l lb n) (Partition.writeZeroEntries .release i c l lb n) :=
  .bind (.refl _) fun _ => .bind (.refl _) fun _ => .bind (.lift (Res.Unless.wraps _ _)) fun _ => .refl _

theorem readEntries_unless : ∀ (n : Nat) (i : UInt32) (e : Nat) (ps : PMap),
    M.Unless (readEntries .debug n i e ps) (readEntries .release n i e ps)
  | 0, _, _, _ => .refl _
  | n + 1, i, e, ps => by
    unfold readEntries
    refine .bind (.refl _) fun b => ?_
    split
    · exact .bind (.lift (Res.Unless.wraps _ _)) fun _ => readEntries_unless n _ _ _
    · exact .bind (.lift (Res.Unless.wraps _ _)) fun _ => readEntries_unless n _ _ _

theorem fileReadPartitions_unless (h : Header) (lb : LbSize) :
    M.Unless (fileReadPartitions .debug h lb) (fileReadPartitions .release h lb) := by
  unfold fileReadPartitions
  refine .bind (.refl _) fun _ => .bind (.refl _) fun _ => ?_
  split
  · exact .refl _
  · exact .bind (readEntries_unless _ _ _ _) fun _ => .refl _

theorem writeHeader_unless (u : Option Uuid) (fresh : Uuid) (lb : LbSize) :
    M.Unless (writeHeader .debug u fresh lb) (writeHeader .release u fresh lb) :=
  .bind (.refl _) fun _ => .bind (.lift (build_unless _ _)) fun _ => .refl _

namespace GptDisk

theorem freeChunks_unless {ε : Type} : ∀ l : List UInt64, Res.Unless (freeChunks .debug l : Res ε _) (freeChunks .release l)
  | [] => .refl _
  | [_] => .refl _
  | a :: b :: rest => by
    unfold freeChunks
    refine .bind (Res.Unless.wraps _ _) fun _ => .bind (Res.Unless.wraps _ _) fun _ => ?_
    split
    · exact .bind (Res.Unless.wraps _ _) fun _ => .bind (Res.Unless.wraps _ _) fun _ => .bind (freeChunks_unless rest) fun _ => .refl _
    · exact freeChunks_unless rest

theorem findFreeSectors_unless {ε : Type} (s : GptDisk) :
    Res.Unless (s.findFreeSectors .debug : Res ε _) (s.findFreeSectors .release) :=
  .bind (.refl _) fun _ => .bind (Res.Unless.wraps _ _) fun _ => .bind (Res.Unless.wraps _ _) fun _ => freeChunks_unless _

theorem initHeaders_unless (fresh : Uuid) : M.Unless (initHeaders .debug fresh) (initHeaders .release fresh) := by
  unfold initHeaders
  refine .bind (.refl _) fun s => .bind (.refl _) fun _ => .bind (.lift ((build_unless _ _).mapErr _)) fun _ => .bind (.refl _) fun _ => ?_
  split
  · exact .refl _
  · exact .bind (.lift ((build_unless _ _).mapErr _)) fun _ => .refl _

theorem insertPartition_unless (name : String) (id : UInt32) (first length : UInt64) (ty : PType) (flags : UInt64) (r r2 : Uuid) :
    M.Unless (insertPartition .debug name id first length ty flags r r2) (insertPartition .release name id first length ty flags r r2) := by
  unfold insertPartition
  refine .bind (.lift (Res.Unless.wraps _ _)) fun _ => .bind (.lift (Res.Unless.wraps _ _)) fun _ => .bind (.refl _) fun _ => .bind (.refl _) fun _ => ?_
  dsimp only
  split
  · exact .refl _
  · refine .bind (.refl _) fun _ => ?_
    split
    · exact .bind (initHeaders_unless _) fun _ => .refl _
    · exact .refl _

theorem alignmentOffset_unless {ε : Type} (start : UInt64) (a : Option UInt64) :
    Res.Unless (alignmentOffset .debug start a : Res ε _) (alignmentOffset .release start a) := by
  cases a with
  | none => exact .refl _
  | some a => exact .bind (.refl _) fun _ => .bind (Res.Unless.wraps _ _) fun _ => .refl _

theorem addPartitionLoop_unless (name : String) (sz : UInt64) (ty : PType) (flags : UInt64) (a : Option UInt64) (r r2 : Uuid) :
    ∀ l, M.Unless (addPartitionLoop .debug name sz ty flags a r r2 l) (addPartitionLoop .release name sz ty flags a r r2 l)
  | [] => .refl _
  | (start, length) :: rest => by
    unfold addPartitionLoop
    refine .bind (.lift (alignmentOffset_unless _ _)) fun _ => .bind (.lift (Res.Unless.wraps _ _)) fun _ => ?_
    split
    · refine .bind (.lift (Res.Unless.wraps _ _)) fun _ => .bind (.refl _) fun _ => .bind (.refl _) fun o => ?_
      cases o with
      | some i => exact insertPartition_unless _ _ _ _ _ _ _ _
      | none => exact .bind (.refl _) fun _ => .bind (.lift (Res.Unless.wraps _ _)) fun _ => insertPartition_unless _ _ _ _ _ _ _ _
    · exact addPartitionLoop_unless name sz ty flags a r r2 rest

theorem addPartition_unless (name : String) (sz : UInt64) (ty : PType) (flags : UInt64) (a : Option UInt64) (r r2 : Uuid) :
    M.Unless (addPartition .debug name sz ty flags a r r2) (addPartition .release name sz ty flags a r r2) := by
  unfold addPartition
  split
  · exact .refl _
  · exact .bind (.refl _) fun _ => .bind (.lift (Res.Unless.wraps _ _)) fun _ => .bind (.lift (Res.Unless.wraps _ _)) fun _ =>
      .bind (.lift (findFreeSectors_unless _)) fun _ => addPartitionLoop_unless _ _ _ _ _ _ _ _

theorem addPartitionAtLoop_unless (name : String) (id : UInt32) (first length : UInt64) (ty : PType) (flags : UInt64) (r r2 : Uuid) :
    ∀ l, M.Unless (addPartitionAtLoop .debug name id first length ty flags r r2 l) (addPartitionAtLoop .release name id first length ty flags r r2 l)
  | [] => .refl _
  | (start, len) :: rest => by
    unfold addPartitionAtLoop
    split
    · exact insertPartition_unless _ _ _ _ _ _ _ _
    · exact addPartitionAtLoop_unless name id first length ty flags r r2 rest

theorem addPartitionAt_unless (name : String) (id : UInt32) (first length : UInt64) (ty : PType) (flags : UInt64) (r r2 : Uuid) :
    M.Unless (addPartitionAt .debug name id first length ty flags r r2) (addPartitionAt .release name id first length ty flags r r2) := by
  unfold addPartitionAt
  split
  · exact .refl _
  split
  · exact .refl _
  refine .bind (.refl _) fun s => ?_
  split
  · exact .refl _
  · exact .bind (.lift (findFreeSectors_unless _)) fun _ => addPartitionAtLoop_unless _ _ _ _ _ _ _ _ _

theorem updatePartitions_unless (pp : PMap) (r : Uuid) : M.Unless (updatePartitions .debug pp r) (updatePartitions .release pp r) := by
  unfold updatePartitions
  split
  · exact .refl _
  refine .bind (.refl _) fun s => .bind (.refl _) fun _ => ?_
  dsimp only
  split
  · exact .refl _
  · exact .bind (.refl _) fun _ => initHeaders_unless _

theorem writeEntries_unless (lb : LbSize) (ph : Header) (bh : Option Header) : ∀ (ps : List Partition) (i n : Nat),
    M.Unless (writeEntries .debug lb ph bh ps i n) (writeEntries .release lb ph bh ps i n)
  | [], _, _ => .refl _
  | p :: ps, i, n => by
    unfold writeEntries
    split
    · exact .refl _
    refine .bind (.mapErr _ (writeToDevice_unless _ _ _ _ _)) fun _ => ?_
    cases bh with
    | none => exact writeEntries_unless lb ph none ps _ _
    | some b =>
      simp only
      split
      · exact .bind (.refl _) fun _ => writeEntries_unless lb ph (some b) ps _ _
      split
      · exact .bind (.mapErr _ (writeToDevice_unless _ _ _ _ _)) fun _ => writeEntries_unless lb ph (some b) ps _ _
      · exact writeEntries_unless lb ph (some b) ps _ _

theorem writeZeros_unless (lb : LbSize) (h : Header) (n : Nat) : M.Unless (writeZeros .debug lb h n) (writeZeros .release lb h n) := by
  unfold writeZeros
  cases checkedSub64 h.numParts.toUInt64 (UInt64.ofNat n) with
  | none => exact .bind (.refl _) fun _ => .mapErr _ (writeZeroEntries_unless _ _ _ _ _)
  | some k => exact .mapErr _ (writeZeroEntries_unless _ _ _ _ _)

theorem writeInplace_unless : M.Unless (writeInplace .debug) (writeInplace .release) := by
  unfold writeInplace
  refine .bind (.refl _) fun s => ?_
  split
  · exact .refl _
  refine .bind (.refl _) fun _ => .bind (.refl _) fun _ => .bind (.lift ((build_unless _ _).mapErr _)) fun ph => .bind (.refl _) fun _ => ?_
  by_cases hro : s.config.readonlyBackup = true
  · rw [if_pos hro, if_pos hro]
    refine .bind (.refl _) fun bh => .bind (.onDev _ (writeEntries_unless _ _ _ _ _ _)) fun next =>
      .bind (.onDev _ (writeZeros_unless _ _ _)) fun _ => ?_
    cases bh with
    | none => exact .refl _
    | some b => exact .bind (.onDev _ (writeZeros_unless _ _ _)) fun _ => .refl _
  · rw [if_neg hro, if_neg hro]
    refine .bind (.lift ((build_unless _ _).mapErr _)) fun _ => .bind (.refl _) fun _ => .bind (.refl _) fun bh =>
      .bind (.onDev _ (writeEntries_unless _ _ _ _ _ _)) fun next => .bind (.onDev _ (writeZeros_unless _ _ _)) fun _ => ?_
    cases bh with
    | none => exact .refl _
    | some b => exact .bind (.onDev _ (writeZeros_unless _ _ _)) fun _ => .refl _

end GptDisk

open GptDisk

/-- **C80**, one call: a call in a debug build panics, or has the outcome and leaves the state it has in a release build. -/
theorem c80_call (op : Op) (s : GptDisk) :
    (op.step .debug s).1 = .panic ∨ op.step .debug s = op.step .release s := by
  cases op with
  | addPartition n sz t f a r r2 => exact (addPartition_unless n sz t f a r r2).mapOk _ s
  | addPartitionAt n i fl l t f r r2 => exact (addPartitionAt_unless n i fl l t f r r2).mapOk _ s
  | updatePartitions pp r => exact (updatePartitions_unless pp r).mapOk _ s
  | writeInplace => exact writeInplace_unless.mapOk _ s
  | _ => exact .inr rfl

/-- **C80**, opening, creating and the functions that need no disk. -/
theorem c80_open_create (cfg : GptConfig) (guid : Option Uuid) (r r2 : Uuid) (d : Dev) :
    ((openFromDevice .debug cfg d).1 = .panic ∨ openFromDevice .debug cfg d = openFromDevice .release cfg d) ∧
    ((openFile .debug cfg d).1 = .panic ∨ openFile .debug cfg d = openFile .release cfg d) ∧
    ((createFromDevice .debug cfg guid r r2 d).1 = .panic ∨
      createFromDevice .debug cfg guid r r2 d = createFromDevice .release cfg guid r r2 d) ∧
    ((createFile .debug cfg r r2 d).1 = .panic ∨ createFile .debug cfg r r2 d = createFile .release cfg r r2 d) := by
  have ho : M.Unless (openFromDevice .debug cfg) (openFromDevice .release cfg) := by
    unfold openFromDevice
    have ht : ∀ h1 h2 h, M.Unless (do
        let table ← (fileReadPartitions .debug h cfg.lbSize).mapErr GptError.io
        let d ← M.get
        pure (f := M Dev GptError) (⟨cfg, d, h.diskGuid, h1, h2, table, false⟩ : GptDisk)) (do
        let table ← (fileReadPartitions .release h cfg.lbSize).mapErr GptError.io
        let d ← M.get
        pure (⟨cfg, d, h.diskGuid, h1, h2, table, false⟩ : GptDisk)) := fun h1 h2 h =>
      .bind (.mapErr _ (fileReadPartitions_unless _ _)) fun _ => .refl _
    refine .bind (.refl _) fun h1 => .bind (.refl _) fun h2 => ?_
    cases h1 with
    | ok a =>
      cases h2 with
      | ok b => exact .bind (.refl _) fun h => ht _ _ h
      | error e =>
        simp only
        split
        · exact .bind (.refl _) fun h => ht _ _ h
        · exact .bind (.refl _) fun h => ht _ _ h
    | error e =>
      cases h2 with
      | ok b =>
        simp only
        split
        · exact .bind (.refl _) fun h => ht _ _ h
        · exact .bind (.refl _) fun h => ht _ _ h
      | error e' => exact .bind (.refl _) fun h => ht _ _ h
  have hc : ∀ guid, M.Unless (createFromDevice .debug cfg guid r r2) (createFromDevice .release cfg guid r r2) := by
    intro guid d
    unfold createFromDevice
    have h0 := initHeaders_unless r2 (blankDisk cfg d (guid.getD r))
    rcases hx : initHeaders .debug r2 (blankDisk cfg d (guid.getD r)) with ⟨x, s⟩
    rw [hx] at h0
    rcases h0 with h0 | h0
    · simp only at h0
      subst h0
      exact .inl rfl
    · rw [← h0]; exact .inr rfl
  exact ⟨ho d, M.Unless.bind ho (fun _ => .refl _) d, hc guid d, M.Unless.bind (hc none) (fun _ => .refl _) d⟩

/-- **C80**, the stand-alone functions. -/
theorem c80_functions (s : GptDisk) (b : HeaderBuilder) (h : Header) (lb : LbSize) (p : Partition) (i n l : UInt64) (k : UInt32)
    (u : Option Uuid) (r : Uuid) (d : Dev) :
    ((s.findFreeSectors .debug : Res Empty _) = .panic ∨ (s.findFreeSectors .debug : Res Empty _) = s.findFreeSectors .release) ∧
    (b.build .debug lb = .panic ∨ b.build .debug lb = b.build .release lb) ∧
    ((fileReadPartitions .debug h lb d).1 = .panic ∨ fileReadPartitions .debug h lb d = fileReadPartitions .release h lb d) ∧
    ((p.writeToDevice .debug i l lb k d).1 = .panic ∨ p.writeToDevice .debug i l lb k d = p.writeToDevice .release i l lb k d) ∧
    ((Partition.writeZeroEntries .debug i n l lb k d).1 = .panic ∨
      Partition.writeZeroEntries .debug i n l lb k d = Partition.writeZeroEntries .release i n l lb k d) ∧
    ((writeHeader .debug u r lb d).1 = .panic ∨ writeHeader .debug u r lb d = writeHeader .release u r lb d) :=
  ⟨findFreeSectors_unless s, build_unless b lb, fileReadPartitions_unless h lb d, writeToDevice_unless p i l lb k d,
    writeZeroEntries_unless i n l lb k d, writeHeader_unless u r lb d⟩

theorem foldl_unless {σ ε α β : Type} {f g : β → M σ ε α} (hu : ∀ op, M.Unless (f op) (g op)) (ops : List β) : ∀ s,
    (∀ pre op post, ops = pre ++ op :: post → (f op (pre.foldl (fun s op => (f op s).2) s)).1 ≠ .panic) →
    ops.foldl (fun s op => (f op s).2) s = ops.foldl (fun s op => (g op s).2) s := by
  induction ops with
  | nil => exact fun _ _ => rfl
  | cons op ops ih =>
    intro s h
    have h0 : f op s = g op s := (hu op s).resolve_left (h [] op ops rfl)
    have := ih (f op s).2 fun pre op' post e => h (op :: pre) op' post (by rw [e]; rfl)
    rw [List.foldl_cons, List.foldl_cons, this, h0]

/-- **C80**, histories: if no call of a history panics in the debug build, the two builds end in the same state. -/
theorem c80_history (ops : List Op) (s : GptDisk)
    (h : ∀ pre op post, ops = pre ++ op :: post → (op.step .debug (runOps .debug pre s)).1 ≠ .panic) :
    runOps .debug ops s = runOps .release ops s :=
  foldl_unless (f := Op.step .debug) (g := Op.step .release) c80_call ops s h

/-- Both alternatives occur: a start near the largest block number panics in debug builds only, an ordinary request does the same in
both. -/
example : ((Op.addPartitionAt "x" 7 (0 - 1) 1 (exPart 0 0).partType 0 Uuid.nil Uuid.nil).step .debug exDisk).1 = .panic ∧
    ((Op.addPartitionAt "x" 7 (0 - 1) 1 (exPart 0 0).partType 0 Uuid.nil Uuid.nil).step .release exDisk).1 = .ok (.id 7) ∧
    ((Op.addPartitionAt "x" 7 80 1 (exPart 0 0).partType 0 Uuid.nil Uuid.nil).step .debug exDisk).1 = .ok (.id 7) := by
  refine ⟨?_, ?_, ?_⟩ <;> decide +kernel

/-- A history that meets the hypothesis. -/
example : ∀ pre op post, [Op.addPartitionAt "x" 7 80 1 (exPart 0 0).partType 0 Uuid.nil Uuid.nil, .removePartition 7] = pre ++ op :: post →
    (op.step .debug (runOps .debug pre exDisk)).1 ≠ .panic := by
  intro pre op post h
  match pre, h with
  | [], h => cases h; decide +kernel
  | [_], h => cases h; decide +kernel
  | _ :: _ :: _, h => simp at h

end Gpt
