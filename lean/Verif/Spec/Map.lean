import Verif.Model.Gpt
/-!
# Specification: the partition table as a plain map

What each call does to a map from ids to entries, given what the call returned. Nothing here looks at how the library stores the
table or finds the extent of a new partition.
-/

namespace Gpt.Spec

/-- A plain map. -/
abbrev Map := UInt32 → Option Partition

/-- The map a table stands for. -/
def mapOf (t : PMap) : Map := fun k => (t.find? (fun e => e.1 == k)).map Prod.snd

/-- The map with one entry set. -/
def Map.set (t : Map) (k : UInt32) (p : Partition) : Map := fun i => if i = k then some p else t i

/-- The map without one entry. -/
def Map.erase (t : Map) (k : UInt32) : Map := fun i => if i = k then none else t i

/-- The calls that do not concern the table. -/
def keepsTable : Op → Prop
  | .updateGuid .. | .updateDiskDevice .. | .deviceMut .. | .writeInplace => True
  | _ => False

/-- What a call with this result does to the map. -/
inductive MapStep : Op → Res GptError OpVal → Map → Map → Prop
  | added {name : String} {size : UInt64} {ty : PType} {flags : UInt64} {align : Option UInt64} {fresh fresh2 : Uuid} {t : Map}
      (i : UInt32) (first last : UInt64) :
      MapStep (.addPartition name size ty flags align fresh fresh2) (.ok (.id i)) t (t.set i ⟨ty, fresh, first, last, flags, name⟩)
  | addedAt {name : String} {i : UInt32} {first length : UInt64} {ty : PType} {flags : UInt64} {fresh fresh2 : Uuid} {t : Map} :
      MapStep (.addPartitionAt name i first length ty flags fresh fresh2) (.ok (.id i)) t
        (t.set i ⟨ty, fresh, first, first + length - 1, flags, name⟩)
  | removed {i : UInt32} {t : Map} : t i ≠ none → MapStep (.removePartition i) (.ok (.optId (some i))) t (t.erase i)
  | notRemoved {i : UInt32} {t : Map} : t i = none → MapStep (.removePartition i) (.ok (.optId none)) t t
  | removedGuid {g : Uuid} {i : UInt32} {p : Partition} {t : Map} : t i = some p → p.partGuid = g →
      (∀ j q, t j = some q → q.partGuid = g → i ≤ j) → MapStep (.removePartitionByGuid g) (.ok (.optId (some i))) t (t.erase i)
  | notRemovedGuid {g : Uuid} {t : Map} : (∀ j q, t j = some q → q.partGuid ≠ g) →
      MapStep (.removePartitionByGuid g) (.ok (.optId none)) t t
  | taken {pp : PMap} {t : Map} : mapOf pp = t → MapStep .takePartitions (.ok (.parts pp)) t (fun _ => none)
  | replaced {pp : PMap} {fresh : Uuid} {t : Map} : MapStep (.updatePartitions pp fresh) (.ok .unit) t (mapOf pp)
  | other {op : Op} {v : OpVal} {t : Map} : keepsTable op → MapStep op (.ok v) t t
  | failed {op : Op} {e : GptError} {t : Map} : MapStep op (.err e) t t
  | panicked {op : Op} {t : Map} : MapStep op .panic t t

/-- The calls of a history with their results. -/
def trace (m : Mode) : List Op → GptDisk → List (Op × Res GptError OpVal)
  | [], _ => []
  | op :: ops, s => (op, (op.step m s).1) :: trace m ops (op.step m s).2

/-- A history applied to the map, call by call. -/
inductive MapRun (step : Op → Res GptError OpVal → Map → Map → Prop) : List (Op × Res GptError OpVal) → Map → Map → Prop
  | nil {t : Map} : MapRun step [] t t
  | cons {op : Op} {r : Res GptError OpVal} {rest : List (Op × Res GptError OpVal)} {t t' t'' : Map} :
      step op r t t' → MapRun step rest t' t'' → MapRun step ((op, r) :: rest) t t''

/-- Like `MapStep`, but a call that panics or reports a header error may have been carried out. -/
def LaxStep (op : Op) (r : Res GptError OpVal) (t t' : Map) : Prop :=
  MapStep op r t t' ∨ ((r = .panic ∨ ∃ e, r = .err (.header e)) ∧ ∃ v, MapStep op (.ok v) t t')

end Gpt.Spec
