import Verif.Model.Base
import Verif.Model.Bytes
import Verif.Model.Crc32
import Verif.Model.Device
import Verif.Model.Disk
import Verif.Model.Uuid
import Verif.Model.Utf16
import Verif.Model.PartitionTypes
import Verif.Model.Header
import Verif.Model.Partition
import Verif.Model.Mbr
import Verif.Model.Narrow
import Verif.Model.Attributes
import Verif.Model.Gpt
import Verif.Lemmas.Base
import Verif.Lemmas.Bytes
import Verif.Lemmas.Codec
import Verif.Spec.Codec
import Verif.Props.Guid
import Verif.Spec.Name
import Verif.Spec.Text
import Verif.Lemmas.Utf16
import Verif.Lemmas.Entry
import Verif.Props.Entry
import Verif.Lemmas.Device
import Verif.Lemmas.Crc
import Verif.Lemmas.Header
import Verif.Lemmas.Builder
import Verif.Props.Mbr
import Verif.Props.Types
import Verif.Spec.Header
import Verif.Spec.Layout
import Verif.Lemmas.HeaderIo
import Verif.Props.Growth
import Verif.Props.Header
import Verif.Props.Image
import Verif.Props.Build
import Verif.Props.Builder
import Verif.Props.WriteHeader
import Verif.Spec.Alloc
import Verif.Lemmas.PMap
import Verif.Lemmas.Free
import Verif.Lemmas.Add
import Verif.Lemmas.Sections
import Verif.Props.Alloc
import Verif.Props.AnyOrder
import Verif.Props.Table
import Verif.Lemmas.Init
import Verif.Lemmas.Steps
import Verif.Lemmas.WriteMem
import Verif.Spec.Entry
import Verif.Lemmas.ReadTable
import Verif.Lemmas.Open
import Verif.Props.Open
import Verif.Lemmas.Journal
import Verif.Lemmas.WritePlan
import Verif.Lemmas.WriteLayout
import Verif.Lemmas.WriteRest
import Verif.Spec.Sane
import Verif.Lemmas.WriteSane
import Verif.Spec.Stored
import Verif.Lemmas.Reopen
import Verif.Props.Write
import Verif.Props.Rewrite
import Verif.Lemmas.Create
import Verif.Props.Create
import Verif.Lemmas.Errors
import Verif.Props.Device
import Verif.Props.Slots
import Verif.Lemmas.Cut
import Verif.Props.Crash
import Verif.Spec.Map
import Verif.Props.Reach
import Verif.Props.Overwrite
import Verif.Props.MapHistory
import Verif.Props.Overflow
import Verif.Props.Disjoint
import Verif.Lemmas.Panic
import Verif.Props.Panic
import Verif.Lemmas.Frame
import Verif.Props.Ordinary
import Verif.Props.Mixed
import Verif.Model.File
import Verif.Props.Readers
import Verif.Props.Crc
import Verif.Props.Block0
import Verif.Model.Display
import Verif.Props.Display
import Verif.Props.Outcomes
import Verif.Props.Errors
import Verif.Props.Builds
import Verif.Props.Recipe
import Verif.Props.Session
import Verif.Props.Opens
import Verif.Tests.Repo
import Verif.Props.Untouched
import Verif.Props.Ends
import Verif.Props.Gaps
import Verif.Props.AnyTable
import Verif.Props.Attributes
import Verif.Props.Calls
import Verif.Props.Canonical
import Verif.Props.Conserve
import Verif.Props.Cost
import Verif.Props.Course
import Verif.Props.Seen
import Verif.Props.Settings
import Verif.Props.Cursor
import Verif.Props.Repair
import Verif.Props.Retry
import Verif.Model.Logging
import Verif.Props.Logging
import Verif.Props.Move
import Verif.Props.Crashes
import Verif.Props.Decides
import Verif.Props.Enlarge
import Verif.Props.Exact
import Verif.Props.FewBits
import Verif.Props.FirstWrite
import Verif.Props.GrowCut
import Verif.Props.Halves
import Verif.Props.Honest
import Verif.Props.Indep
import Verif.Props.Join
import Verif.Props.KeepAligned
import Verif.Props.KeepBackup
import Verif.Props.Keeps
import Verif.Props.Labels
import Verif.Props.Larger
import Verif.Props.LastWrite
import Verif.Props.Less
import Verif.Props.Limits
import Verif.Props.Long
import Verif.Props.Memory
import Verif.Props.Narrow
import Verif.Props.NewGuid
import Verif.Props.OpenFaults
import Verif.Props.Paths
import Verif.Props.Permit
import Verif.Props.Power
import Verif.Props.Race
import Verif.Props.Reserve
import Verif.Props.Resume
import Verif.Props.Sector
import Verif.Props.Shared
import Verif.Props.Shrink
import Verif.Props.ShrinkCut
import Verif.Props.Spelling
import Verif.Props.Straddle
import Verif.Model.Stream
import Verif.Props.Stream
import Verif.Props.TypeCodes
import Verif.Props.Uefi
import Verif.Props.Undo
import Verif.Props.Unique
import Verif.Props.WrongSize
