import Verif.Model.Gpt
/-!
# Functions that take a path

`open`, `create`, `read_disk`, `read_header`, `read_partitions`, `write_header` and `Partition::write` open a file and work on it. The file system is a function from a
path and whether writing is asked for to what opening gives: an I/O error, or the file as a device. A file opened by a call that only
reads is closed when the call ends; the device it leaves is returned here so that its content can be spoken about.
-/

namespace Gpt

/-- `OpenOptions::new().write(w).read(true).open(path)` and, with `w` false, `File::open(path)`. (src/partition.rs:107, src/lib.rs:242, src/lib.rs:257,
src/partition.rs:240, src/header/mod.rs:284, src/header/mod.rs:453) -/
def Fs : Type := String → Bool → Except IoErr Dev

/-- Open the file and run `x` on it. (e.g. src/partition.rs:107) -/
def withFile {ε α : Type} (io : IoErr → ε) (o : Except IoErr Dev) (x : M Dev ε α) : Res ε α × Option Dev :=
  match o with
  | .error e => (.err (io e), none)
  | .ok d => ((x d).1, some (x d).2)

/-- `read_header_from_arbitrary_device` (src/header/mod.rs:288-294). -/
def readHeaderFromArbitraryDevice (lb : LbSize) : M Dev HeaderError Header := readPrimaryHeader lb

/-- `read_header` (src/header/mod.rs:280-286). -/
def readHeader (fs : Fs) (path : String) (lb : LbSize) : Res HeaderError Header × Option Dev :=
  withFile .io (fs path false) (readPrimaryHeader lb)

/-- `read_partitions` (src/partition.rs:234-242). -/
def readPartitions (m : Mode) (fs : Fs) (path : String) (h : Header) (lb : LbSize) : Res IoErr PMap × Option Dev :=
  withFile (fun e => e) (fs path false) (fileReadPartitions m h lb)

/-- `write_header` (src/header/mod.rs:447-468): the file is opened for reading and writing. -/
def writeHeaderPath (m : Mode) (fs : Fs) (path : String) (uuid : Option Uuid) (fresh : Uuid) (lb : LbSize) :
    Res HeaderError Uuid × Option Dev :=
  withFile .io (fs path true) (writeHeader m uuid fresh lb)

/-- `Partition::write` (src/partition.rs:100-109): likewise. -/
def Partition.writePath (m : Mode) (fs : Fs) (path : String) (p : Partition) (index startLba : UInt64) (lb : LbSize) :
    Res IoErr Unit × Option Dev :=
  withFile (fun e => e) (fs path true) (p.write m index startLba lb)

/-- `open` (src/lib.rs:239-250). -/
def openPath (m : Mode) (fs : Fs) (cfg : GptConfig) (path : String) : Res GptError GptDisk × Option Dev :=
  withFile .io (fs path cfg.writable) (openFile m cfg)

/-- `create` (src/lib.rs:252-265). -/
def createPath (m : Mode) (fs : Fs) (cfg : GptConfig) (path : String) (fresh fresh2 : Uuid) : Res GptError GptDisk × Option Dev :=
  withFile .io (fs path cfg.writable) (createFile m cfg fresh fresh2)

/-- `read_disk` (src/disk.rs:79-82). -/
def readDiskPath (m : Mode) (fs : Fs) (path : String) : Res GptError GptDisk × Option Dev := openPath m fs GptConfig.new path

end Gpt
