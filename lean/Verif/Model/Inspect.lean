import Verif.Model.File
import Verif.Model.Display
/-!
# The example program (examples/inspect.rs)

The text `{:#?}` makes of a header and of the partitions is not modelled; the values that are printed are.
-/

namespace Gpt

/-- What the program leaves: its exit status, the values it prints, and what it prints to standard error (the runtime's report of a panic
aside). (examples/inspect.rs:3-9) -/
structure Ran where
  status : Nat
  printed : Option (Except HeaderError Header × PMap)
  complaint : Bytes

/-- The image that is taken if none is named (examples/inspect.rs:13). -/
def inspectSample : String := "tests/fixtures/gpt-disk.img"

/-- `main` and `run` (examples/inspect.rs:3-25). `args` are the program's arguments with its own name first; `io` is how the standard library
words an I/O error. A panic ends a program with status 101. -/
def inspect (m : Mode) (io : IoErr → Bytes) (fs : Fs) (args : List String) : Ran × Option Dev :=
  match openPath m fs (GptConfig.new.setWritable false) (args[1]?.getD inspectSample) with
  | (.ok disk, d) => (⟨0, some (disk.primaryHeader?, disk.partitions), []⟩, d)
  | (.err e, d) => (⟨1, none, utf8 "Failed to inspect image: " ++ e.display io ++ utf8 "\n"⟩, d)
  | (.panic, d) => (⟨101, none, []⟩, d)

end Gpt
