import Verif.Json.Tool
/-!
# The program ssbh_test

/repo/ssbh_test/src/main.rs without the walk through the folders: what it reports for a file.
-/

namespace Verif

/-- What is printed for a file. -/
inductive TestReport where
  | nothing
  /-- "Read/write not 1:1" -/
  | different
  /-- "Error reading" -/
  | unreadable
  | panic
  deriving DecidableEq

/-- `check_read_write_ssbh`, `check_read_write_meshex`, `check_read_write_adj`: /repo/ssbh_test/src/main.rs:49-99. `unwrap`
panics if writing fails. -/
def checkReadWrite (read : Bytes → Except RErr α) (write : α → Option Bytes) (before : Bytes) : TestReport :=
  match read before with
  | .ok v =>
    match write v with
    | none => .panic
    | some after => if before ≠ after then .different else .nothing
  | .error _ => .unreadable

/-- `main`: /repo/ssbh_test/src/main.rs:13-47. `none` for a file that it does not look at. -/
def ssbhTest (ext : String) (before : Bytes) : Option TestReport :=
  if ext ∈ ["numatb", "numdlb", "numshb", "nusktb", "nurpdb", "nufxlb", "nuanmb", "nuhlpb", "nushdb"] then
    some (checkReadWrite Ssbh.read (fun v => (JsonFile.ssbh v).write) before)
  else if ext = "numshexb" then some (checkReadWrite MeshEx.read (fun v => (JsonFile.meshEx v).write) before)
  else if ext = "adjb" then some (checkReadWrite Adj.read (fun v => (JsonFile.adj v).write) before)
  else none

end Verif
