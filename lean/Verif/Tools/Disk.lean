import Verif.Json.Tool
import Verif.Json.DataTool
/-!
# Files on a disk

`from_file` and `write_to_file`, and the programs ssbh_lib_json and ssbh_data_json with their arguments.
-/

namespace Verif

/-- A path: the folder, and the name of the file in it. Simplified: different paths are different files (no links), and the
name is not "..". -/
structure Path where
  folder : List Char
  name : List Char
  deriving DecidableEq

namespace Path

/-- The parts before and after the last dot (`rsplit_file_at_dot` in `std::path`). -/
def splitDot (n : List Char) : Option (List Char × List Char) :=
  if '.' ∈ n then some (((n.reverse.dropWhile (· ≠ '.')).drop 1).reverse, (n.reverse.takeWhile (· ≠ '.')).reverse) else none

/-- `Path::extension` -/
def extension (p : Path) : Option String :=
  match splitDot p.name with
  | none => none
  | some (before, after) => if before = [] then none else some (String.ofList after)

/-- `Path::with_extension` for an extension which is not empty. -/
def withExtension (p : Path) (ext : String) : Path :=
  match splitDot p.name with
  | none => ⟨p.folder, p.name ++ '.' :: ext.toList⟩
  | some (before, _) => if before = [] then ⟨p.folder, p.name ++ '.' :: ext.toList⟩ else ⟨p.folder, before ++ '.' :: ext.toList⟩

/-- The path as text with something appended, /repo/ssbh_lib_json/src/main.rs:30, /repo/ssbh_data_json/src/main.rs:62 -/
def append (p : Path) (s : String) : Path := ⟨p.folder, p.name ++ s.toList⟩

end Path

/-- The contents of the files, and for which paths `File::create` succeeds. Simplified: this does not change, and writing to a
created file does not fail. -/
structure Disk where
  files : Path → Option Bytes
  mayCreate : Path → Bool

namespace Disk

def set (d : Disk) (p : Path) (b : Bytes) : Disk := { d with files := fun q => if q = p then some b else d.files q }

/-- `File::create`: the file is empty then. -/
def create (d : Disk) (p : Path) : Option Disk := if d.mayCreate p then some (d.set p []) else none

end Disk

/-! ## ssbh_lib -/

namespace JsonFile

/-- `write_to_file` of `SsbhFile`, `MeshEx` and `Adj`: /repo/ssbh_lib/src/lib.rs:197-201,291-295,774-788. The first component
is whether it succeeds. -/
def writeToFile (f : JsonFile) (p : Path) (d : Disk) : Bool × Disk :=
  match d.create p with
  | none => (false, d)
  | some d =>
    match f.write with
    | none => (false, d)
    | some b => (true, d.set p b)

/-- `from_file` of the type for the extension: /repo/ssbh_lib/src/lib.rs:174-178,267-271. -/
def fromFile (ext : String) (p : Path) (d : Disk) : Option JsonFile :=
  match d.files p with
  | none => none
  | some b =>
    match read ext b with
    | .error _ => none
    | .ok f => some f

end JsonFile

/-- `T::write_to_file`, /repo/ssbh_lib/src/lib.rs:253-257,774-788 -/
def writeToFileAs [SsbhType α] (v : α) (p : Path) (d : Disk) : Bool × Disk :=
  match d.create p with
  | none => (false, d)
  | some d =>
    match writeAs v with
    | .error _ => (false, d)
    | .ok b => (true, d.set p b)

/-- `T::from_file`, /repo/ssbh_lib/src/lib.rs:225-232 -/
def fromFileAs (α : Type) [SsbhType α] (p : Path) (d : Disk) : Option α :=
  match d.files p with
  | none => none
  | some b =>
    match readAs α b with
    | .error _ => none
    | .ok v => some v

/-! ## ssbh_data -/

namespace DataFile

/-- `try_from` or `from`, the first step of `write_to_file`: /repo/ssbh_data/src/lib.rs:121-128,189-194 -/
def convert (O : DataOps) : DataFile → Option JsonFile
  | .mesh v =>
    match MeshData.toMesh O.conv O.bounds v with
    | .error _ => none
    | .ok m => some (.ssbh (.Mesh m))
  | .skel v =>
    match v.toSkel O.matrices with
    | some (.ok f) => some (.ssbh (.Skel f))
    | _ => none
  | .anim v =>
    match AnimData.create O.floats v with
    | .error _ => none
    | .ok a => some (.ssbh (.Anim a))
  | .modl v => some (.ssbh (.Modl v.toModl))
  | .matl v =>
    match v.toMatl with
    | .error _ => none
    | .ok f => some (.ssbh (.Matl f))
  | .hlpb v => some (.ssbh (.Hlpb v.toHlpb))
  | .meshEx v => some (.meshEx (v.toMeshEx O.sphereOf))
  | .adj v => some (.adj v.toAdj)

/-- `write_to_file`, /repo/ssbh_data/src/lib.rs:121-128,189-194 -/
def writeToFile (O : DataOps) (f : DataFile) (p : Path) (d : Disk) : Bool × Disk :=
  match f.convert O with
  | none => (false, d)
  | some g => g.writeToFile p d

end DataFile

/-! ## The programs -/

/-- How a program ends. -/
inductive Exit where
  /-- The output is written. -/
  | done
  /-- Only a message is printed. -/
  | message
  | panic
  /-- Nothing happens. -/
  | nothing
  deriving DecidableEq

/-- The text of JSON values: `serde_json::to_string_pretty` and `serde_json::from_str`. -/
structure JsonText where
  print : J → String
  parse : String → Option J

/-- `write_json` after reading, /repo/ssbh_lib_json/src/main.rs:42-49 and /repo/ssbh_data_json/src/main.rs:27-32 -/
def writeJson (T : JsonText) (j : J) (out : Path) (d : Disk) : Exit × Disk :=
  match d.create out with
  | none => (.panic, d)
  | some d => (.done, d.set out (textBytes (T.print j)))

/-- ssbh_lib_json: /repo/ssbh_lib_json/src/main.rs:20-104 -/
def libMain (T : JsonText) (input : Path) (output : Option Path) (d : Disk) : Exit × Disk :=
  match input.extension with
  | none => (.panic, d)
  | some ext =>
    if ext = "json" then
      match (d.files input).bind fromUtf8 with
      | none => (.panic, d)
      | some s =>
        match (T.parse s).bind JsonFile.fromJson with
        | none => (.nothing, d)
        | some f =>
          match f.writeToFile (output.getD (input.withExtension f.extension)) d with
          | (true, d) => (.done, d)
          | (false, d) => (.panic, d)
    else
      match JsonFile.fromFile ext input d with
      | none => (.message, d)
      | some f => writeJson T f.toJson (output.getD (input.append ".json")) d

/-- ssbh_data_json: /repo/ssbh_data_json/src/main.rs:21-106 -/
def dataMain (T : JsonText) (O : DataOps) (input : Path) (output : Option Path) (d : Disk) : Exit × Disk :=
  match input.extension with
  | none => (.panic, d)
  | some ext =>
    if ext = "json" then
      match (d.files input).bind fromUtf8 with
      | none => (.panic, d)
      | some s =>
        match (T.parse s).bind DataFile.fromJson with
        | none => (.panic, d)
        | some f =>
          match f.writeToFile O (output.getD (input.withExtension f.extension)) d with
          | (true, d) => (.done, d)
          | (false, d) => (.panic, d)
    else
      match d.files input with
      | none =>
        if ext ∈ ["numshb", "nusktb", "nuanmb", "numdlb", "numatb", "nuhlpb", "adjb", "numshexb"] then (.message, d) else (.nothing, d)
      | some b =>
        match DataFile.toJsonFile O ext b with
        | .nothing => (.nothing, d)
        | .error => (.message, d)
        | .panic => (.panic, d)
        | .json j => writeJson T j (output.getD (input.append ".json")) d

end Verif
