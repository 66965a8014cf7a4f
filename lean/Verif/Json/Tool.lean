import Verif.Json.Formats
/-!
# The tool ssbh_lib_json

/repo/ssbh_lib_json/src/main.rs without the file system: the input is the extension of its name and its content.
-/

namespace Verif

/-- A value the tool converts. -/
inductive JsonFile where
  | ssbh (v : Ssbh)
  | meshEx (v : MeshEx)
  | adj (v : Adj)
  deriving DecidableEq

namespace JsonFile

/-- `write_json`, /repo/ssbh_lib_json/src/main.rs:42-49 -/
def toJson : JsonFile → J
  | .ssbh v => Ssbh.json.ser v
  | .meshEx v => MeshEx.json.ser v
  | .adj v => Adj.json.ser v

/-- The types tried by `read_json_write_data`, /repo/ssbh_lib_json/src/main.rs:51-81. For `none` nothing is written and
nothing is reported. -/
def fromJson (j : J) : Option JsonFile :=
  match Ssbh.json.de j with
  | some v => some (.ssbh v)
  | none =>
    match MeshEx.json.de j with
    | some v => some (.meshEx v)
    | none =>
      match Adj.json.de j with
      | some v => some (.adj v)
      | none => none

/-- The extension of the output, /repo/ssbh_lib_json/src/main.rs:60-80 -/
def extension : JsonFile → String
  | .ssbh (.Hlpb _) => "nuhlpb"
  | .ssbh (.Matl _) => "numatb"
  | .ssbh (.Modl _) => "numdlb"
  | .ssbh (.Mesh _) => "numshb"
  | .ssbh (.Skel _) => "nusktb"
  | .ssbh (.Anim _) => "nuanmb"
  | .ssbh (.Nlst _) => "nulstb"
  | .ssbh (.Nrpd _) => "nurpdb"
  | .ssbh (.Nufx _) => "nuflxb"
  | .ssbh (.Shdr _) => "nushdb"
  | .meshEx _ => "numshexb"
  | .adj _ => "adjb"

/-- `write_data`, /repo/ssbh_lib_json/src/main.rs:83-91; the kinds of errors are left out. -/
def write : JsonFile → Option Bytes
  | .ssbh v =>
    match v.write with
    | .ok b => some b
    | .error _ => none
  | .meshEx v =>
    match v.write with
    | .ok b => some b
    | .error _ => none
  | .adj v =>
    match v.write with
    | .ok b => some b
    | .error _ => none

/-- The reader for an extension other than "json", /repo/ssbh_lib_json/src/main.rs:97-103. -/
def read (ext : String) (b : Bytes) : Except RErr JsonFile :=
  if ext = "adjb" then
    match Adj.read b with
    | .ok v => .ok (.adj v)
    | .error e => .error e
  else if ext = "numshexb" then
    match MeshEx.read b with
    | .ok v => .ok (.meshEx v)
    | .error e => .error e
  else
    match Ssbh.read b with
    | .ok v => .ok (.ssbh v)
    | .error e => .error e

end JsonFile

end Verif
