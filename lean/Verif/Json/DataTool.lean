import Verif.Json.DataFormats
import Verif.Data.AnimV12
/-!
# The tool ssbh_data_json

/repo/ssbh_data_json/src/main.rs without the file system: the input is the extension of its name and its content.
-/

namespace Verif

/-- A value the tool converts. -/
inductive DataFile where
  | mesh (v : MeshData)
  | skel (v : SkelData)
  | anim (v : AnimData)
  | modl (v : ModlData)
  | matl (v : MatlData)
  | hlpb (v : HlpbData)
  | meshEx (v : MeshExData)
  | adj (v : AdjData)
  deriving DecidableEq

/-- The parameters of the conversions. -/
structure DataOps where
  conv : FloatConv
  floats : FloatOps
  bounds : List (Vector F32 3) → Mesh.BoundingInfo
  sphereOf : List Mesh.BoundingSphere → Mesh.BoundingSphere
  matrices : MatOps Matrix4x4
  order : List AnimData.GroupData → List AnimData.GroupData
  checks : Bool

namespace DataFile

/-- `serde_json::to_string_pretty`, /repo/ssbh_data_json/src/main.rs:27 -/
def toJson : DataFile → J
  | .mesh v => MeshData.json.ser v
  | .skel v => SkelData.json.ser v
  | .anim v => AnimData.json.ser v
  | .modl v => ModlData.json.ser v
  | .matl v => MatlData.json.ser v
  | .hlpb v => HlpbData.json.ser v
  | .meshEx v => MeshExData.json.ser v
  | .adj v => AdjData.json.ser v

/-- The types tried one after the other, /repo/ssbh_data_json/src/main.rs:44,80-101. -/
def fromJson (j : J) : Option DataFile :=
  ((MeshData.json.de j).map .mesh).or <|
  ((SkelData.json.de j).map .skel).or <|
  ((AnimData.json.de j).map .anim).or <|
  ((ModlData.json.de j).map .modl).or <|
  ((MatlData.json.de j).map .matl).or <|
  ((HlpbData.json.de j).map .hlpb).or <|
  ((MeshExData.json.de j).map .meshEx).or <|
  ((AdjData.json.de j).map .adj)

/-- The extension of the output, /repo/ssbh_data_json/src/main.rs:80-101 -/
def extension : DataFile → String
  | .mesh _ => "numshb"
  | .skel _ => "nusktb"
  | .anim _ => "nuanmb"
  | .modl _ => "numdlb"
  | .matl _ => "numatb"
  | .hlpb _ => "nuhlpb"
  | .meshEx _ => "numshexb"
  | .adj _ => "adjb"

/-- `write_to_file` -/
def save (O : DataOps) : DataFile → Except DataErr Bytes
  | .mesh v => v.write O.conv O.bounds
  | .skel v => v.write O.matrices
  | .anim v => v.write O.floats
  | .modl v => v.write
  | .matl v => v.write
  | .hlpb v => v.write
  | .meshEx v => v.write O.sphereOf
  | .adj v => v.write

/-- What the tool does with a file. -/
inductive Shown where
  /-- The JSON is written. -/
  | json (j : J)
  /-- The error is printed. -/
  | error
  | panic
  /-- Not an extension that the tool knows. -/
  | nothing

/-- `parse_and_write_json`, /repo/ssbh_data_json/src/main.rs:21-36 -/
def shown (f : α → DataFile) : Except DataErr α → Shown
  | .ok v => .json (f v).toJson
  | .error _ => .error

/-- `main` for an extension other than "json", /repo/ssbh_data_json/src/main.rs:54-74,104 -/
def toJsonFile (O : DataOps) (ext : String) (b : Bytes) : Shown :=
  if ext = "numshb" then shown .mesh (MeshData.read O.conv b)
  else if ext = "nusktb" then shown .skel (SkelData.read b)
  else if ext = "nuanmb" then
    match AnimData.readAny O.floats O.order O.checks b with
    | none => .panic
    | some r => shown .anim r
  else if ext = "numdlb" then shown .modl (ModlData.read b)
  else if ext = "numatb" then shown .matl (MatlData.read b)
  else if ext = "nuhlpb" then shown .hlpb (HlpbData.read b)
  else if ext = "adjb" then shown .adj (AdjData.read b)
  else if ext = "numshexb" then shown .meshEx (MeshExData.read b)
  else .nothing

/-- `main` for the extension "json", /repo/ssbh_data_json/src/main.rs:38-52,75-103: the extension and the content of the
output. `none` is a panic: `unwrap` if no type accepts the JSON, or if writing the file fails. -/
def fromJsonFile (O : DataOps) (j : J) : Option (String × Bytes) :=
  match fromJson j with
  | none => none
  | some f =>
    match f.save O with
    | .error _ => none
    | .ok b => some (f.extension, b)

end DataFile

end Verif
