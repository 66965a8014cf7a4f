import Verif.Image.Formats
import Verif.Formats.MeshEx
/-!
# The bytes of MeshEx files
-/

namespace Verif.MeshEx

/-- /repo/ssbh_lib/src/formats/meshex.rs:48-54 -/
def MeshEntry.image (v : MeshEntry) : Image.Piece := Image.u32 v.mesh_object_group_index ▹ Vector3.image v.unk1

/-- /repo/ssbh_lib/src/formats/meshex.rs:60-63 -/
def AllData.image (v : AllData) : Image.Piece :=
  Mesh.BoundingSphere.image v.bounding_sphere ▹ Image.absolute 16 (Image.chars 16) v.name

/-- /repo/ssbh_lib/src/formats/meshex.rs:69-76 -/
def MeshObjectGroup.image (v : MeshObjectGroup) : Image.Piece :=
  Mesh.BoundingSphere.image v.bounding_sphere ▹ Image.absolute 4 (Image.chars 4) v.mesh_object_full_name ▹
    Image.absolute 4 (Image.chars 4) v.mesh_object_name

/-- The number of elements; a null list has none. -/
def count : Option (List α) → Nat
  | none => 0
  | some vs => vs.length

/-- The length of the file, the two counts (modulo 2^32), and the fields. /repo/ssbh_lib/src/formats/meshex.rs:17-41 -/
def fields (length : Nat) (v : MeshEx) : Image.Piece :=
  Image.number 8 length ▹ Image.number 4 (count v.entries) ▹ Image.number 4 (count v.mesh_object_groups) ▹
    Image.absolute 16 (Image.record AllData.image) v.all_data ▹
    Image.absolute 16 (Image.record (Image.many MeshObjectGroup.image)) v.mesh_object_groups ▹
    Image.absolute 16 (Image.record (Image.many MeshEntry.image)) v.entries ▹
    Image.absolute 16 (Image.record (Image.many Image.u16)) v.entry_flags ▹ Image.u32 v.unk1

/-- The fields have 52 bytes. What they refer to begins at 64. -/
def body (length : Nat) (v : MeshEx) : Bytes :=
  let x := (fields length v).make 0 52 64
  x.here ++ x.appended

/-- The length is a multiple of 16. -/
def image (v : MeshEx) : Bytes :=
  let n := Image.next 16 (body 0 v).length
  body n v ++ Image.zero (n - (body 0 v).length)

/-- The first position after everything. -/
def stop (v : MeshEx) : Nat := ((fields 0 v).make 0 52 64).free

end Verif.MeshEx
