import Verif.Formats.Modl
import Verif.Data.Text
/-!
# ModlData

Models /repo/ssbh_data/src/modl_data.rs.
-/

namespace Verif

/-- /repo/ssbh_data/src/modl_data.rs:47-51 -/
structure ModlData.ModlEntryData where
  mesh_object_name : String
  mesh_object_subindex : UInt64
  material_label : String
  deriving DecidableEq, Repr

/-- /repo/ssbh_data/src/modl_data.rs:32-41 -/
structure ModlData where
  major_version : UInt16
  minor_version : UInt16
  model_name : String
  skeleton_file_name : String
  material_file_names : List String
  animation_file_name : Option String
  mesh_file_name : String
  entries : List ModlData.ModlEntryData
  deriving DecidableEq, Repr

namespace ModlData

/-- /repo/ssbh_data/src/modl_data.rs:124-132 -/
def ModlEntryData.ofEntry (m : Modl.ModlEntry) : ModlEntryData :=
  ⟨toStringLossy m.mesh_object_name, m.mesh_object_subindex, toStringLossy m.material_label⟩

/-- /repo/ssbh_data/src/modl_data.rs:114-122 -/
def ModlEntryData.toEntry (m : ModlEntryData) : Modl.ModlEntry :=
  ⟨ssbhText m.mesh_object_name, m.mesh_object_subindex, ssbhText m.material_label⟩

/-- /repo/ssbh_data/src/modl_data.rs:60-87 -/
def ofModl (m : Modl) : ModlData :=
  let (major, minor) := Modl.format.version m
  match m with
  | .V17 m => {
      major_version := major
      minor_version := minor
      model_name := toStringLossy m.model_name
      skeleton_file_name := toStringLossy m.skeleton_file_name
      material_file_names := m.material_file_names.map toStringLossy
      animation_file_name := m.animation_file_name.map toStringLossy
      mesh_file_name := toStringLossy m.mesh_file_name
      entries := m.entries.map .ofEntry }

/-- /repo/ssbh_data/src/modl_data.rs:95-106 -/
def toModl (m : ModlData) : Modl := .V17 {
  model_name := ssbhText m.model_name
  skeleton_file_name := ssbhText m.skeleton_file_name
  material_file_names := m.material_file_names.map ssbhText
  animation_file_name := m.animation_file_name.map ssbhText
  mesh_file_name := ssbhText m.mesh_file_name
  entries := m.entries.map (·.toEntry) }

end ModlData
end Verif
