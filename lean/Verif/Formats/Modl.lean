import Verif.Lib.File
import Verif.Formats.Vectors
/-!
# Modl

Types of /repo/ssbh_lib/src/formats/modl.rs.
Written by tools/gen_formats.py from the Rust definitions.
-/

namespace Verif
namespace Modl

/-- /repo/ssbh_lib/src/formats/modl.rs:48-57 -/
structure ModlEntry where
  mesh_object_name : SsbhString
  mesh_object_subindex : UInt64
  material_label : SsbhString
  deriving DecidableEq, Repr

def ModlEntry.codec : Codec ModlEntry :=
  struct 8 (iso (pair ssbhString (pair u64 ssbhString))
    (fun v => (v.mesh_object_name, v.mesh_object_subindex, v.material_label))
    (fun (mesh_object_name, mesh_object_subindex, material_label) => ⟨mesh_object_name, mesh_object_subindex, material_label⟩))

instance : LawC ModlEntry.codec := by
  unfold ModlEntry.codec; infer_instance

/-- The fields of `Modl::V17`, /repo/ssbh_lib/src/formats/modl.rs:16-34, with the writer of the enum for this variant. -/
structure V17Data where
  model_name : SsbhString
  skeleton_file_name : SsbhString
  material_file_names : List SsbhString
  animation_file_name : Option SsbhString
  mesh_file_name : SsbhString
  entries : List Modl.ModlEntry
  deriving DecidableEq, Repr

def V17Data.codec : Codec V17Data :=
  struct 8 (iso (pair ssbhString (pair ssbhString (pair (array ssbhString) (pair (relPtr ssbhString) (pair ssbhString8 (array Modl.ModlEntry.codec))))))
    (fun v => (v.model_name, v.skeleton_file_name, v.material_file_names, v.animation_file_name, v.mesh_file_name, v.entries))
    (fun (model_name, skeleton_file_name, material_file_names, animation_file_name, mesh_file_name, entries) => ⟨model_name, skeleton_file_name, material_file_names, animation_file_name, mesh_file_name, entries⟩))

instance : LawC V17Data.codec := by
  unfold V17Data.codec; infer_instance

end Modl

/-- /repo/ssbh_lib/src/formats/modl.rs:16-34 -/
inductive Modl where
  | V17 (v : Modl.V17Data)
  deriving DecidableEq, Repr

/-- /repo/ssbh_lib/src/formats/modl.rs:16-34, and the magic from /repo/ssbh_lib/src/lib.rs:300-309. -/
def Modl.format : Format Modl where
  magic := [0x4c, 0x44, 0x4f, 0x4d] -- LDOM
  version
    | .V17 _ => (1, 7)
  size
    | .V17 v => Modl.V17Data.codec.size v
  write v w :=
    match v with
    | .V17 v => Modl.V17Data.codec.write v w
  read major minor b p :=
    if major = 1 ∧ minor = 7 then mapRead .V17 (Modl.V17Data.codec.read b p)
    else .error .badTag
  alignAfter
    | .V17 _ => 1

instance : LawFormat Modl.format where
  magic := rfl
  lawful := by
    intro v
    cases v with
    | V17 v => exact format_variant_law (al := 8) (c := Modl.V17Data.codec) (f := Modl.V17) rfl (fun _ => rfl) (fun _ _ => rfl)
  total := by
    intro v w e h
    cases v with
    | V17 v => exact format_variant_total (c := Modl.V17Data.codec) (f := Modl.V17) (fun _ => rfl) h
  align := by intro v; cases v <;> simp [Modl.format]
  version := by
    intro major minor b p v p' h
    simp only [Modl.format] at h
    split at h
    · rename_i hv; obtain ⟨x, rfl⟩ := mapRead_ok h; obtain ⟨rfl, rfl⟩ := hv; rfl
    cases h

end Verif
