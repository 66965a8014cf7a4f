import Verif.Lib.File
import Verif.Formats.Vectors
/-!
# Nufx

Types of /repo/ssbh_lib/src/formats/nufx.rs.
Written by tools/gen_formats.py from the Rust definitions.
-/

namespace Verif
namespace Nufx

/-- /repo/ssbh_lib/src/formats/nufx.rs:79-86 -/
structure ShaderStages where
  vertex_shader : SsbhString
  unk_shader1 : SsbhString
  unk_shader2 : SsbhString
  geometry_shader : SsbhString
  pixel_shader : SsbhString
  compute_shader : SsbhString
  deriving DecidableEq, Repr

def ShaderStages.codec : Codec ShaderStages :=
  struct 8 (iso (pair ssbhString (pair ssbhString (pair ssbhString (pair ssbhString (pair ssbhString ssbhString)))))
    (fun v => (v.vertex_shader, v.unk_shader1, v.unk_shader2, v.geometry_shader, v.pixel_shader, v.compute_shader))
    (fun (vertex_shader, unk_shader1, unk_shader2, geometry_shader, pixel_shader, compute_shader) => ⟨vertex_shader, unk_shader1, unk_shader2, geometry_shader, pixel_shader, compute_shader⟩))

instance : LawC ShaderStages.codec := by
  unfold ShaderStages.codec; infer_instance

/-- /repo/ssbh_lib/src/formats/nufx.rs:68-73 -/
structure MaterialParameter where
  param_id : UInt64
  parameter_name : SsbhString
  deriving DecidableEq, Repr

def MaterialParameter.codec : Codec MaterialParameter :=
  struct 8 (padAfter 8 (iso (pair u64 ssbhString8)
    (fun v => (v.param_id, v.parameter_name))
    (fun (param_id, parameter_name) => ⟨param_id, parameter_name⟩)))

instance : LawC MaterialParameter.codec := by
  unfold MaterialParameter.codec; infer_instance

/-- /repo/ssbh_lib/src/formats/nufx.rs:93-103 -/
structure ShaderProgramV0 where
  name : SsbhString
  render_pass : SsbhString
  shaders : Nufx.ShaderStages
  material_parameters : List Nufx.MaterialParameter
  deriving DecidableEq, Repr

def ShaderProgramV0.codec : Codec ShaderProgramV0 :=
  struct 8 (iso (pair ssbhString (pair ssbhString (pair Nufx.ShaderStages.codec (array Nufx.MaterialParameter.codec))))
    (fun v => (v.name, v.render_pass, v.shaders, v.material_parameters))
    (fun (name, render_pass, shaders, material_parameters) => ⟨name, render_pass, shaders, material_parameters⟩))

instance : LawC ShaderProgramV0.codec := by
  unfold ShaderProgramV0.codec; infer_instance

/-- /repo/ssbh_lib/src/formats/nufx.rs:127-130 -/
structure UnkItem where
  name : SsbhString
  unk1 : List SsbhString
  deriving DecidableEq, Repr

def UnkItem.codec : Codec UnkItem :=
  struct 8 (iso (pair ssbhString (array ssbhString))
    (fun v => (v.name, v.unk1))
    (fun (name, unk1) => ⟨name, unk1⟩))

instance : LawC UnkItem.codec := by
  unfold UnkItem.codec; infer_instance

/-- /repo/ssbh_lib/src/formats/nufx.rs:40-43 -/
structure NufxV0 where
  programs : List Nufx.ShaderProgramV0
  unk_string_list : List Nufx.UnkItem
  deriving DecidableEq, Repr

def NufxV0.codec : Codec NufxV0 :=
  struct 8 (iso (pair (array Nufx.ShaderProgramV0.codec) (array Nufx.UnkItem.codec))
    (fun v => (v.programs, v.unk_string_list))
    (fun (programs, unk_string_list) => ⟨programs, unk_string_list⟩))

instance : LawC NufxV0.codec := by
  unfold NufxV0.codec; infer_instance

/-- /repo/ssbh_lib/src/formats/nufx.rs:58-61 -/
structure VertexAttribute where
  name : SsbhString
  attribute_name : SsbhString
  deriving DecidableEq, Repr

def VertexAttribute.codec : Codec VertexAttribute :=
  struct 8 (iso (pair ssbhString ssbhString)
    (fun v => (v.name, v.attribute_name))
    (fun (name, attribute_name) => ⟨name, attribute_name⟩))

instance : LawC VertexAttribute.codec := by
  unfold VertexAttribute.codec; infer_instance

/-- /repo/ssbh_lib/src/formats/nufx.rs:110-122 -/
structure ShaderProgramV1 where
  name : SsbhString
  render_pass : SsbhString
  shaders : Nufx.ShaderStages
  vertex_attributes : List Nufx.VertexAttribute
  material_parameters : List Nufx.MaterialParameter
  deriving DecidableEq, Repr

def ShaderProgramV1.codec : Codec ShaderProgramV1 :=
  struct 8 (iso (pair ssbhString (pair ssbhString (pair Nufx.ShaderStages.codec (pair (array Nufx.VertexAttribute.codec) (array Nufx.MaterialParameter.codec)))))
    (fun v => (v.name, v.render_pass, v.shaders, v.vertex_attributes, v.material_parameters))
    (fun (name, render_pass, shaders, vertex_attributes, material_parameters) => ⟨name, render_pass, shaders, vertex_attributes, material_parameters⟩))

instance : LawC ShaderProgramV1.codec := by
  unfold ShaderProgramV1.codec; infer_instance

/-- /repo/ssbh_lib/src/formats/nufx.rs:48-51 -/
structure NufxV1 where
  programs : List Nufx.ShaderProgramV1
  unk_string_list : List Nufx.UnkItem
  deriving DecidableEq, Repr

def NufxV1.codec : Codec NufxV1 :=
  struct 8 (iso (pair (array Nufx.ShaderProgramV1.codec) (array Nufx.UnkItem.codec))
    (fun v => (v.programs, v.unk_string_list))
    (fun (programs, unk_string_list) => ⟨programs, unk_string_list⟩))

instance : LawC NufxV1.codec := by
  unfold NufxV1.codec; infer_instance

end Nufx

/-- /repo/ssbh_lib/src/formats/nufx.rs:19-26 -/
inductive Nufx where
  | V0 (v : Nufx.NufxV0)
  | V1 (v : Nufx.NufxV1)
  deriving DecidableEq, Repr

/-- /repo/ssbh_lib/src/formats/nufx.rs:19-26, and the magic from /repo/ssbh_lib/src/lib.rs:300-309. -/
def Nufx.format : Format Nufx where
  magic := [0x58, 0x46, 0x55, 0x4e] -- XFUN
  version
    | .V0 _ => (1, 0)
    | .V1 _ => (1, 1)
  size
    | .V0 v => (struct 8 Nufx.NufxV0.codec).size v
    | .V1 v => (struct 8 Nufx.NufxV1.codec).size v
  write v w :=
    match v with
    | .V0 v => (struct 8 Nufx.NufxV0.codec).write v w
    | .V1 v => (struct 8 Nufx.NufxV1.codec).write v w
  read major minor b p :=
    if major = 1 ∧ minor = 0 then mapRead .V0 ((struct 8 Nufx.NufxV0.codec).read b p)
    else if major = 1 ∧ minor = 1 then mapRead .V1 ((struct 8 Nufx.NufxV1.codec).read b p)
    else .error .badTag
  alignAfter
    | .V0 _ => 1
    | .V1 _ => 1

instance : LawFormat Nufx.format where
  magic := rfl
  lawful := by
    intro v
    cases v with
    | V0 v => exact format_variant_law (c := struct 8 Nufx.NufxV0.codec) (f := Nufx.V0) rfl (fun _ => rfl) (fun _ _ => rfl)
    | V1 v => exact format_variant_law (c := struct 8 Nufx.NufxV1.codec) (f := Nufx.V1) rfl (fun _ => rfl) (fun _ _ => rfl)
  total := by
    intro v w e h
    cases v with
    | V0 v => exact format_variant_total (c := struct 8 Nufx.NufxV0.codec) (f := Nufx.V0) (fun _ => rfl) h
    | V1 v => exact format_variant_total (c := struct 8 Nufx.NufxV1.codec) (f := Nufx.V1) (fun _ => rfl) h
  align := by intro v; cases v <;> simp [Nufx.format]
  version := by
    intro major minor b p v p' h
    simp only [Nufx.format] at h
    split at h
    · rename_i hv; obtain ⟨x, rfl⟩ := mapRead_ok h; obtain ⟨rfl, rfl⟩ := hv; rfl
    split at h
    · rename_i hv; obtain ⟨x, rfl⟩ := mapRead_ok h; obtain ⟨rfl, rfl⟩ := hv; rfl
    cases h

end Verif
