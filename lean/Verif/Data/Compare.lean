import Verif.Data.DataFiles
import Verif.Data.AdjMesh
/-!
# Comparing data

The derived implementations of `PartialEq` for the types in /repo/ssbh_data/src that have one: all fields are compared in order.
Floats are compared by `f32::eq`, which is `AdjData.floatEq`; types without floats by `==` of the model.
-/

namespace Verif

/-- `Vec::eq`: the same length and equal elements. -/
def listEq (f : α → α → Bool) : List α → List α → Bool
  | [], [] => true
  | a :: as, b :: bs => f a b && listEq f as bs
  | _, _ => false

/-- /repo/ssbh_lib/src/vectors.rs:10 -/
def Vector3.eqR (a b : Vector3) : Bool :=
  AdjData.floatEq a.x b.x && AdjData.floatEq a.y b.y && AdjData.floatEq a.z b.z

/-- /repo/ssbh_lib/src/vectors.rs:215 -/
def Vector4.eqR (a b : Vector4) : Bool :=
  AdjData.floatEq a.x b.x && AdjData.floatEq a.y b.y && AdjData.floatEq a.z b.z && AdjData.floatEq a.w b.w

/-- /repo/ssbh_lib/src/vectors.rs:331 -/
def Color4f.eqR (a b : Color4f) : Bool :=
  AdjData.floatEq a.r b.r && AdjData.floatEq a.g b.g && AdjData.floatEq a.b b.b && AdjData.floatEq a.a b.a

/-- /repo/ssbh_lib/src/formats/matl.rs:650 -/
def Matl.UvTransform.eqR (a b : Matl.UvTransform) : Bool :=
  AdjData.floatEq a.scale_u b.scale_u && AdjData.floatEq a.scale_v b.scale_v && AdjData.floatEq a.rotation b.rotation && AdjData.floatEq a.translate_u b.translate_u && AdjData.floatEq a.translate_v b.translate_v

/-- /repo/ssbh_lib/src/formats/mesh.rs:128 -/
def Mesh.BoundingSphere.eqR (a b : Mesh.BoundingSphere) : Bool :=
  Vector3.eqR a.center b.center && AdjData.floatEq a.radius b.radius

/-- /repo/ssbh_data/src/skel_data.rs:53: a `[[f32; 4]; 4]`, which the model has as a `Matrix4x4`. Arrays are compared like structs. -/
def Matrix4x4.eqR (a b : Matrix4x4) : Bool :=
  Vector4.eqR a.col1 b.col1 && Vector4.eqR a.col2 b.col2 && Vector4.eqR a.col3 b.col3 && Vector4.eqR a.col4 b.col4

/-- /repo/ssbh_data/src/hlpb_data.rs:26 -/
def HlpbData.AimConstraintData.eqR (a b : HlpbData.AimConstraintData) : Bool :=
  (a.name == b.name) && (a.aim_bone_name1 == b.aim_bone_name1) && (a.aim_bone_name2 == b.aim_bone_name2) && (a.aim_type1 == b.aim_type1) && (a.aim_type2 == b.aim_type2) && (a.target_bone_name1 == b.target_bone_name1) && (a.target_bone_name2 == b.target_bone_name2) && (a.unk1 == b.unk1) && (a.unk2 == b.unk2) && Vector3.eqR a.aim b.aim && Vector3.eqR a.up b.up && Vector4.eqR a.quat1 b.quat1 && Vector4.eqR a.quat2 b.quat2

/-- /repo/ssbh_data/src/hlpb_data.rs:46 -/
def HlpbData.OrientConstraintData.eqR (a b : HlpbData.OrientConstraintData) : Bool :=
  (a.name == b.name) && (a.parent_bone_name1 == b.parent_bone_name1) && (a.parent_bone_name2 == b.parent_bone_name2) && (a.source_bone_name == b.source_bone_name) && (a.target_bone_name == b.target_bone_name) && (a.unk_type == b.unk_type) && Vector3.eqR a.constraint_axes b.constraint_axes && Vector4.eqR a.quat1 b.quat1 && Vector4.eqR a.quat2 b.quat2 && Vector3.eqR a.range_min b.range_min && Vector3.eqR a.range_max b.range_max

/-- /repo/ssbh_data/src/hlpb_data.rs:13 -/
def HlpbData.eqR (a b : HlpbData) : Bool :=
  (a.major_version == b.major_version) && (a.minor_version == b.minor_version) && listEq HlpbData.AimConstraintData.eqR a.aim_constraints b.aim_constraints && listEq HlpbData.OrientConstraintData.eqR a.orient_constraints b.orient_constraints

/-- /repo/ssbh_data/src/matl_data.rs:147 -/
def MatlData.SamplerData.eqR (a b : MatlData.SamplerData) : Bool :=
  (a.wraps == b.wraps) && (a.wrapt == b.wrapt) && (a.wrapr == b.wrapr) && (a.min_filter == b.min_filter) && (a.mag_filter == b.mag_filter) && Color4f.eqR a.border_color b.border_color && AdjData.floatEq a.lod_bias b.lod_bias && (a.max_anisotropy == b.max_anisotropy)

/-- /repo/ssbh_data/src/matl_data.rs:373 -/
def MatlData.RasterizerStateData.eqR (a b : MatlData.RasterizerStateData) : Bool :=
  (a.fill_mode == b.fill_mode) && (a.cull_mode == b.cull_mode) && AdjData.floatEq a.depth_bias b.depth_bias

/-- /repo/ssbh_data/src/matl_data.rs:112 -/
def MatlData.ParamData.eqR (f : α → α → Bool) (a b : MatlData.ParamData α) : Bool := (a.param_id == b.param_id) && f a.data b.data

/-- /repo/ssbh_data/src/matl_data.rs:94 -/
def MatlData.MatlEntryData.eqR (a b : MatlData.MatlEntryData) : Bool :=
  (a.material_label == b.material_label) && (a.shader_label == b.shader_label) && (a.blend_states == b.blend_states) && listEq (MatlData.ParamData.eqR AdjData.floatEq) a.floats b.floats && (a.booleans == b.booleans) && listEq (MatlData.ParamData.eqR Vector4.eqR) a.vectors b.vectors && listEq (MatlData.ParamData.eqR MatlData.RasterizerStateData.eqR) a.rasterizer_states b.rasterizer_states && listEq (MatlData.ParamData.eqR MatlData.SamplerData.eqR) a.samplers b.samplers && (a.textures == b.textures) && listEq (MatlData.ParamData.eqR Matl.UvTransform.eqR) a.uv_transforms b.uv_transforms

/-- /repo/ssbh_data/src/matl_data.rs:81 -/
def MatlData.eqR (a b : MatlData) : Bool :=
  (a.major_version == b.major_version) && (a.minor_version == b.minor_version) && listEq MatlData.MatlEntryData.eqR a.entries b.entries

/-- /repo/ssbh_data/src/skel_data.rs:47 -/
def SkelData.BoneData.eqR (a b : SkelData.BoneData) : Bool :=
  (a.name == b.name) && Matrix4x4.eqR a.transform b.transform && (a.parent_index == b.parent_index) && (a.billboard_type == b.billboard_type)

/-- /repo/ssbh_data/src/skel_data.rs:33 -/
def SkelData.eqR (a b : SkelData) : Bool :=
  (a.major_version == b.major_version) && (a.minor_version == b.minor_version) && listEq SkelData.BoneData.eqR a.bones b.bones

/-- /repo/ssbh_data/src/meshex_data.rs:32 -/
def MeshExData.MeshObjectGroupData.eqR (a b : MeshExData.MeshObjectGroupData) : Bool :=
  Mesh.BoundingSphere.eqR a.bounding_sphere b.bounding_sphere && (a.mesh_object_full_name == b.mesh_object_full_name) && (a.mesh_object_name == b.mesh_object_name) && (a.entry_flags == b.entry_flags)

/-- /repo/ssbh_data/src/meshex_data.rs:21 -/
def MeshExData.eqR (a b : MeshExData) : Bool :=
  listEq MeshExData.MeshObjectGroupData.eqR a.mesh_object_groups b.mesh_object_groups

/-- /repo/ssbh_data/src/anim_data.rs:671 -/
def UvTransform.eqR (a b : UvTransform) : Bool :=
  AdjData.floatEq a.scale_u b.scale_u && AdjData.floatEq a.scale_v b.scale_v && AdjData.floatEq a.rotation b.rotation && AdjData.floatEq a.translate_u b.translate_u && AdjData.floatEq a.translate_v b.translate_v

/-- /repo/ssbh_data/src/anim_data.rs:683 -/
def Transform.eqR (a b : Transform) : Bool :=
  Vector3.eqR a.scale b.scale && Vector4.eqR a.rotation b.rotation && Vector3.eqR a.translation b.translation

/-- /repo/ssbh_data/src/anim_data.rs:721 -/
def TrackValues.eqR : TrackValues → TrackValues → Bool
  | .transform a, .transform b => listEq Transform.eqR a b
  | .uvTransform a, .uvTransform b => listEq UvTransform.eqR a b
  | .float a, .float b => listEq AdjData.floatEq a b
  | .patternIndex a, .patternIndex b => a == b
  | .boolean a, .boolean b => a == b
  | .vector4 a, .vector4 b => listEq Vector4.eqR a b
  | _, _ => false

/-- /repo/ssbh_data/src/anim_data.rs:606 -/
def AnimData.TrackData.eqR (a b : AnimData.TrackData) : Bool :=
  (a.name == b.name) && (a.compensate_scale == b.compensate_scale) && (a.transform_flags == b.transform_flags) && TrackValues.eqR a.values b.values

/-- /repo/ssbh_data/src/anim_data.rs:582 -/
def AnimData.NodeData.eqR (a b : AnimData.NodeData) : Bool :=
  (a.name == b.name) && listEq AnimData.TrackData.eqR a.tracks b.tracks

/-- /repo/ssbh_data/src/anim_data.rs:572 -/
def AnimData.GroupData.eqR (a b : AnimData.GroupData) : Bool :=
  (a.group_type == b.group_type) && listEq AnimData.NodeData.eqR a.nodes b.nodes

/-- /repo/ssbh_data/src/anim_data.rs:68 -/
def AnimData.eqR (a b : AnimData) : Bool :=
  (a.major_version == b.major_version) && (a.minor_version == b.minor_version) && AdjData.floatEq a.final_frame_index b.final_frame_index && listEq AnimData.GroupData.eqR a.groups b.groups

end Verif
