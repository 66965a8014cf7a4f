import Verif.Layout.Spec
import Verif.Formats.Ssbh
/-!
# Layouts of the ten formats

Written by tools/gen_layout.py from the Rust definitions.
-/

namespace Verif

/-! ## Vectors and matrices -/

/-- /repo/ssbh_lib/src/vectors.rs:11-15 -/
def Vector3.layout : Layout Vector3 :=
  ⟨12, fun b p v =>
    Layout.f32.stored b p v.x ∧
    Layout.f32.stored b (p + 4) v.y ∧
    Layout.f32.stored b (p + 8) v.z⟩

/-- /repo/ssbh_lib/src/vectors.rs:134-138 -/
def Matrix3x3.layout : Layout Matrix3x3 :=
  ⟨36, fun b p v =>
    Vector3.layout.stored b p v.col1 ∧
    Vector3.layout.stored b (p + 12) v.col2 ∧
    Vector3.layout.stored b (p + 24) v.col3⟩

/-- /repo/ssbh_lib/src/vectors.rs:216-221 -/
def Vector4.layout : Layout Vector4 :=
  ⟨16, fun b p v =>
    Layout.f32.stored b p v.x ∧
    Layout.f32.stored b (p + 4) v.y ∧
    Layout.f32.stored b (p + 8) v.z ∧
    Layout.f32.stored b (p + 12) v.w⟩

/-- /repo/ssbh_lib/src/vectors.rs:332-337 -/
def Color4f.layout : Layout Color4f :=
  ⟨16, fun b p v =>
    Layout.f32.stored b p v.r ∧
    Layout.f32.stored b (p + 4) v.g ∧
    Layout.f32.stored b (p + 8) v.b ∧
    Layout.f32.stored b (p + 12) v.a⟩

/-- /repo/ssbh_lib/src/vectors.rs:343-348 -/
def Matrix4x4.layout : Layout Matrix4x4 :=
  ⟨64, fun b p v =>
    Vector4.layout.stored b p v.col1 ∧
    Vector4.layout.stored b (p + 16) v.col2 ∧
    Vector4.layout.stored b (p + 32) v.col3 ∧
    Vector4.layout.stored b (p + 48) v.col4⟩

/-! ## Nlst -/

/-- `Nlst::V10`, /repo/ssbh_lib/src/formats/nlst.rs:14-17 -/
def Nlst.V10Data.layout : Layout Nlst.V10Data :=
  ⟨16, fun b p v =>
    (Layout.list Layout.text).stored b p v.file_names⟩

/-- /repo/ssbh_lib/src/formats/nlst.rs:14-17, and the magic from /repo/ssbh_lib/src/lib.rs:300-309: TSLN -/
def Nlst.FileAt (b : Bytes) : Nlst → Prop
  | .V10 v => Layout.FileAt [0x54, 0x53, 0x4c, 0x4e] 1 0 (fun b p => Nlst.V10Data.layout.stored b p v) b

/-! ## Shdr -/

/-- /repo/ssbh_lib/src/formats/shdr.rs:47-52 -/
def Shdr.ShaderStage.layout : Layout Shdr.ShaderStage := Layout.enum 4

/-- /repo/ssbh_lib/src/formats/shdr.rs:30-39 -/
def Shdr.Shader.layout : Layout Shdr.Shader :=
  ⟨56, fun b p v =>
    Layout.text.stored b p v.name ∧
    Shdr.ShaderStage.layout.stored b (p + 8) v.shader_stage ∧
    Layout.u32.stored b (p + 12) v.unk3 ∧
    Layout.buffer.stored b (p + 16) v.shader_binary ∧
    Layout.u64.stored b (p + 32) v.binary_size⟩

/-- `Shdr::V12`, /repo/ssbh_lib/src/formats/shdr.rs:13-16 -/
def Shdr.V12Data.layout : Layout Shdr.V12Data :=
  ⟨16, fun b p v =>
    (Layout.list Shdr.Shader.layout).stored b p v.shaders⟩

/-- /repo/ssbh_lib/src/formats/shdr.rs:13-16, and the magic from /repo/ssbh_lib/src/lib.rs:300-309: RDHS -/
def Shdr.FileAt (b : Bytes) : Shdr → Prop
  | .V12 v => Layout.FileAt [0x52, 0x44, 0x48, 0x53] 1 2 (fun b p => Shdr.V12Data.layout.stored b p v) b

/-! ## Modl -/

/-- /repo/ssbh_lib/src/formats/modl.rs:48-57 -/
def Modl.ModlEntry.layout : Layout Modl.ModlEntry :=
  ⟨24, fun b p v =>
    Layout.text.stored b p v.mesh_object_name ∧
    Layout.u64.stored b (p + 8) v.mesh_object_subindex ∧
    Layout.text.stored b (p + 16) v.material_label⟩

/-- `Modl::V17`, /repo/ssbh_lib/src/formats/modl.rs:16-34 -/
def Modl.V17Data.layout : Layout Modl.V17Data :=
  ⟨64, fun b p v =>
    Layout.text.stored b p v.model_name ∧
    Layout.text.stored b (p + 8) v.skeleton_file_name ∧
    (Layout.list Layout.text).stored b (p + 16) v.material_file_names ∧
    (Layout.pointer Layout.text).stored b (p + 32) v.animation_file_name ∧
    Layout.text.stored b (p + 40) v.mesh_file_name ∧
    (Layout.list Modl.ModlEntry.layout).stored b (p + 48) v.entries⟩

/-- /repo/ssbh_lib/src/formats/modl.rs:16-34, and the magic from /repo/ssbh_lib/src/lib.rs:300-309: LDOM -/
def Modl.FileAt (b : Bytes) : Modl → Prop
  | .V17 v => Layout.FileAt [0x4c, 0x44, 0x4f, 0x4d] 1 7 (fun b p => Modl.V17Data.layout.stored b p v) b

/-! ## Skel -/

/-- /repo/ssbh_lib/src/formats/skel.rs:97-112 -/
def Skel.BillboardType.layout : Layout Skel.BillboardType := Layout.enum 1

/-- /repo/ssbh_lib/src/formats/skel.rs:72-76 -/
def Skel.SkelEntryFlags.layout : Layout Skel.SkelEntryFlags :=
  ⟨4, fun b p v =>
    Layout.u8.stored b p v.unk1 ∧
    Skel.BillboardType.layout.stored b (p + 1) v.billboard_type⟩

/-- /repo/ssbh_lib/src/formats/skel.rs:58-66 -/
def Skel.SkelBoneEntry.layout : Layout Skel.SkelBoneEntry :=
  ⟨16, fun b p v =>
    Layout.text.stored b p v.name ∧
    Layout.u16.stored b (p + 8) v.index ∧
    Layout.i16.stored b (p + 10) v.parent_index ∧
    Skel.SkelEntryFlags.layout.stored b (p + 12) v.flags⟩

/-- `Skel::V10`, /repo/ssbh_lib/src/formats/skel.rs:25-43 -/
def Skel.V10Data.layout : Layout Skel.V10Data :=
  ⟨80, fun b p v =>
    (Layout.list Skel.SkelBoneEntry.layout).stored b p v.bone_entries ∧
    (Layout.list Matrix4x4.layout).stored b (p + 16) v.world_transforms ∧
    (Layout.list Matrix4x4.layout).stored b (p + 32) v.inv_world_transforms ∧
    (Layout.list Matrix4x4.layout).stored b (p + 48) v.transforms ∧
    (Layout.list Matrix4x4.layout).stored b (p + 64) v.inv_transforms⟩

/-- /repo/ssbh_lib/src/formats/skel.rs:25-43, and the magic from /repo/ssbh_lib/src/lib.rs:300-309: LEKS -/
def Skel.FileAt (b : Bytes) : Skel → Prop
  | .V10 v => Layout.FileAt [0x4c, 0x45, 0x4b, 0x53] 1 0 (fun b p => Skel.V10Data.layout.stored b p v) b

/-! ## Hlpb -/

/-- /repo/ssbh_lib/src/formats/hlpb.rs:54-77 -/
def Hlpb.AimConstraint.layout : Layout Hlpb.AimConstraint :=
  ⟨144, fun b p v =>
    Layout.text.stored b p v.name ∧
    Layout.text.stored b (p + 8) v.aim_bone_name1 ∧
    Layout.text.stored b (p + 16) v.aim_bone_name2 ∧
    Layout.text.stored b (p + 24) v.aim_type1 ∧
    Layout.text.stored b (p + 32) v.aim_type2 ∧
    Layout.text.stored b (p + 40) v.target_bone_name1 ∧
    Layout.text.stored b (p + 48) v.target_bone_name2 ∧
    Layout.u32.stored b (p + 56) v.unk1 ∧
    Layout.u32.stored b (p + 60) v.unk2 ∧
    Vector3.layout.stored b (p + 64) v.aim ∧
    Vector3.layout.stored b (p + 76) v.up ∧
    Vector4.layout.stored b (p + 88) v.quat1 ∧
    Vector4.layout.stored b (p + 104) v.quat2 ∧
    Layout.f32.stored b (p + 120) v.unk17 ∧
    Layout.f32.stored b (p + 124) v.unk18 ∧
    Layout.f32.stored b (p + 128) v.unk19 ∧
    Layout.f32.stored b (p + 132) v.unk20 ∧
    Layout.f32.stored b (p + 136) v.unk21 ∧
    Layout.f32.stored b (p + 140) v.unk22⟩

/-- /repo/ssbh_lib/src/formats/hlpb.rs:85-112 -/
def Hlpb.OrientConstraint.layout : Layout Hlpb.OrientConstraint :=
  ⟨112, fun b p v =>
    Layout.text.stored b p v.name ∧
    Layout.text.stored b (p + 8) v.parent_bone_name1 ∧
    Layout.text.stored b (p + 16) v.parent_bone_name2 ∧
    Layout.text.stored b (p + 24) v.source_bone_name ∧
    Layout.text.stored b (p + 32) v.target_bone_name ∧
    Layout.u32.stored b (p + 40) v.unk_type ∧
    Vector3.layout.stored b (p + 44) v.constraint_axes ∧
    Vector4.layout.stored b (p + 56) v.quat1 ∧
    Vector4.layout.stored b (p + 72) v.quat2 ∧
    Vector3.layout.stored b (p + 88) v.range_min ∧
    Vector3.layout.stored b (p + 100) v.range_max⟩

/-- /repo/ssbh_lib/src/formats/hlpb.rs:120-125 -/
def Hlpb.ConstraintType.layout : Layout Hlpb.ConstraintType := Layout.enum 4

/-- `Hlpb::V11`, /repo/ssbh_lib/src/formats/hlpb.rs:19-36 -/
def Hlpb.V11Data.layout : Layout Hlpb.V11Data :=
  ⟨64, fun b p v =>
    (Layout.list Hlpb.AimConstraint.layout).stored b p v.aim_constraints ∧
    (Layout.list Hlpb.OrientConstraint.layout).stored b (p + 16) v.orient_constraints ∧
    (Layout.list Layout.u32).stored b (p + 32) v.constraint_indices ∧
    (Layout.list Hlpb.ConstraintType.layout).stored b (p + 48) v.constraint_types⟩

/-- /repo/ssbh_lib/src/formats/hlpb.rs:19-36, and the magic from /repo/ssbh_lib/src/lib.rs:300-309: BPLH -/
def Hlpb.FileAt (b : Bytes) : Hlpb → Prop
  | .V11 v => Layout.FileAt [0x42, 0x50, 0x4c, 0x48] 1 1 (fun b p => Hlpb.V11Data.layout.stored b p v) b

/-! ## Nufx -/

/-- /repo/ssbh_lib/src/formats/nufx.rs:79-86 -/
def Nufx.ShaderStages.layout : Layout Nufx.ShaderStages :=
  ⟨48, fun b p v =>
    Layout.text.stored b p v.vertex_shader ∧
    Layout.text.stored b (p + 8) v.unk_shader1 ∧
    Layout.text.stored b (p + 16) v.unk_shader2 ∧
    Layout.text.stored b (p + 24) v.geometry_shader ∧
    Layout.text.stored b (p + 32) v.pixel_shader ∧
    Layout.text.stored b (p + 40) v.compute_shader⟩

/-- /repo/ssbh_lib/src/formats/nufx.rs:68-73 -/
def Nufx.MaterialParameter.layout : Layout Nufx.MaterialParameter :=
  ⟨24, fun b p v =>
    Layout.u64.stored b p v.param_id ∧
    Layout.text.stored b (p + 8) v.parameter_name⟩

/-- /repo/ssbh_lib/src/formats/nufx.rs:93-103 -/
def Nufx.ShaderProgramV0.layout : Layout Nufx.ShaderProgramV0 :=
  ⟨80, fun b p v =>
    Layout.text.stored b p v.name ∧
    Layout.text.stored b (p + 8) v.render_pass ∧
    Nufx.ShaderStages.layout.stored b (p + 16) v.shaders ∧
    (Layout.list Nufx.MaterialParameter.layout).stored b (p + 64) v.material_parameters⟩

/-- /repo/ssbh_lib/src/formats/nufx.rs:127-130 -/
def Nufx.UnkItem.layout : Layout Nufx.UnkItem :=
  ⟨24, fun b p v =>
    Layout.text.stored b p v.name ∧
    (Layout.list Layout.text).stored b (p + 8) v.unk1⟩

/-- /repo/ssbh_lib/src/formats/nufx.rs:40-43 -/
def Nufx.NufxV0.layout : Layout Nufx.NufxV0 :=
  ⟨32, fun b p v =>
    (Layout.list Nufx.ShaderProgramV0.layout).stored b p v.programs ∧
    (Layout.list Nufx.UnkItem.layout).stored b (p + 16) v.unk_string_list⟩

/-- /repo/ssbh_lib/src/formats/nufx.rs:58-61 -/
def Nufx.VertexAttribute.layout : Layout Nufx.VertexAttribute :=
  ⟨16, fun b p v =>
    Layout.text.stored b p v.name ∧
    Layout.text.stored b (p + 8) v.attribute_name⟩

/-- /repo/ssbh_lib/src/formats/nufx.rs:110-122 -/
def Nufx.ShaderProgramV1.layout : Layout Nufx.ShaderProgramV1 :=
  ⟨96, fun b p v =>
    Layout.text.stored b p v.name ∧
    Layout.text.stored b (p + 8) v.render_pass ∧
    Nufx.ShaderStages.layout.stored b (p + 16) v.shaders ∧
    (Layout.list Nufx.VertexAttribute.layout).stored b (p + 64) v.vertex_attributes ∧
    (Layout.list Nufx.MaterialParameter.layout).stored b (p + 80) v.material_parameters⟩

/-- /repo/ssbh_lib/src/formats/nufx.rs:48-51 -/
def Nufx.NufxV1.layout : Layout Nufx.NufxV1 :=
  ⟨32, fun b p v =>
    (Layout.list Nufx.ShaderProgramV1.layout).stored b p v.programs ∧
    (Layout.list Nufx.UnkItem.layout).stored b (p + 16) v.unk_string_list⟩

/-- /repo/ssbh_lib/src/formats/nufx.rs:19-26, and the magic from /repo/ssbh_lib/src/lib.rs:300-309: XFUN -/
def Nufx.FileAt (b : Bytes) : Nufx → Prop
  | .V0 v => Layout.FileAt [0x58, 0x46, 0x55, 0x4e] 1 0 (fun b p => Nufx.NufxV0.layout.stored b p v) b
  | .V1 v => Layout.FileAt [0x58, 0x46, 0x55, 0x4e] 1 1 (fun b p => Nufx.NufxV1.layout.stored b p v) b

/-! ## Anim -/

/-- /repo/ssbh_lib/src/formats/anim.rs:217-221 -/
def Anim.TrackTypeV1.layout : Layout Anim.TrackTypeV1 := Layout.enum 8

/-- /repo/ssbh_lib/src/formats/anim.rs:124-128 -/
def Anim.Property.layout : Layout Anim.Property :=
  ⟨16, fun b p v =>
    Layout.text.stored b p v.name ∧
    Layout.u64.stored b (p + 8) v.buffer_index⟩

/-- /repo/ssbh_lib/src/formats/anim.rs:115-119 -/
def Anim.TrackV1.layout : Layout Anim.TrackV1 :=
  ⟨32, fun b p v =>
    Layout.text.stored b p v.name ∧
    Anim.TrackTypeV1.layout.stored b (p + 8) v.track_type ∧
    (Layout.list Anim.Property.layout).stored b (p + 16) v.properties⟩

/-- /repo/ssbh_lib/src/formats/anim.rs:268-273 -/
def Anim.GroupType.layout : Layout Anim.GroupType := Layout.enum 8

/-- /repo/ssbh_lib/src/formats/anim.rs:228-235 -/
def Anim.TrackTypeV2.layout : Layout Anim.TrackTypeV2 := Layout.enum 1

/-- /repo/ssbh_lib/src/formats/anim.rs:242-257 -/
def Anim.CompressionType.layout : Layout Anim.CompressionType := Layout.enum 1

/-- /repo/ssbh_lib/src/formats/anim.rs:168-172 -/
def Anim.TrackFlags.layout : Layout Anim.TrackFlags :=
  ⟨4, fun b p v =>
    Anim.TrackTypeV2.layout.stored b p v.track_type ∧
    Anim.CompressionType.layout.stored b (p + 1) v.compression_type⟩

/-- /repo/ssbh_lib/src/formats/anim.rs:196-208 -/
def Anim.TransformFlags.layout : Layout Anim.TransformFlags := Layout.u32

/-- /repo/ssbh_lib/src/formats/anim.rs:93-100 -/
def Anim.TrackV2.layout : Layout Anim.TrackV2 :=
  ⟨32, fun b p v =>
    Layout.text.stored b p v.name ∧
    Anim.TrackFlags.layout.stored b (p + 8) v.flags ∧
    Layout.u32.stored b (p + 12) v.frame_count ∧
    Anim.TransformFlags.layout.stored b (p + 16) v.transform_flags ∧
    Layout.u32.stored b (p + 20) v.data_offset ∧
    Layout.u64.stored b (p + 24) v.data_size⟩

/-- /repo/ssbh_lib/src/formats/anim.rs:85-88 -/
def Anim.Node.layout : Layout Anim.Node :=
  ⟨24, fun b p v =>
    Layout.text.stored b p v.name ∧
    (Layout.list Anim.TrackV2.layout).stored b (p + 8) v.tracks⟩

/-- /repo/ssbh_lib/src/formats/anim.rs:77-80 -/
def Anim.Group.layout : Layout Anim.Group :=
  ⟨24, fun b p v =>
    Anim.GroupType.layout.stored b p v.group_type ∧
    (Layout.list Anim.Node.layout).stored b (p + 8) v.nodes⟩

/-- /repo/ssbh_lib/src/formats/anim.rs:159-162 -/
def Anim.UnkSubItem.layout : Layout Anim.UnkSubItem :=
  ⟨8, fun b p v =>
    Layout.u32.stored b p v.unk1 ∧
    Layout.u32.stored b (p + 4) v.unk2⟩

/-- /repo/ssbh_lib/src/formats/anim.rs:142-145 -/
def Anim.UnkItem1.layout : Layout Anim.UnkItem1 :=
  ⟨24, fun b p v =>
    Layout.u64.stored b p v.unk1 ∧
    (Layout.list Anim.UnkSubItem.layout).stored b (p + 8) v.unk2⟩

/-- /repo/ssbh_lib/src/formats/anim.rs:150-153 -/
def Anim.UnkItem2.layout : Layout Anim.UnkItem2 :=
  ⟨24, fun b p v =>
    Layout.text.stored b p v.unk1 ∧
    (Layout.list Anim.UnkSubItem.layout).stored b (p + 8) v.unk2⟩

/-- /repo/ssbh_lib/src/formats/anim.rs:134-137 -/
def Anim.UnkData.layout : Layout Anim.UnkData :=
  ⟨32, fun b p v =>
    (Layout.list Anim.UnkItem1.layout).stored b p v.unk1 ∧
    (Layout.list Anim.UnkItem2.layout).stored b (p + 16) v.unk2⟩

/-- `Anim::V12`, /repo/ssbh_lib/src/formats/anim.rs:28-72 -/
def Anim.V12Data.layout : Layout Anim.V12Data :=
  ⟨56, fun b p v =>
    Layout.text.stored b p v.name ∧
    Layout.f32.stored b (p + 8) v.unk1 ∧
    Layout.f32.stored b (p + 12) v.final_frame_index ∧
    Layout.f32.stored b (p + 16) v.unk2 ∧
    Layout.f32.stored b (p + 20) v.unk3 ∧
    (Layout.list Anim.TrackV1.layout).stored b (p + 24) v.tracks ∧
    (Layout.list Layout.buffer).stored b (p + 40) v.buffers⟩

/-- `Anim::V20`, /repo/ssbh_lib/src/formats/anim.rs:28-72 -/
def Anim.V20Data.layout : Layout Anim.V20Data :=
  ⟨48, fun b p v =>
    Layout.f32.stored b p v.final_frame_index ∧
    Layout.u16.stored b (p + 4) v.unk1 ∧
    Layout.u16.stored b (p + 6) v.unk2 ∧
    Layout.text.stored b (p + 8) v.name ∧
    (Layout.list Anim.Group.layout).stored b (p + 16) v.groups ∧
    Layout.buffer.stored b (p + 32) v.buffer⟩

/-- `Anim::V21`, /repo/ssbh_lib/src/formats/anim.rs:28-72 -/
def Anim.V21Data.layout : Layout Anim.V21Data :=
  ⟨80, fun b p v =>
    Layout.f32.stored b p v.final_frame_index ∧
    Layout.u16.stored b (p + 4) v.unk1 ∧
    Layout.u16.stored b (p + 6) v.unk2 ∧
    Layout.text.stored b (p + 8) v.name ∧
    (Layout.list Anim.Group.layout).stored b (p + 16) v.groups ∧
    Layout.buffer.stored b (p + 32) v.buffer ∧
    Anim.UnkData.layout.stored b (p + 48) v.unk_data⟩

/-- /repo/ssbh_lib/src/formats/anim.rs:28-72, and the magic from /repo/ssbh_lib/src/lib.rs:300-309: MINA -/
def Anim.FileAt (b : Bytes) : Anim → Prop
  | .V12 v => Layout.FileAt [0x4d, 0x49, 0x4e, 0x41] 1 2 (fun b p => Anim.V12Data.layout.stored b p v) b
  | .V20 v => Layout.FileAt [0x4d, 0x49, 0x4e, 0x41] 2 0 (fun b p => Anim.V20Data.layout.stored b p v) b
  | .V21 v => Layout.FileAt [0x4d, 0x49, 0x4e, 0x41] 2 1 (fun b p => Anim.V21Data.layout.stored b p v) b

/-! ## Mesh -/

/-- /repo/ssbh_lib/src/formats/mesh.rs:129-132 -/
def Mesh.BoundingSphere.layout : Layout Mesh.BoundingSphere :=
  ⟨16, fun b p v =>
    Vector3.layout.stored b p v.center ∧
    Layout.f32.stored b (p + 12) v.radius⟩

/-- /repo/ssbh_lib/src/formats/mesh.rs:139-142 -/
def Mesh.BoundingVolume.layout : Layout Mesh.BoundingVolume :=
  ⟨24, fun b p v =>
    Vector3.layout.stored b p v.min ∧
    Vector3.layout.stored b (p + 12) v.max⟩

/-- /repo/ssbh_lib/src/formats/mesh.rs:147-151 -/
def Mesh.OrientedBoundingBox.layout : Layout Mesh.OrientedBoundingBox :=
  ⟨60, fun b p v =>
    Vector3.layout.stored b p v.center ∧
    Matrix3x3.layout.stored b (p + 12) v.transform ∧
    Vector3.layout.stored b (p + 48) v.size⟩

/-- /repo/ssbh_lib/src/formats/mesh.rs:120-124 -/
def Mesh.BoundingInfo.layout : Layout Mesh.BoundingInfo :=
  ⟨100, fun b p v =>
    Mesh.BoundingSphere.layout.stored b p v.bounding_sphere ∧
    Mesh.BoundingVolume.layout.stored b (p + 16) v.bounding_volume ∧
    Mesh.OrientedBoundingBox.layout.stored b (p + 40) v.oriented_bounding_box⟩

/-- /repo/ssbh_lib/src/formats/mesh.rs:288-293 -/
def Mesh.DrawElementType.layout : Layout Mesh.DrawElementType := Layout.enum 4

/-- /repo/ssbh_lib/src/formats/mesh.rs:274-280 -/
def Mesh.DepthFlags.layout : Layout Mesh.DepthFlags :=
  ⟨4, fun b p v =>
    Layout.u8.stored b p v.disable_depth_write ∧
    Layout.u8.stored b (p + 1) v.disable_depth_test⟩

/-- /repo/ssbh_lib/src/formats/mesh.rs:222-267 -/
def Mesh.MeshObject.layout {A : Type} (aL : Layout A) : Layout (Mesh.MeshObject A) :=
  ⟨208, fun b p v =>
    Layout.text.stored b p v.name ∧
    Layout.u64.stored b (p + 8) v.subindex ∧
    Layout.text.stored b (p + 16) v.parent_bone_name ∧
    Layout.u32.stored b (p + 24) v.vertex_count ∧
    Layout.u32.stored b (p + 28) v.vertex_index_count ∧
    Layout.u32.stored b (p + 32) v.unk2 ∧
    Layout.u32.stored b (p + 36) v.vertex_buffer0_offset ∧
    Layout.u32.stored b (p + 40) v.vertex_buffer1_offset ∧
    Layout.u32.stored b (p + 44) v.vertex_buffer2_offset ∧
    Layout.u32.stored b (p + 48) v.vertex_buffer3_offset ∧
    Layout.u32.stored b (p + 52) v.stride0 ∧
    Layout.u32.stored b (p + 56) v.stride1 ∧
    Layout.u32.stored b (p + 60) v.stride2 ∧
    Layout.u32.stored b (p + 64) v.stride3 ∧
    Layout.u32.stored b (p + 68) v.index_buffer_offset ∧
    Layout.u32.stored b (p + 72) v.unk8 ∧
    Mesh.DrawElementType.layout.stored b (p + 76) v.draw_element_type ∧
    Layout.u32.stored b (p + 80) v.use_vertex_skinning ∧
    Layout.i32.stored b (p + 84) v.sort_bias ∧
    Mesh.DepthFlags.layout.stored b (p + 88) v.depth_flags ∧
    Mesh.BoundingInfo.layout.stored b (p + 92) v.bounding_info ∧
    (Layout.list aL).stored b (p + 192) v.attributes⟩

/-- /repo/ssbh_lib/src/formats/mesh.rs:157-164 -/
def Mesh.RiggingFlags.layout : Layout Mesh.RiggingFlags :=
  ⟨8, fun b p v =>
    Layout.u8.stored b p v.max_influences ∧
    Layout.u8.stored b (p + 1) v.unk1⟩

/-- /repo/ssbh_lib/src/formats/mesh.rs:169-172 -/
def Mesh.BoneBuffer.layout {W2 : Type} (w2L : Layout W2) : Layout (Mesh.BoneBuffer W2) :=
  ⟨8 + w2L.size, fun b p v =>
    Layout.text.stored b p v.bone_name ∧
    w2L.stored b (p + 8) v.data⟩

/-- /repo/ssbh_lib/src/formats/mesh.rs:179-184 -/
def Mesh.RiggingGroup.layout {W3 : Type} (w3L : Layout W3) : Layout (Mesh.RiggingGroup W3) :=
  ⟨40, fun b p v =>
    Layout.text.stored b p v.mesh_object_name ∧
    Layout.u64.stored b (p + 8) v.mesh_object_subindex ∧
    Mesh.RiggingFlags.layout.stored b (p + 16) v.flags ∧
    (Layout.list (Mesh.BoneBuffer.layout w3L)).stored b (p + 24) v.buffers⟩

/-- /repo/ssbh_lib/src/formats/mesh.rs:56-75 -/
def Mesh.MeshInner.layout {A : Type} {W1 : Type} (aL : Layout A) (w1L : Layout W1) : Layout (Mesh.MeshInner A W1) :=
  ⟨200, fun b p v =>
    Layout.text.stored b p v.model_name ∧
    Mesh.BoundingInfo.layout.stored b (p + 8) v.bounding_info ∧
    Layout.u32.stored b (p + 108) v.unk1 ∧
    (Layout.list (Mesh.MeshObject.layout aL)).stored b (p + 112) v.objects ∧
    (Layout.list Layout.u32).stored b (p + 128) v.buffer_sizes ∧
    Layout.u64.stored b (p + 144) v.polygon_index_size ∧
    (Layout.list Layout.buffer).stored b (p + 152) v.vertex_buffers ∧
    Layout.buffer.stored b (p + 168) v.index_buffer ∧
    (Layout.list (Mesh.RiggingGroup.layout w1L)).stored b (p + 184) v.rigging_buffers⟩

/-- /repo/ssbh_lib/src/formats/mesh.rs:362-368 -/
def Mesh.AttributeUsageV8.layout : Layout Mesh.AttributeUsageV8 := Layout.enum 4

/-- /repo/ssbh_lib/src/formats/mesh.rs:324-335 -/
def Mesh.AttributeDataTypeV8.layout : Layout Mesh.AttributeDataTypeV8 := Layout.enum 4

/-- /repo/ssbh_lib/src/formats/mesh.rs:80-87 -/
def Mesh.AttributeV8.layout : Layout Mesh.AttributeV8 :=
  ⟨20, fun b p v =>
    Mesh.AttributeUsageV8.layout.stored b p v.usage ∧
    Mesh.AttributeDataTypeV8.layout.stored b (p + 4) v.data_type ∧
    Layout.u32.stored b (p + 8) v.buffer_index ∧
    Layout.u32.stored b (p + 12) v.buffer_offset ∧
    Layout.u32.stored b (p + 16) v.subindex⟩

/-- /repo/ssbh_lib/src/formats/mesh.rs:205-208 -/
def Mesh.VertexWeightV8.layout : Layout Mesh.VertexWeightV8 :=
  ⟨8, fun b p v =>
    Layout.u32.stored b p v.vertex_index ∧
    Layout.f32.stored b (p + 4) v.vertex_weight⟩

/-- /repo/ssbh_lib/src/formats/mesh.rs:346-353 -/
def Mesh.AttributeUsageV9.layout : Layout Mesh.AttributeUsageV9 := Layout.enum 4

/-- /repo/ssbh_lib/src/formats/mesh.rs:92-101 -/
def Mesh.AttributeV9.layout : Layout Mesh.AttributeV9 :=
  ⟨48, fun b p v =>
    Mesh.AttributeUsageV9.layout.stored b p v.usage ∧
    Mesh.AttributeDataTypeV8.layout.stored b (p + 4) v.data_type ∧
    Layout.u32.stored b (p + 8) v.buffer_index ∧
    Layout.u32.stored b (p + 12) v.buffer_offset ∧
    Layout.u64.stored b (p + 16) v.subindex ∧
    Layout.text.stored b (p + 24) v.name ∧
    (Layout.list Layout.text).stored b (p + 32) v.attribute_names⟩

/-- /repo/ssbh_lib/src/formats/mesh.rs:302-315 -/
def Mesh.AttributeDataTypeV10.layout : Layout Mesh.AttributeDataTypeV10 := Layout.enum 4

/-- /repo/ssbh_lib/src/formats/mesh.rs:106-115 -/
def Mesh.AttributeV10.layout : Layout Mesh.AttributeV10 :=
  ⟨48, fun b p v =>
    Mesh.AttributeUsageV9.layout.stored b p v.usage ∧
    Mesh.AttributeDataTypeV10.layout.stored b (p + 4) v.data_type ∧
    Layout.u32.stored b (p + 8) v.buffer_index ∧
    Layout.u32.stored b (p + 12) v.buffer_offset ∧
    Layout.u64.stored b (p + 16) v.subindex ∧
    Layout.text.stored b (p + 24) v.name ∧
    (Layout.list Layout.text).stored b (p + 32) v.attribute_names⟩

/-- /repo/ssbh_lib/src/formats/mesh.rs:26-41, and the magic from /repo/ssbh_lib/src/lib.rs:300-309: HSEM -/
def Mesh.FileAt (b : Bytes) : Mesh → Prop
  | .V8 v => Layout.FileAt [0x48, 0x53, 0x45, 0x4d] 1 8 (fun b p => (Mesh.MeshInner.layout Mesh.AttributeV8.layout (Layout.list Mesh.VertexWeightV8.layout)).stored b p v) b
  | .V9 v => Layout.FileAt [0x48, 0x53, 0x45, 0x4d] 1 9 (fun b p => (Mesh.MeshInner.layout Mesh.AttributeV9.layout (Layout.list Mesh.VertexWeightV8.layout)).stored b p v) b
  | .V10 v => Layout.FileAt [0x48, 0x53, 0x45, 0x4d] 1 10 (fun b p => (Mesh.MeshInner.layout Mesh.AttributeV10.layout Layout.buffer).stored b p v) b

/-! ## Matl -/

/-- /repo/ssbh_lib/src/formats/matl.rs:147-516 -/
def Matl.ParamId.layout : Layout Matl.ParamId := Layout.enum 8

/-- /repo/ssbh_lib/src/formats/matl.rs:571-576 -/
def Matl.WrapMode.layout : Layout Matl.WrapMode := Layout.enum 4

/-- /repo/ssbh_lib/src/formats/matl.rs:584-588 -/
def Matl.MinFilter.layout : Layout Matl.MinFilter := Layout.enum 4

/-- /repo/ssbh_lib/src/formats/matl.rs:596-600 -/
def Matl.MagFilter.layout : Layout Matl.MagFilter := Layout.enum 4

/-- /repo/ssbh_lib/src/formats/matl.rs:608-612 -/
def Matl.FilteringType.layout : Layout Matl.FilteringType := Layout.enum 4

/-- /repo/ssbh_lib/src/formats/matl.rs:640-646 -/
def Matl.MaxAnisotropy.layout : Layout Matl.MaxAnisotropy := Layout.enum 4

/-- /repo/ssbh_lib/src/formats/matl.rs:617-629 -/
def Matl.Sampler.layout : Layout Matl.Sampler :=
  ⟨56, fun b p v =>
    Matl.WrapMode.layout.stored b p v.wraps ∧
    Matl.WrapMode.layout.stored b (p + 4) v.wrapt ∧
    Matl.WrapMode.layout.stored b (p + 8) v.wrapr ∧
    Matl.MinFilter.layout.stored b (p + 12) v.min_filter ∧
    Matl.MagFilter.layout.stored b (p + 16) v.mag_filter ∧
    Matl.FilteringType.layout.stored b (p + 20) v.texture_filtering_type ∧
    Color4f.layout.stored b (p + 24) v.border_color ∧
    Layout.u32.stored b (p + 40) v.unk11 ∧
    Layout.u32.stored b (p + 44) v.unk12 ∧
    Layout.f32.stored b (p + 48) v.lod_bias ∧
    Matl.MaxAnisotropy.layout.stored b (p + 52) v.max_anisotropy⟩

/-- /repo/ssbh_lib/src/formats/matl.rs:651-657 -/
def Matl.UvTransform.layout : Layout Matl.UvTransform :=
  ⟨20, fun b p v =>
    Layout.f32.stored b p v.scale_u ∧
    Layout.f32.stored b (p + 4) v.scale_v ∧
    Layout.f32.stored b (p + 8) v.rotation ∧
    Layout.f32.stored b (p + 12) v.translate_u ∧
    Layout.f32.stored b (p + 16) v.translate_v⟩

/-- /repo/ssbh_lib/src/formats/matl.rs:666-679 -/
def Matl.BlendFactor.layout : Layout Matl.BlendFactor := Layout.enum 4

/-- /repo/ssbh_lib/src/formats/matl.rs:688-694 -/
def Matl.BlendOperation.layout : Layout Matl.BlendOperation := Layout.enum 4

/-- /repo/ssbh_lib/src/formats/matl.rs:700-711 -/
def Matl.BlendStateV15.layout : Layout Matl.BlendStateV15 :=
  ⟨44, fun b p v =>
    Matl.BlendFactor.layout.stored b p v.source_color ∧
    Matl.BlendOperation.layout.stored b (p + 4) v.color_operation ∧
    Matl.BlendFactor.layout.stored b (p + 8) v.destination_color ∧
    Matl.BlendFactor.layout.stored b (p + 12) v.source_alpha ∧
    Matl.BlendOperation.layout.stored b (p + 16) v.alpha_operation ∧
    Matl.BlendFactor.layout.stored b (p + 20) v.destination_alpha ∧
    Layout.u64.stored b (p + 24) v.unk6 ∧
    Layout.u32.stored b (p + 32) v.unk7 ∧
    Layout.u32.stored b (p + 36) v.unk8 ∧
    Layout.u32.stored b (p + 40) v.unk9⟩

/-- /repo/ssbh_lib/src/formats/matl.rs:537-541 -/
def Matl.CullMode.layout : Layout Matl.CullMode := Layout.enum 4

/-- /repo/ssbh_lib/src/formats/matl.rs:546-548 -/
def Matl.RasterizerStateV15.layout : Layout Matl.RasterizerStateV15 :=
  ⟨4, fun b p v =>
    Matl.CullMode.layout.stored b p v.cull_mode⟩

/-- /repo/ssbh_lib/src/formats/matl.rs:100-116: the numbers of the types -/
def Matl.ParamV15.tagNumber : Matl.ParamV15 → Nat
  | .Float _ => 1
  | .Boolean _ => 2
  | .Vector4 _ => 5
  | .Unk7 _ => 7
  | .String _ => 11
  | .Sampler _ => 14
  | .UvTransform _ => 16
  | .BlendState _ => 17
  | .RasterizerState _ => 18

def Matl.ParamV15.DataAt (b : Bytes) (p : Nat) : Matl.ParamV15 → Prop
  | .Float v => Layout.f32.stored b p v
  | .Boolean v => Layout.u32.stored b p v
  | .Vector4 v => Vector4.layout.stored b p v
  | .Unk7 v => Color4f.layout.stored b p v
  | .String v => Layout.text.stored b p v
  | .Sampler v => Matl.Sampler.layout.stored b p v
  | .UvTransform v => Matl.UvTransform.layout.stored b p v
  | .BlendState v => Matl.BlendStateV15.layout.stored b p v
  | .RasterizerState v => Matl.RasterizerStateV15.layout.stored b p v

/-- /repo/ssbh_lib/src/formats/matl.rs:64-69 -/
def Matl.AttributeV15.layout : Layout Matl.AttributeV15 :=
  ⟨24, fun b p v =>
    Matl.ParamId.layout.stored b p v.param_id ∧
    (Layout.tagged Matl.ParamV15.tagNumber Matl.ParamV15.DataAt).stored b (p + 8) v.param⟩

/-- /repo/ssbh_lib/src/formats/matl.rs:45-57 -/
def Matl.MatlEntryV15.layout : Layout Matl.MatlEntryV15 :=
  ⟨32, fun b p v =>
    Layout.text.stored b p v.material_label ∧
    (Layout.list Matl.AttributeV15.layout).stored b (p + 8) v.attributes ∧
    Layout.text.stored b (p + 24) v.shader_label⟩

/-- /repo/ssbh_lib/src/formats/matl.rs:718-730 -/
def Matl.BlendStateV16.layout : Layout Matl.BlendStateV16 :=
  ⟨40, fun b p v =>
    Matl.BlendFactor.layout.stored b p v.source_color ∧
    Matl.BlendOperation.layout.stored b (p + 4) v.color_operation ∧
    Matl.BlendFactor.layout.stored b (p + 8) v.destination_color ∧
    Matl.BlendFactor.layout.stored b (p + 12) v.source_alpha ∧
    Matl.BlendOperation.layout.stored b (p + 16) v.alpha_operation ∧
    Matl.BlendFactor.layout.stored b (p + 20) v.destination_alpha ∧
    Layout.u32.stored b (p + 24) v.alpha_sample_to_coverage ∧
    Layout.u32.stored b (p + 28) v.unk8 ∧
    Layout.u32.stored b (p + 32) v.unk9 ∧
    Layout.u32.stored b (p + 36) v.unk10⟩

/-- /repo/ssbh_lib/src/formats/matl.rs:525-528 -/
def Matl.FillMode.layout : Layout Matl.FillMode := Layout.enum 4

/-- /repo/ssbh_lib/src/formats/matl.rs:554-561 -/
def Matl.RasterizerStateV16.layout : Layout Matl.RasterizerStateV16 :=
  ⟨24, fun b p v =>
    Matl.FillMode.layout.stored b p v.fill_mode ∧
    Matl.CullMode.layout.stored b (p + 4) v.cull_mode ∧
    Layout.f32.stored b (p + 8) v.depth_bias ∧
    Layout.f32.stored b (p + 12) v.unk4 ∧
    Layout.f32.stored b (p + 16) v.unk5 ∧
    Layout.u32.stored b (p + 20) v.unk6⟩

/-- /repo/ssbh_lib/src/formats/matl.rs:118-134: the numbers of the types -/
def Matl.ParamV16.tagNumber : Matl.ParamV16 → Nat
  | .Float _ => 1
  | .Boolean _ => 2
  | .Vector4 _ => 5
  | .Unk7 _ => 7
  | .String _ => 11
  | .Sampler _ => 14
  | .UvTransform _ => 16
  | .BlendState _ => 17
  | .RasterizerState _ => 18

def Matl.ParamV16.DataAt (b : Bytes) (p : Nat) : Matl.ParamV16 → Prop
  | .Float v => Layout.f32.stored b p v
  | .Boolean v => Layout.u32.stored b p v
  | .Vector4 v => Vector4.layout.stored b p v
  | .Unk7 v => Color4f.layout.stored b p v
  | .String v => Layout.text.stored b p v
  | .Sampler v => Matl.Sampler.layout.stored b p v
  | .UvTransform v => Matl.UvTransform.layout.stored b p v
  | .BlendState v => Matl.BlendStateV16.layout.stored b p v
  | .RasterizerState v => Matl.RasterizerStateV16.layout.stored b p v

/-- /repo/ssbh_lib/src/formats/matl.rs:93-98 -/
def Matl.AttributeV16.layout : Layout Matl.AttributeV16 :=
  ⟨24, fun b p v =>
    Matl.ParamId.layout.stored b p v.param_id ∧
    (Layout.tagged Matl.ParamV16.tagNumber Matl.ParamV16.DataAt).stored b (p + 8) v.param⟩

/-- /repo/ssbh_lib/src/formats/matl.rs:75-87 -/
def Matl.MatlEntryV16.layout : Layout Matl.MatlEntryV16 :=
  ⟨32, fun b p v =>
    Layout.text.stored b p v.material_label ∧
    (Layout.list Matl.AttributeV16.layout).stored b (p + 8) v.attributes ∧
    Layout.text.stored b (p + 24) v.shader_label⟩

/-- `Matl::V15`, /repo/ssbh_lib/src/formats/matl.rs:25-30 -/
def Matl.V15Data.layout : Layout Matl.V15Data :=
  ⟨16, fun b p v =>
    (Layout.list Matl.MatlEntryV15.layout).stored b p v.entries⟩

/-- `Matl::V16`, /repo/ssbh_lib/src/formats/matl.rs:25-30 -/
def Matl.V16Data.layout : Layout Matl.V16Data :=
  ⟨16, fun b p v =>
    (Layout.list Matl.MatlEntryV16.layout).stored b p v.entries⟩

/-- /repo/ssbh_lib/src/formats/matl.rs:25-30, and the magic from /repo/ssbh_lib/src/lib.rs:300-309: LTAM -/
def Matl.FileAt (b : Bytes) : Matl → Prop
  | .V15 v => Layout.FileAt [0x4c, 0x54, 0x41, 0x4d] 1 5 (fun b p => Matl.V15Data.layout.stored b p v) b
  | .V16 v => Layout.FileAt [0x4c, 0x54, 0x41, 0x4d] 1 6 (fun b p => Matl.V16Data.layout.stored b p v) b

/-! ## Nrpd -/

/-- /repo/ssbh_lib/src/formats/nrpd.rs:74-87 -/
def Nrpd.UnkFormat.layout : Layout Nrpd.UnkFormat := Layout.enum 8

/-- /repo/ssbh_lib/src/formats/nrpd.rs:92-99 -/
def Nrpd.Framebuffer0.layout : Layout Nrpd.Framebuffer0 :=
  ⟨32, fun b p v =>
    Layout.text.stored b p v.name ∧
    Layout.u32.stored b (p + 8) v.width ∧
    Layout.u32.stored b (p + 12) v.height ∧
    Nrpd.UnkFormat.layout.stored b (p + 16) v.unk1 ∧
    Layout.u32.stored b (p + 24) v.unk2 ∧
    Layout.u32.stored b (p + 28) v.unk3⟩

/-- /repo/ssbh_lib/src/formats/nrpd.rs:104-111 -/
def Nrpd.Framebuffer1.layout : Layout Nrpd.Framebuffer1 :=
  ⟨32, fun b p v =>
    Layout.text.stored b p v.name ∧
    Layout.u32.stored b (p + 8) v.width ∧
    Layout.u32.stored b (p + 12) v.height ∧
    Layout.u64.stored b (p + 16) v.unk1 ∧
    Layout.u32.stored b (p + 24) v.unk2 ∧
    Layout.u32.stored b (p + 28) v.unk3⟩

/-- /repo/ssbh_lib/src/formats/nrpd.rs:116-121 -/
def Nrpd.UniformBuffer.layout : Layout Nrpd.UniformBuffer :=
  ⟨24, fun b p v =>
    Layout.text.stored b p v.name ∧
    Layout.u32.stored b (p + 8) v.unk1 ∧
    Layout.u32.stored b (p + 12) v.unk2 ∧
    Layout.u64.stored b (p + 16) v.unk3⟩

/-- /repo/ssbh_lib/src/formats/nrpd.rs:126-134 -/
def Nrpd.Framebuffer3.layout : Layout Nrpd.Framebuffer3 :=
  ⟨32, fun b p v =>
    Layout.text.stored b p v.name ∧
    Layout.u32.stored b (p + 8) v.width ∧
    Layout.u32.stored b (p + 12) v.height ∧
    Layout.u32.stored b (p + 16) v.unk1 ∧
    Layout.u32.stored b (p + 20) v.unk2 ∧
    Layout.u32.stored b (p + 24) v.unk3 ∧
    Layout.u32.stored b (p + 28) v.unk4⟩

/-- /repo/ssbh_lib/src/formats/nrpd.rs:139-144 -/
def Nrpd.Framebuffer4.layout : Layout Nrpd.Framebuffer4 :=
  ⟨24, fun b p v =>
    Layout.text.stored b p v.name ∧
    Layout.u32.stored b (p + 8) v.width ∧
    Layout.u32.stored b (p + 12) v.height ∧
    Layout.u64.stored b (p + 16) v.unk3⟩

/-- /repo/ssbh_lib/src/formats/nrpd.rs:57-64: the numbers of the types -/
def Nrpd.FrameBuffer.tagNumber : Nrpd.FrameBuffer → Nat
  | .Framebuffer0 _ => 0
  | .Framebuffer1 _ => 1
  | .UniformBuffer _ => 2
  | .Framebuffer3 _ => 3
  | .Framebuffer4 _ => 4

def Nrpd.FrameBuffer.DataAt (b : Bytes) (p : Nat) : Nrpd.FrameBuffer → Prop
  | .Framebuffer0 v => Nrpd.Framebuffer0.layout.stored b p v
  | .Framebuffer1 v => Nrpd.Framebuffer1.layout.stored b p v
  | .UniformBuffer v => Nrpd.UniformBuffer.layout.stored b p v
  | .Framebuffer3 v => Nrpd.Framebuffer3.layout.stored b p v
  | .Framebuffer4 v => Nrpd.Framebuffer4.layout.stored b p v

/-- /repo/ssbh_lib/src/formats/nrpd.rs:149-153 -/
def Nrpd.NrpdSampler.layout : Layout Nrpd.NrpdSampler :=
  ⟨72, fun b p v =>
    Layout.text.stored b p v.name ∧
    Matl.Sampler.layout.stored b (p + 8) v.data ∧
    Layout.u64.stored b (p + 64) v.unk13⟩

/-- /repo/ssbh_lib/src/formats/nrpd.rs:158-167 -/
def Nrpd.NrpdRasterizerState.layout : Layout Nrpd.NrpdRasterizerState :=
  ⟨32, fun b p v =>
    Layout.text.stored b p v.name ∧
    Matl.FillMode.layout.stored b (p + 8) v.fill_mode ∧
    Matl.CullMode.layout.stored b (p + 12) v.cull_mode ∧
    Layout.f32.stored b (p + 16) v.depth_bias ∧
    Layout.f32.stored b (p + 20) v.unk4 ∧
    Layout.f32.stored b (p + 24) v.unk5 ∧
    Layout.u32.stored b (p + 28) v.unk6⟩

/-- /repo/ssbh_lib/src/formats/nrpd.rs:192-204 -/
def Nrpd.DepthState.layout : Layout Nrpd.DepthState :=
  ⟨64, fun b p v =>
    Layout.text.stored b p v.name ∧
    Layout.u32.stored b (p + 8) v.unk2 ∧
    Layout.u32.stored b (p + 12) v.unk3 ∧
    Layout.u32.stored b (p + 16) v.unk4 ∧
    Layout.u32.stored b (p + 20) v.unk5 ∧
    Layout.u32.stored b (p + 24) v.unk6 ∧
    Layout.u32.stored b (p + 28) v.unk7 ∧
    Layout.u64.stored b (p + 32) v.unk8 ∧
    Layout.u64.stored b (p + 40) v.unk9 ∧
    Layout.u64.stored b (p + 48) v.unk10 ∧
    Layout.u64.stored b (p + 56) v.unk11⟩

/-- /repo/ssbh_lib/src/formats/nrpd.rs:172-186 -/
def Nrpd.NrpdBlendState.layout : Layout Nrpd.NrpdBlendState :=
  ⟨48, fun b p v =>
    Layout.text.stored b p v.name ∧
    Matl.BlendFactor.layout.stored b (p + 8) v.source_color ∧
    Layout.u32.stored b (p + 12) v.unk2 ∧
    Matl.BlendFactor.layout.stored b (p + 16) v.destination_color ∧
    Layout.u32.stored b (p + 20) v.unk4 ∧
    Layout.u32.stored b (p + 24) v.unk5 ∧
    Layout.u32.stored b (p + 28) v.unk6 ∧
    Layout.u32.stored b (p + 32) v.alpha_sample_to_coverage ∧
    Layout.u32.stored b (p + 36) v.unk8 ∧
    Layout.u32.stored b (p + 40) v.unk9 ∧
    Layout.u32.stored b (p + 44) v.unk10⟩

/-- /repo/ssbh_lib/src/formats/nrpd.rs:206-212: the numbers of the types -/
def Nrpd.State.tagNumber : Nrpd.State → Nat
  | .Sampler _ => 0
  | .RasterizerState _ => 1
  | .DepthState _ => 2
  | .BlendState _ => 3

def Nrpd.State.DataAt (b : Bytes) (p : Nat) : Nrpd.State → Prop
  | .Sampler v => Nrpd.NrpdSampler.layout.stored b p v
  | .RasterizerState v => Nrpd.NrpdRasterizerState.layout.stored b p v
  | .DepthState v => Nrpd.DepthState.layout.stored b p v
  | .BlendState v => Nrpd.NrpdBlendState.layout.stored b p v

/-- /repo/ssbh_lib/src/formats/nrpd.rs:237-241 -/
def Nrpd.RenderPassData0.layout : Layout Nrpd.RenderPassData0 :=
  ⟨24, fun b p v =>
    Layout.text.stored b p v.unk1 ∧
    Layout.text.stored b (p + 8) v.unk2 ∧
    Layout.u64.stored b (p + 16) v.unk3⟩

/-- /repo/ssbh_lib/src/formats/nrpd.rs:246-249 -/
def Nrpd.RenderPassData1.layout : Layout Nrpd.RenderPassData1 :=
  ⟨16, fun b p v =>
    Layout.text.stored b p v.unk1 ∧
    Layout.text.stored b (p + 8) v.unk2⟩

/-- /repo/ssbh_lib/src/formats/nrpd.rs:254-262 -/
def Nrpd.RenderPassData2.layout : Layout Nrpd.RenderPassData2 :=
  ⟨48, fun b p v =>
    Layout.text.stored b p v.unk1 ∧
    Layout.text.stored b (p + 8) v.unk2 ∧
    (Layout.pointer Layout.u64).stored b (p + 16) v.unk3 ∧
    Layout.u64.stored b (p + 24) v.unk4 ∧
    (Layout.pointer Layout.u64).stored b (p + 32) v.unk5 ∧
    Layout.u64.stored b (p + 40) v.unk6⟩

/-- /repo/ssbh_lib/src/formats/nrpd.rs:299-302 -/
def Nrpd.Unk8Data.layout : Layout Nrpd.Unk8Data :=
  ⟨8, fun b p v =>
    Layout.u32.stored b p v.unk1 ∧
    Layout.u32.stored b (p + 4) v.unk2⟩

/-- /repo/ssbh_lib/src/formats/nrpd.rs:267-274 -/
def Nrpd.RenderPassData3.layout : Layout Nrpd.RenderPassData3 :=
  ⟨48, fun b p v =>
    Layout.text.stored b p v.unk1 ∧
    Layout.text.stored b (p + 8) v.unk2 ∧
    (Layout.pointer Nrpd.Unk8Data.layout).stored b (p + 16) v.unk3 ∧
    Layout.u64.stored b (p + 24) v.unk4 ∧
    (Layout.pointer Nrpd.Unk8Data.layout).stored b (p + 32) v.unk5 ∧
    Layout.u64.stored b (p + 40) v.unk6⟩

/-- /repo/ssbh_lib/src/formats/nrpd.rs:279-286 -/
def Nrpd.RenderPassData8.layout : Layout Nrpd.RenderPassData8 :=
  ⟨48, fun b p v =>
    Layout.text.stored b p v.unk1 ∧
    Layout.text.stored b (p + 8) v.unk2 ∧
    (Layout.pointer Layout.u64).stored b (p + 16) v.unk3 ∧
    Layout.u64.stored b (p + 24) v.unk4 ∧
    (Layout.pointer Layout.u64).stored b (p + 32) v.unk5 ∧
    Layout.u64.stored b (p + 40) v.unk6⟩

/-- /repo/ssbh_lib/src/formats/nrpd.rs:307-311 -/
def Nrpd.ColorClear.layout : Layout Nrpd.ColorClear :=
  ⟨32, fun b p v =>
    Layout.text.stored b p v.name ∧
    Color4f.layout.stored b (p + 8) v.color ∧
    Layout.u64.stored b (p + 24) v.unk1⟩

/-- /repo/ssbh_lib/src/formats/nrpd.rs:316-320 -/
def Nrpd.DepthStencilClear.layout : Layout Nrpd.DepthStencilClear :=
  ⟨16, fun b p v =>
    Layout.text.stored b p v.name ∧
    Layout.f32.stored b (p + 8) v.depth ∧
    Layout.u32.stored b (p + 12) v.stencil⟩

/-- /repo/ssbh_lib/src/formats/nrpd.rs:325-333 -/
def Nrpd.Viewport.layout : Layout Nrpd.Viewport :=
  ⟨40, fun b p v =>
    Layout.text.stored b p v.name ∧
    Layout.u64.stored b (p + 8) v.unk2 ∧
    Layout.f32.stored b (p + 16) v.width ∧
    Layout.f32.stored b (p + 20) v.height ∧
    Layout.f32.stored b (p + 24) v.unk_min ∧
    Layout.f32.stored b (p + 28) v.unk_max ∧
    Layout.u64.stored b (p + 32) v.unk4⟩

/-- /repo/ssbh_lib/src/formats/nrpd.rs:338-346 -/
def Nrpd.RenderPassData13.layout : Layout Nrpd.RenderPassData13 :=
  ⟨48, fun b p v =>
    Layout.text.stored b p v.unk1 ∧
    Layout.text.stored b (p + 8) v.unk2 ∧
    (Layout.pointer Layout.u64).stored b (p + 16) v.unk3 ∧
    Layout.u64.stored b (p + 24) v.unk4 ∧
    (Layout.pointer Layout.u64).stored b (p + 32) v.unk5 ∧
    Layout.u64.stored b (p + 40) v.unk6⟩

/-- /repo/ssbh_lib/src/formats/nrpd.rs:382-385 -/
def Nrpd.StringPair.layout : Layout Nrpd.StringPair :=
  ⟨16, fun b p v =>
    Layout.text.stored b p v.item1 ∧
    Layout.text.stored b (p + 8) v.item2⟩

/-- /repo/ssbh_lib/src/formats/nrpd.rs:291-294 -/
def Nrpd.RenderPassData19.layout : Layout Nrpd.RenderPassData19 :=
  ⟨16, fun b p v =>
    Layout.text.stored b p v.unk1 ∧
    Layout.u64.stored b (p + 8) v.unk2⟩

/-- /repo/ssbh_lib/src/formats/nrpd.rs:215-232: the numbers of the types -/
def Nrpd.RenderPassData.tagNumber : Nrpd.RenderPassData → Nat
  | .FramebufferRtp _ => 0
  | .PassUnk1 _ => 1
  | .UnkTexture1 _ => 2
  | .UnkLight _ => 3
  | .Unk8 _ => 8
  | .ColorClear _ => 9
  | .DepthStencilClear _ => 10
  | .Viewport _ => 12
  | .Sampler _ => 13
  | .BlendState _ => 14
  | .RasterizerState _ => 15
  | .DepthStencilState _ => 16
  | .FramebufferRenderTarget _ => 17
  | .FramebufferDepthStencil _ => 18
  | .UnkTexture2 _ => 19

def Nrpd.RenderPassData.DataAt (b : Bytes) (p : Nat) : Nrpd.RenderPassData → Prop
  | .FramebufferRtp v => Nrpd.RenderPassData0.layout.stored b p v
  | .PassUnk1 v => Nrpd.RenderPassData1.layout.stored b p v
  | .UnkTexture1 v => Nrpd.RenderPassData2.layout.stored b p v
  | .UnkLight v => Nrpd.RenderPassData3.layout.stored b p v
  | .Unk8 v => Nrpd.RenderPassData8.layout.stored b p v
  | .ColorClear v => Nrpd.ColorClear.layout.stored b p v
  | .DepthStencilClear v => Nrpd.DepthStencilClear.layout.stored b p v
  | .Viewport v => Nrpd.Viewport.layout.stored b p v
  | .Sampler v => Nrpd.RenderPassData13.layout.stored b p v
  | .BlendState v => Nrpd.StringPair.layout.stored b p v
  | .RasterizerState v => Nrpd.StringPair.layout.stored b p v
  | .DepthStencilState v => Nrpd.StringPair.layout.stored b p v
  | .FramebufferRenderTarget v => Layout.text.stored b p v
  | .FramebufferDepthStencil v => Layout.text.stored b p v
  | .UnkTexture2 v => Nrpd.RenderPassData19.layout.stored b p v

/-- /repo/ssbh_lib/src/formats/nrpd.rs:370-377 -/
def Nrpd.Unk3Data.layout : Layout Nrpd.Unk3Data :=
  ⟨32, fun b p v =>
    Layout.text.stored b p v.unk1 ∧
    Layout.text.stored b (p + 8) v.unk2 ∧
    Layout.f32.stored b (p + 16) v.unk3 ∧
    Layout.f32.stored b (p + 20) v.unk4 ∧
    Layout.f32.stored b (p + 24) v.unk5 ∧
    Layout.f32.stored b (p + 28) v.unk6⟩

/-- /repo/ssbh_lib/src/formats/nrpd.rs:361-365: the numbers of the types -/
def Nrpd.RenderPassUnkData.tagNumber : Nrpd.RenderPassUnkData → Nat
  | .UnkDataUnk0 _ => 0
  | .UnkDataUnk3 _ => 3

def Nrpd.RenderPassUnkData.DataAt (b : Bytes) (p : Nat) : Nrpd.RenderPassUnkData → Prop
  | .UnkDataUnk0 v => Layout.unit.stored b p v
  | .UnkDataUnk3 v => Nrpd.Unk3Data.layout.stored b p v

/-- /repo/ssbh_lib/src/formats/nrpd.rs:352-358 -/
def Nrpd.RenderPassContainer.layout : Layout Nrpd.RenderPassContainer :=
  ⟨64, fun b p v =>
    Layout.text.stored b p v.name ∧
    (Layout.list (Layout.tagged Nrpd.RenderPassData.tagNumber Nrpd.RenderPassData.DataAt)).stored b (p + 8) v.unk1 ∧
    (Layout.list (Layout.tagged Nrpd.RenderPassData.tagNumber Nrpd.RenderPassData.DataAt)).stored b (p + 24) v.unk2 ∧
    (Layout.tagged Nrpd.RenderPassUnkData.tagNumber Nrpd.RenderPassUnkData.DataAt).stored b (p + 40) v.unk3⟩

/-- /repo/ssbh_lib/src/formats/nrpd.rs:398-401 -/
def Nrpd.UnkItem20.layout : Layout Nrpd.UnkItem20 :=
  ⟨16, fun b p v =>
    Layout.text.stored b p v.unk1 ∧
    Layout.text.stored b (p + 8) v.unk2⟩

/-- /repo/ssbh_lib/src/formats/nrpd.rs:406-410 -/
def Nrpd.UnkItem21.layout : Layout Nrpd.UnkItem21 :=
  ⟨24, fun b p v =>
    Layout.text.stored b p v.unk1 ∧
    Layout.text.stored b (p + 8) v.unk2 ∧
    (Layout.vector 2 Layout.u32).stored b (p + 16) v.unk3⟩

/-- /repo/ssbh_lib/src/formats/nrpd.rs:415-423 -/
def Nrpd.UnkItem22.layout : Layout Nrpd.UnkItem22 :=
  ⟨40, fun b p v =>
    Layout.text.stored b p v.unk1 ∧
    Layout.text.stored b (p + 8) v.unk2 ∧
    Layout.u32.stored b (p + 16) v.unk3 ∧
    Layout.u32.stored b (p + 20) v.unk4 ∧
    Layout.u32.stored b (p + 24) v.unk5 ∧
    Nrpd.UnkFormat.layout.stored b (p + 28) v.unk6 ∧
    Layout.u32.stored b (p + 36) v.unk8⟩

/-- /repo/ssbh_lib/src/formats/nrpd.rs:428-432 -/
def Nrpd.UnkItem24.layout : Layout Nrpd.UnkItem24 :=
  ⟨40, fun b p v =>
    Layout.text.stored b p v.unk1 ∧
    Layout.text.stored b (p + 8) v.unk2 ∧
    (Layout.vector 6 Layout.u32).stored b (p + 16) v.unk3⟩

/-- /repo/ssbh_lib/src/formats/nrpd.rs:434-440: the numbers of the types -/
def Nrpd.UnkItem2.tagNumber : Nrpd.UnkItem2 → Nat
  | .UnkItem20 _ => 0
  | .UnkItem21 _ => 1
  | .UnkItem22 _ => 2
  | .UnkItem24 _ => 4

def Nrpd.UnkItem2.DataAt (b : Bytes) (p : Nat) : Nrpd.UnkItem2 → Prop
  | .UnkItem20 v => Nrpd.UnkItem20.layout.stored b p v
  | .UnkItem21 v => Nrpd.UnkItem21.layout.stored b p v
  | .UnkItem22 v => Nrpd.UnkItem22.layout.stored b p v
  | .UnkItem24 v => Nrpd.UnkItem24.layout.stored b p v

/-- /repo/ssbh_lib/src/formats/nrpd.rs:445-448 -/
def Nrpd.UnkItem3.layout : Layout Nrpd.UnkItem3 :=
  ⟨16, fun b p v =>
    Layout.text.stored b p v.name ∧
    Layout.text.stored b (p + 8) v.value⟩

/-- /repo/ssbh_lib/src/formats/nrpd.rs:390-393 -/
def Nrpd.UnkItem1.layout : Layout Nrpd.UnkItem1 :=
  ⟨24, fun b p v =>
    Layout.text.stored b p v.unk1 ∧
    (Layout.list Nrpd.UnkItem3.layout).stored b (p + 8) v.unk2⟩

/-- `Nrpd::V16`, /repo/ssbh_lib/src/formats/nrpd.rs:21-44 -/
def Nrpd.V16Data.layout : Layout Nrpd.V16Data :=
  ⟨152, fun b p v =>
    (Layout.list (Layout.tagged Nrpd.FrameBuffer.tagNumber Nrpd.FrameBuffer.DataAt)).stored b p v.frame_buffers ∧
    (Layout.list (Layout.tagged Nrpd.State.tagNumber Nrpd.State.DataAt)).stored b (p + 16) v.state_containers ∧
    (Layout.list Nrpd.RenderPassContainer.layout).stored b (p + 32) v.render_passes ∧
    (Layout.list Nrpd.StringPair.layout).stored b (p + 48) v.unk_string_list1 ∧
    (Layout.list (Layout.tagged Nrpd.UnkItem2.tagNumber Nrpd.UnkItem2.DataAt)).stored b (p + 64) v.unk_string_list2 ∧
    (Layout.list Nrpd.UnkItem1.layout).stored b (p + 80) v.unk_list ∧
    Layout.u32.stored b (p + 96) v.unk_width1 ∧
    Layout.u32.stored b (p + 100) v.unk_height1 ∧
    Layout.u32.stored b (p + 104) v.unk3 ∧
    Layout.u32.stored b (p + 108) v.unk4 ∧
    Layout.u32.stored b (p + 112) v.unk5 ∧
    Layout.u32.stored b (p + 116) v.unk6 ∧
    Layout.u32.stored b (p + 120) v.unk7 ∧
    Layout.u32.stored b (p + 124) v.unk8 ∧
    Layout.text.stored b (p + 128) v.unk9 ∧
    Layout.u32.stored b (p + 136) v.unk_width2 ∧
    Layout.u32.stored b (p + 140) v.unk_height2 ∧
    Layout.u64.stored b (p + 144) v.unk10⟩

/-- /repo/ssbh_lib/src/formats/nrpd.rs:21-44, and the magic from /repo/ssbh_lib/src/lib.rs:300-309: DPRN -/
def Nrpd.FileAt (b : Bytes) : Nrpd → Prop
  | .V16 v => Layout.FileAt [0x44, 0x50, 0x52, 0x4e] 1 6 (fun b p => Nrpd.V16Data.layout.stored b p v) b

end Verif
