import Verif.Image.Spec
import Verif.Formats.Ssbh
/-!
# The bytes of the ten formats

Written by tools/gen_image.py from the Rust definitions.
-/

namespace Verif

/-! ## Vectors and matrices -/

/-- /repo/ssbh_lib/src/vectors.rs:11-15 -/
def Vector3.image (v : Vector3) : Image.Piece :=
    Image.f32 v.x ▹ Image.f32 v.y ▹ Image.f32 v.z

/-- /repo/ssbh_lib/src/vectors.rs:134-138 -/
def Matrix3x3.image (v : Matrix3x3) : Image.Piece :=
    Vector3.image v.col1 ▹ Vector3.image v.col2 ▹ Vector3.image v.col3

/-- /repo/ssbh_lib/src/vectors.rs:216-221 -/
def Vector4.image (v : Vector4) : Image.Piece :=
    Image.f32 v.x ▹ Image.f32 v.y ▹ Image.f32 v.z ▹ Image.f32 v.w

/-- /repo/ssbh_lib/src/vectors.rs:332-337 -/
def Color4f.image (v : Color4f) : Image.Piece :=
    Image.f32 v.r ▹ Image.f32 v.g ▹ Image.f32 v.b ▹ Image.f32 v.a

/-- /repo/ssbh_lib/src/vectors.rs:343-348 -/
def Matrix4x4.image (v : Matrix4x4) : Image.Piece :=
    Vector4.image v.col1 ▹ Vector4.image v.col2 ▹ Vector4.image v.col3 ▹ Vector4.image v.col4

/-! ## Nlst -/

/-- `Nlst::V10`, /repo/ssbh_lib/src/formats/nlst.rs:14-17 -/
def Nlst.V10Data.image (v : Nlst.V10Data) : Image.Piece :=
    (Image.list (Image.text 4)) v.file_names

/-- /repo/ssbh_lib/src/formats/nlst.rs:14-17, and the magic from /repo/ssbh_lib/src/lib.rs:300-309: TSLN -/
def Nlst.image : Nlst → Image.File
  | .V10 v => ⟨[0x54, 0x53, 0x4c, 0x4e], 1, 0, 1, (Nlst.V10Data.image v)⟩

/-! ## Shdr -/

/-- /repo/ssbh_lib/src/formats/shdr.rs:47-52 -/
def Shdr.ShaderStage.image : Shdr.ShaderStage → Image.Piece := Image.enum 4

/-- /repo/ssbh_lib/src/formats/shdr.rs:30-39 -/
def Shdr.Shader.image (v : Shdr.Shader) : Image.Piece :=
    ((Image.text 4) v.name ▹
    Shdr.ShaderStage.image v.shader_stage ▹
    Image.u32 v.unk3 ▹
    Image.buffer v.shader_binary ▹
    Image.u64 v.binary_size) ▹ Image.padding 16

/-- `Shdr::V12`, /repo/ssbh_lib/src/formats/shdr.rs:13-16 -/
def Shdr.V12Data.image (v : Shdr.V12Data) : Image.Piece :=
    (Image.list Shdr.Shader.image) v.shaders

/-- /repo/ssbh_lib/src/formats/shdr.rs:13-16, and the magic from /repo/ssbh_lib/src/lib.rs:300-309: RDHS -/
def Shdr.image : Shdr → Image.File
  | .V12 v => ⟨[0x52, 0x44, 0x48, 0x53], 1, 2, 1, (Shdr.V12Data.image v)⟩

/-! ## Modl -/

/-- /repo/ssbh_lib/src/formats/modl.rs:48-57 -/
def Modl.ModlEntry.image (v : Modl.ModlEntry) : Image.Piece :=
    (Image.text 4) v.mesh_object_name ▹
    Image.u64 v.mesh_object_subindex ▹
    (Image.text 4) v.material_label

/-- `Modl::V17`, /repo/ssbh_lib/src/formats/modl.rs:16-34 -/
def Modl.V17Data.image (v : Modl.V17Data) : Image.Piece :=
    (Image.text 4) v.model_name ▹
    (Image.text 4) v.skeleton_file_name ▹
    (Image.list (Image.text 4)) v.material_file_names ▹
    (Image.pointer 8 (Image.record (Image.text 4))) v.animation_file_name ▹
    (Image.text 8) v.mesh_file_name ▹
    (Image.list Modl.ModlEntry.image) v.entries

/-- /repo/ssbh_lib/src/formats/modl.rs:16-34, and the magic from /repo/ssbh_lib/src/lib.rs:300-309: LDOM -/
def Modl.image : Modl → Image.File
  | .V17 v => ⟨[0x4c, 0x44, 0x4f, 0x4d], 1, 7, 1, (Modl.V17Data.image v)⟩

/-! ## Skel -/

/-- /repo/ssbh_lib/src/formats/skel.rs:97-112 -/
def Skel.BillboardType.image : Skel.BillboardType → Image.Piece := Image.enum 1

/-- /repo/ssbh_lib/src/formats/skel.rs:72-76 -/
def Skel.SkelEntryFlags.image (v : Skel.SkelEntryFlags) : Image.Piece :=
    (Image.u8 v.unk1 ▹ Skel.BillboardType.image v.billboard_type) ▹ Image.padding 2

/-- /repo/ssbh_lib/src/formats/skel.rs:58-66 -/
def Skel.SkelBoneEntry.image (v : Skel.SkelBoneEntry) : Image.Piece :=
    (Image.text 4) v.name ▹
    Image.u16 v.index ▹
    Image.i16 v.parent_index ▹
    Skel.SkelEntryFlags.image v.flags

/-- `Skel::V10`, /repo/ssbh_lib/src/formats/skel.rs:25-43 -/
def Skel.V10Data.image (v : Skel.V10Data) : Image.Piece :=
    (Image.list Skel.SkelBoneEntry.image) v.bone_entries ▹
    (Image.list Matrix4x4.image) v.world_transforms ▹
    (Image.list Matrix4x4.image) v.inv_world_transforms ▹
    (Image.list Matrix4x4.image) v.transforms ▹
    (Image.list Matrix4x4.image) v.inv_transforms

/-- /repo/ssbh_lib/src/formats/skel.rs:25-43, and the magic from /repo/ssbh_lib/src/lib.rs:300-309: LEKS -/
def Skel.image : Skel → Image.File
  | .V10 v => ⟨[0x4c, 0x45, 0x4b, 0x53], 1, 0, 1, (Skel.V10Data.image v)⟩

/-! ## Hlpb -/

/-- /repo/ssbh_lib/src/formats/hlpb.rs:54-77 -/
def Hlpb.AimConstraint.image (v : Hlpb.AimConstraint) : Image.Piece :=
    (Image.text 4) v.name ▹
    (Image.text 4) v.aim_bone_name1 ▹
    (Image.text 4) v.aim_bone_name2 ▹
    (Image.text 4) v.aim_type1 ▹
    (Image.text 4) v.aim_type2 ▹
    (Image.text 4) v.target_bone_name1 ▹
    (Image.text 4) v.target_bone_name2 ▹
    Image.u32 v.unk1 ▹
    Image.u32 v.unk2 ▹
    Vector3.image v.aim ▹
    Vector3.image v.up ▹
    Vector4.image v.quat1 ▹
    Vector4.image v.quat2 ▹
    Image.f32 v.unk17 ▹
    Image.f32 v.unk18 ▹
    Image.f32 v.unk19 ▹
    Image.f32 v.unk20 ▹
    Image.f32 v.unk21 ▹
    Image.f32 v.unk22

/-- /repo/ssbh_lib/src/formats/hlpb.rs:85-112 -/
def Hlpb.OrientConstraint.image (v : Hlpb.OrientConstraint) : Image.Piece :=
    (Image.text 4) v.name ▹
    (Image.text 4) v.parent_bone_name1 ▹
    (Image.text 4) v.parent_bone_name2 ▹
    (Image.text 4) v.source_bone_name ▹
    (Image.text 4) v.target_bone_name ▹
    Image.u32 v.unk_type ▹
    Vector3.image v.constraint_axes ▹
    Vector4.image v.quat1 ▹
    Vector4.image v.quat2 ▹
    Vector3.image v.range_min ▹
    Vector3.image v.range_max

/-- /repo/ssbh_lib/src/formats/hlpb.rs:120-125 -/
def Hlpb.ConstraintType.image : Hlpb.ConstraintType → Image.Piece := Image.enum 4

/-- `Hlpb::V11`, /repo/ssbh_lib/src/formats/hlpb.rs:19-36 -/
def Hlpb.V11Data.image (v : Hlpb.V11Data) : Image.Piece :=
    (Image.list Hlpb.AimConstraint.image) v.aim_constraints ▹
    (Image.list Hlpb.OrientConstraint.image) v.orient_constraints ▹
    (Image.list Image.u32) v.constraint_indices ▹
    (Image.list Hlpb.ConstraintType.image) v.constraint_types

/-- /repo/ssbh_lib/src/formats/hlpb.rs:19-36, and the magic from /repo/ssbh_lib/src/lib.rs:300-309: BPLH -/
def Hlpb.image : Hlpb → Image.File
  | .V11 v => ⟨[0x42, 0x50, 0x4c, 0x48], 1, 1, 1, (Hlpb.V11Data.image v)⟩

/-! ## Nufx -/

/-- /repo/ssbh_lib/src/formats/nufx.rs:79-86 -/
def Nufx.ShaderStages.image (v : Nufx.ShaderStages) : Image.Piece :=
    (Image.text 4) v.vertex_shader ▹
    (Image.text 4) v.unk_shader1 ▹
    (Image.text 4) v.unk_shader2 ▹
    (Image.text 4) v.geometry_shader ▹
    (Image.text 4) v.pixel_shader ▹
    (Image.text 4) v.compute_shader

/-- /repo/ssbh_lib/src/formats/nufx.rs:68-73 -/
def Nufx.MaterialParameter.image (v : Nufx.MaterialParameter) : Image.Piece :=
    (Image.u64 v.param_id ▹ (Image.text 8) v.parameter_name) ▹ Image.padding 8

/-- /repo/ssbh_lib/src/formats/nufx.rs:93-103 -/
def Nufx.ShaderProgramV0.image (v : Nufx.ShaderProgramV0) : Image.Piece :=
    (Image.text 4) v.name ▹
    (Image.text 4) v.render_pass ▹
    Nufx.ShaderStages.image v.shaders ▹
    (Image.list Nufx.MaterialParameter.image) v.material_parameters

/-- /repo/ssbh_lib/src/formats/nufx.rs:127-130 -/
def Nufx.UnkItem.image (v : Nufx.UnkItem) : Image.Piece :=
    (Image.text 4) v.name ▹ (Image.list (Image.text 4)) v.unk1

/-- /repo/ssbh_lib/src/formats/nufx.rs:40-43 -/
def Nufx.NufxV0.image (v : Nufx.NufxV0) : Image.Piece :=
    (Image.list Nufx.ShaderProgramV0.image) v.programs ▹
    (Image.list Nufx.UnkItem.image) v.unk_string_list

/-- /repo/ssbh_lib/src/formats/nufx.rs:58-61 -/
def Nufx.VertexAttribute.image (v : Nufx.VertexAttribute) : Image.Piece :=
    (Image.text 4) v.name ▹ (Image.text 4) v.attribute_name

/-- /repo/ssbh_lib/src/formats/nufx.rs:110-122 -/
def Nufx.ShaderProgramV1.image (v : Nufx.ShaderProgramV1) : Image.Piece :=
    (Image.text 4) v.name ▹
    (Image.text 4) v.render_pass ▹
    Nufx.ShaderStages.image v.shaders ▹
    (Image.list Nufx.VertexAttribute.image) v.vertex_attributes ▹
    (Image.list Nufx.MaterialParameter.image) v.material_parameters

/-- /repo/ssbh_lib/src/formats/nufx.rs:48-51 -/
def Nufx.NufxV1.image (v : Nufx.NufxV1) : Image.Piece :=
    (Image.list Nufx.ShaderProgramV1.image) v.programs ▹
    (Image.list Nufx.UnkItem.image) v.unk_string_list

/-- /repo/ssbh_lib/src/formats/nufx.rs:19-26, and the magic from /repo/ssbh_lib/src/lib.rs:300-309: XFUN -/
def Nufx.image : Nufx → Image.File
  | .V0 v => ⟨[0x58, 0x46, 0x55, 0x4e], 1, 0, 1, (Nufx.NufxV0.image v)⟩
  | .V1 v => ⟨[0x58, 0x46, 0x55, 0x4e], 1, 1, 1, (Nufx.NufxV1.image v)⟩

/-! ## Anim -/

/-- /repo/ssbh_lib/src/formats/anim.rs:217-221 -/
def Anim.TrackTypeV1.image : Anim.TrackTypeV1 → Image.Piece := Image.enum 8

/-- /repo/ssbh_lib/src/formats/anim.rs:124-128 -/
def Anim.Property.image (v : Anim.Property) : Image.Piece :=
    (Image.text 4) v.name ▹ Image.u64 v.buffer_index

/-- /repo/ssbh_lib/src/formats/anim.rs:115-119 -/
def Anim.TrackV1.image (v : Anim.TrackV1) : Image.Piece :=
    (Image.text 4) v.name ▹
    Anim.TrackTypeV1.image v.track_type ▹
    (Image.list Anim.Property.image) v.properties

/-- /repo/ssbh_lib/src/formats/anim.rs:268-273 -/
def Anim.GroupType.image : Anim.GroupType → Image.Piece := Image.enum 8

/-- /repo/ssbh_lib/src/formats/anim.rs:228-235 -/
def Anim.TrackTypeV2.image : Anim.TrackTypeV2 → Image.Piece := Image.enum 1

/-- /repo/ssbh_lib/src/formats/anim.rs:242-257 -/
def Anim.CompressionType.image : Anim.CompressionType → Image.Piece := Image.enum 1

/-- /repo/ssbh_lib/src/formats/anim.rs:168-172 -/
def Anim.TrackFlags.image (v : Anim.TrackFlags) : Image.Piece :=
    (Anim.TrackTypeV2.image v.track_type ▹ Anim.CompressionType.image v.compression_type) ▹ Image.padding 2

/-- /repo/ssbh_lib/src/formats/anim.rs:196-208 -/
def Anim.TransformFlags.image : Anim.TransformFlags → Image.Piece := Image.u32

/-- /repo/ssbh_lib/src/formats/anim.rs:93-100 -/
def Anim.TrackV2.image (v : Anim.TrackV2) : Image.Piece :=
    (Image.text 4) v.name ▹
    Anim.TrackFlags.image v.flags ▹
    Image.u32 v.frame_count ▹
    Anim.TransformFlags.image v.transform_flags ▹
    Image.u32 v.data_offset ▹
    Image.u64 v.data_size

/-- /repo/ssbh_lib/src/formats/anim.rs:85-88 -/
def Anim.Node.image (v : Anim.Node) : Image.Piece :=
    (Image.text 4) v.name ▹ (Image.list Anim.TrackV2.image) v.tracks

/-- /repo/ssbh_lib/src/formats/anim.rs:77-80 -/
def Anim.Group.image (v : Anim.Group) : Image.Piece :=
    Anim.GroupType.image v.group_type ▹ (Image.list Anim.Node.image) v.nodes

/-- /repo/ssbh_lib/src/formats/anim.rs:159-162 -/
def Anim.UnkSubItem.image (v : Anim.UnkSubItem) : Image.Piece :=
    Image.u32 v.unk1 ▹ Image.u32 v.unk2

/-- /repo/ssbh_lib/src/formats/anim.rs:142-145 -/
def Anim.UnkItem1.image (v : Anim.UnkItem1) : Image.Piece :=
    Image.u64 v.unk1 ▹ (Image.list Anim.UnkSubItem.image) v.unk2

/-- /repo/ssbh_lib/src/formats/anim.rs:150-153 -/
def Anim.UnkItem2.image (v : Anim.UnkItem2) : Image.Piece :=
    (Image.text 4) v.unk1 ▹ (Image.list Anim.UnkSubItem.image) v.unk2

/-- /repo/ssbh_lib/src/formats/anim.rs:134-137 -/
def Anim.UnkData.image (v : Anim.UnkData) : Image.Piece :=
    (Image.list Anim.UnkItem1.image) v.unk1 ▹ (Image.list Anim.UnkItem2.image) v.unk2

/-- `Anim::V12`, /repo/ssbh_lib/src/formats/anim.rs:28-72 -/
def Anim.V12Data.image (v : Anim.V12Data) : Image.Piece :=
    (Image.text 4) v.name ▹
    Image.f32 v.unk1 ▹
    Image.f32 v.final_frame_index ▹
    Image.f32 v.unk2 ▹
    Image.f32 v.unk3 ▹
    (Image.list Anim.TrackV1.image) v.tracks ▹
    (Image.list Image.buffer) v.buffers

/-- `Anim::V20`, /repo/ssbh_lib/src/formats/anim.rs:28-72 -/
def Anim.V20Data.image (v : Anim.V20Data) : Image.Piece :=
    Image.f32 v.final_frame_index ▹
    Image.u16 v.unk1 ▹
    Image.u16 v.unk2 ▹
    (Image.text 4) v.name ▹
    (Image.list Anim.Group.image) v.groups ▹
    Image.buffer v.buffer

/-- `Anim::V21`, /repo/ssbh_lib/src/formats/anim.rs:28-72 -/
def Anim.V21Data.image (v : Anim.V21Data) : Image.Piece :=
    Image.f32 v.final_frame_index ▹
    Image.u16 v.unk1 ▹
    Image.u16 v.unk2 ▹
    (Image.text 4) v.name ▹
    (Image.list Anim.Group.image) v.groups ▹
    Image.buffer v.buffer ▹
    Anim.UnkData.image v.unk_data

/-- /repo/ssbh_lib/src/formats/anim.rs:28-72, and the magic from /repo/ssbh_lib/src/lib.rs:300-309: MINA -/
def Anim.image : Anim → Image.File
  | .V12 v => ⟨[0x4d, 0x49, 0x4e, 0x41], 1, 2, 1, (Anim.V12Data.image v)⟩
  | .V20 v => ⟨[0x4d, 0x49, 0x4e, 0x41], 2, 0, 1, (Anim.V20Data.image v)⟩
  | .V21 v => ⟨[0x4d, 0x49, 0x4e, 0x41], 2, 1, 8, (Anim.V21Data.image v)⟩

/-! ## Mesh -/

/-- /repo/ssbh_lib/src/formats/mesh.rs:129-132 -/
def Mesh.BoundingSphere.image (v : Mesh.BoundingSphere) : Image.Piece :=
    Vector3.image v.center ▹ Image.f32 v.radius

/-- /repo/ssbh_lib/src/formats/mesh.rs:139-142 -/
def Mesh.BoundingVolume.image (v : Mesh.BoundingVolume) : Image.Piece :=
    Vector3.image v.min ▹ Vector3.image v.max

/-- /repo/ssbh_lib/src/formats/mesh.rs:147-151 -/
def Mesh.OrientedBoundingBox.image (v : Mesh.OrientedBoundingBox) : Image.Piece :=
    Vector3.image v.center ▹ Matrix3x3.image v.transform ▹ Vector3.image v.size

/-- /repo/ssbh_lib/src/formats/mesh.rs:120-124 -/
def Mesh.BoundingInfo.image (v : Mesh.BoundingInfo) : Image.Piece :=
    Mesh.BoundingSphere.image v.bounding_sphere ▹
    Mesh.BoundingVolume.image v.bounding_volume ▹
    Mesh.OrientedBoundingBox.image v.oriented_bounding_box

/-- /repo/ssbh_lib/src/formats/mesh.rs:288-293 -/
def Mesh.DrawElementType.image : Mesh.DrawElementType → Image.Piece := Image.enum 4

/-- /repo/ssbh_lib/src/formats/mesh.rs:274-280 -/
def Mesh.DepthFlags.image (v : Mesh.DepthFlags) : Image.Piece :=
    (Image.u8 v.disable_depth_write ▹ Image.u8 v.disable_depth_test) ▹ Image.padding 2

/-- /repo/ssbh_lib/src/formats/mesh.rs:222-267 -/
def Mesh.MeshObject.image {A : Type} (aI : A → Image.Piece) (v : (Mesh.MeshObject A)) : Image.Piece :=
    (Image.text 4) v.name ▹
    Image.u64 v.subindex ▹
    (Image.text 4) v.parent_bone_name ▹
    Image.u32 v.vertex_count ▹
    Image.u32 v.vertex_index_count ▹
    Image.u32 v.unk2 ▹
    Image.u32 v.vertex_buffer0_offset ▹
    Image.u32 v.vertex_buffer1_offset ▹
    Image.u32 v.vertex_buffer2_offset ▹
    Image.u32 v.vertex_buffer3_offset ▹
    Image.u32 v.stride0 ▹
    Image.u32 v.stride1 ▹
    Image.u32 v.stride2 ▹
    Image.u32 v.stride3 ▹
    Image.u32 v.index_buffer_offset ▹
    Image.u32 v.unk8 ▹
    Mesh.DrawElementType.image v.draw_element_type ▹
    Image.u32 v.use_vertex_skinning ▹
    Image.i32 v.sort_bias ▹
    Mesh.DepthFlags.image v.depth_flags ▹
    Mesh.BoundingInfo.image v.bounding_info ▹
    (Image.list aI) v.attributes

/-- /repo/ssbh_lib/src/formats/mesh.rs:157-164 -/
def Mesh.RiggingFlags.image (v : Mesh.RiggingFlags) : Image.Piece :=
    (Image.u8 v.max_influences ▹ Image.u8 v.unk1) ▹ Image.padding 6

/-- /repo/ssbh_lib/src/formats/mesh.rs:169-172 -/
def Mesh.BoneBuffer.image {W2 : Type} (w2I : W2 → Image.Piece) (v : (Mesh.BoneBuffer W2)) : Image.Piece :=
    (Image.text 4) v.bone_name ▹ w2I v.data

/-- /repo/ssbh_lib/src/formats/mesh.rs:179-184 -/
def Mesh.RiggingGroup.image {W3 : Type} (w3I : W3 → Image.Piece) (v : (Mesh.RiggingGroup W3)) : Image.Piece :=
    (Image.text 4) v.mesh_object_name ▹
    Image.u64 v.mesh_object_subindex ▹
    Mesh.RiggingFlags.image v.flags ▹
    (Image.list (Mesh.BoneBuffer.image w3I)) v.buffers

/-- /repo/ssbh_lib/src/formats/mesh.rs:56-75 -/
def Mesh.MeshInner.image {A : Type} {W1 : Type} (aI : A → Image.Piece) (w1I : W1 → Image.Piece) (v : (Mesh.MeshInner A W1)) : Image.Piece :=
    (Image.text 4) v.model_name ▹
    Mesh.BoundingInfo.image v.bounding_info ▹
    Image.u32 v.unk1 ▹
    (Image.list (Mesh.MeshObject.image aI)) v.objects ▹
    (Image.list Image.u32) v.buffer_sizes ▹
    Image.u64 v.polygon_index_size ▹
    (Image.list Image.buffer) v.vertex_buffers ▹
    Image.buffer v.index_buffer ▹
    (Image.list (Mesh.RiggingGroup.image w1I)) v.rigging_buffers

/-- /repo/ssbh_lib/src/formats/mesh.rs:362-368 -/
def Mesh.AttributeUsageV8.image : Mesh.AttributeUsageV8 → Image.Piece := Image.enum 4

/-- /repo/ssbh_lib/src/formats/mesh.rs:324-335 -/
def Mesh.AttributeDataTypeV8.image : Mesh.AttributeDataTypeV8 → Image.Piece := Image.enum 4

/-- /repo/ssbh_lib/src/formats/mesh.rs:80-87 -/
def Mesh.AttributeV8.image (v : Mesh.AttributeV8) : Image.Piece :=
    Mesh.AttributeUsageV8.image v.usage ▹
    Mesh.AttributeDataTypeV8.image v.data_type ▹
    Image.u32 v.buffer_index ▹
    Image.u32 v.buffer_offset ▹
    Image.u32 v.subindex

/-- /repo/ssbh_lib/src/formats/mesh.rs:205-208 -/
def Mesh.VertexWeightV8.image (v : Mesh.VertexWeightV8) : Image.Piece :=
    Image.u32 v.vertex_index ▹ Image.f32 v.vertex_weight

/-- /repo/ssbh_lib/src/formats/mesh.rs:346-353 -/
def Mesh.AttributeUsageV9.image : Mesh.AttributeUsageV9 → Image.Piece := Image.enum 4

/-- /repo/ssbh_lib/src/formats/mesh.rs:92-101 -/
def Mesh.AttributeV9.image (v : Mesh.AttributeV9) : Image.Piece :=
    Mesh.AttributeUsageV9.image v.usage ▹
    Mesh.AttributeDataTypeV8.image v.data_type ▹
    Image.u32 v.buffer_index ▹
    Image.u32 v.buffer_offset ▹
    Image.u64 v.subindex ▹
    (Image.text 4) v.name ▹
    (Image.list (Image.text 4)) v.attribute_names

/-- /repo/ssbh_lib/src/formats/mesh.rs:302-315 -/
def Mesh.AttributeDataTypeV10.image : Mesh.AttributeDataTypeV10 → Image.Piece := Image.enum 4

/-- /repo/ssbh_lib/src/formats/mesh.rs:106-115 -/
def Mesh.AttributeV10.image (v : Mesh.AttributeV10) : Image.Piece :=
    Mesh.AttributeUsageV9.image v.usage ▹
    Mesh.AttributeDataTypeV10.image v.data_type ▹
    Image.u32 v.buffer_index ▹
    Image.u32 v.buffer_offset ▹
    Image.u64 v.subindex ▹
    (Image.text 4) v.name ▹
    (Image.list (Image.text 4)) v.attribute_names

/-- /repo/ssbh_lib/src/formats/mesh.rs:26-41, and the magic from /repo/ssbh_lib/src/lib.rs:300-309: HSEM -/
def Mesh.image : Mesh → Image.File
  | .V8 v => ⟨[0x48, 0x53, 0x45, 0x4d], 1, 8, 8, ((Mesh.MeshInner.image Mesh.AttributeV8.image (Image.list Mesh.VertexWeightV8.image)) v ▹ Image.padding 16)⟩
  | .V9 v => ⟨[0x48, 0x53, 0x45, 0x4d], 1, 9, 8, ((Mesh.MeshInner.image Mesh.AttributeV9.image (Image.list Mesh.VertexWeightV8.image)) v ▹ Image.padding 16)⟩
  | .V10 v => ⟨[0x48, 0x53, 0x45, 0x4d], 1, 10, 8, ((Mesh.MeshInner.image Mesh.AttributeV10.image Image.buffer) v ▹ Image.padding 16)⟩

/-! ## Matl -/

/-- /repo/ssbh_lib/src/formats/matl.rs:147-516 -/
def Matl.ParamId.image : Matl.ParamId → Image.Piece := Image.enum 8

/-- /repo/ssbh_lib/src/formats/matl.rs:571-576 -/
def Matl.WrapMode.image : Matl.WrapMode → Image.Piece := Image.enum 4

/-- /repo/ssbh_lib/src/formats/matl.rs:584-588 -/
def Matl.MinFilter.image : Matl.MinFilter → Image.Piece := Image.enum 4

/-- /repo/ssbh_lib/src/formats/matl.rs:596-600 -/
def Matl.MagFilter.image : Matl.MagFilter → Image.Piece := Image.enum 4

/-- /repo/ssbh_lib/src/formats/matl.rs:608-612 -/
def Matl.FilteringType.image : Matl.FilteringType → Image.Piece := Image.enum 4

/-- /repo/ssbh_lib/src/formats/matl.rs:640-646 -/
def Matl.MaxAnisotropy.image : Matl.MaxAnisotropy → Image.Piece := Image.enum 4

/-- /repo/ssbh_lib/src/formats/matl.rs:617-629 -/
def Matl.Sampler.image (v : Matl.Sampler) : Image.Piece :=
    Matl.WrapMode.image v.wraps ▹
    Matl.WrapMode.image v.wrapt ▹
    Matl.WrapMode.image v.wrapr ▹
    Matl.MinFilter.image v.min_filter ▹
    Matl.MagFilter.image v.mag_filter ▹
    Matl.FilteringType.image v.texture_filtering_type ▹
    Color4f.image v.border_color ▹
    Image.u32 v.unk11 ▹
    Image.u32 v.unk12 ▹
    Image.f32 v.lod_bias ▹
    Matl.MaxAnisotropy.image v.max_anisotropy

/-- /repo/ssbh_lib/src/formats/matl.rs:651-657 -/
def Matl.UvTransform.image (v : Matl.UvTransform) : Image.Piece :=
    Image.f32 v.scale_u ▹
    Image.f32 v.scale_v ▹
    Image.f32 v.rotation ▹
    Image.f32 v.translate_u ▹
    Image.f32 v.translate_v

/-- /repo/ssbh_lib/src/formats/matl.rs:666-679 -/
def Matl.BlendFactor.image : Matl.BlendFactor → Image.Piece := Image.enum 4

/-- /repo/ssbh_lib/src/formats/matl.rs:688-694 -/
def Matl.BlendOperation.image : Matl.BlendOperation → Image.Piece := Image.enum 4

/-- /repo/ssbh_lib/src/formats/matl.rs:700-711 -/
def Matl.BlendStateV15.image (v : Matl.BlendStateV15) : Image.Piece :=
    Matl.BlendFactor.image v.source_color ▹
    Matl.BlendOperation.image v.color_operation ▹
    Matl.BlendFactor.image v.destination_color ▹
    Matl.BlendFactor.image v.source_alpha ▹
    Matl.BlendOperation.image v.alpha_operation ▹
    Matl.BlendFactor.image v.destination_alpha ▹
    Image.u64 v.unk6 ▹
    Image.u32 v.unk7 ▹
    Image.u32 v.unk8 ▹
    Image.u32 v.unk9

/-- /repo/ssbh_lib/src/formats/matl.rs:537-541 -/
def Matl.CullMode.image : Matl.CullMode → Image.Piece := Image.enum 4

/-- /repo/ssbh_lib/src/formats/matl.rs:546-548 -/
def Matl.RasterizerStateV15.image (v : Matl.RasterizerStateV15) : Image.Piece :=
    Matl.CullMode.image v.cull_mode

/-- /repo/ssbh_lib/src/formats/matl.rs:100-116: the numbers of the types -/
def Matl.ParamV15.number : Matl.ParamV15 → Nat
  | .Float _ => 1
  | .Boolean _ => 2
  | .Vector4 _ => 5
  | .Unk7 _ => 7
  | .String _ => 11
  | .Sampler _ => 14
  | .UvTransform _ => 16
  | .BlendState _ => 17
  | .RasterizerState _ => 18

def Matl.ParamV15.target : Image.Target Matl.ParamV15
  | .Float v => Image.record Image.f32 v
  | .Boolean v => Image.record Image.u32 v
  | .Vector4 v => Image.record Vector4.image v
  | .Unk7 v => Image.record Color4f.image v
  | .String v => Image.record (Image.text 4) v
  | .Sampler v => Image.record Matl.Sampler.image v
  | .UvTransform v => Image.record Matl.UvTransform.image v
  | .BlendState v => Image.record Matl.BlendStateV15.image v
  | .RasterizerState v => Image.record Matl.RasterizerStateV15.image v

/-- /repo/ssbh_lib/src/formats/matl.rs:64-69 -/
def Matl.AttributeV15.image (v : Matl.AttributeV15) : Image.Piece :=
    Matl.ParamId.image v.param_id ▹
    (Image.tagged Matl.ParamV15.number Matl.ParamV15.target) v.param

/-- /repo/ssbh_lib/src/formats/matl.rs:45-57 -/
def Matl.MatlEntryV15.image (v : Matl.MatlEntryV15) : Image.Piece :=
    (Image.text 4) v.material_label ▹
    (Image.list Matl.AttributeV15.image) v.attributes ▹
    (Image.text 4) v.shader_label

/-- /repo/ssbh_lib/src/formats/matl.rs:718-730 -/
def Matl.BlendStateV16.image (v : Matl.BlendStateV16) : Image.Piece :=
    (Matl.BlendFactor.image v.source_color ▹
    Matl.BlendOperation.image v.color_operation ▹
    Matl.BlendFactor.image v.destination_color ▹
    Matl.BlendFactor.image v.source_alpha ▹
    Matl.BlendOperation.image v.alpha_operation ▹
    Matl.BlendFactor.image v.destination_alpha ▹
    Image.u32 v.alpha_sample_to_coverage ▹
    Image.u32 v.unk8 ▹
    Image.u32 v.unk9 ▹
    Image.u32 v.unk10) ▹ Image.padding 8

/-- /repo/ssbh_lib/src/formats/matl.rs:525-528 -/
def Matl.FillMode.image : Matl.FillMode → Image.Piece := Image.enum 4

/-- /repo/ssbh_lib/src/formats/matl.rs:554-561 -/
def Matl.RasterizerStateV16.image (v : Matl.RasterizerStateV16) : Image.Piece :=
    (Matl.FillMode.image v.fill_mode ▹
    Matl.CullMode.image v.cull_mode ▹
    Image.f32 v.depth_bias ▹
    Image.f32 v.unk4 ▹
    Image.f32 v.unk5 ▹
    Image.u32 v.unk6) ▹ Image.padding 4

/-- /repo/ssbh_lib/src/formats/matl.rs:118-134: the numbers of the types -/
def Matl.ParamV16.number : Matl.ParamV16 → Nat
  | .Float _ => 1
  | .Boolean _ => 2
  | .Vector4 _ => 5
  | .Unk7 _ => 7
  | .String _ => 11
  | .Sampler _ => 14
  | .UvTransform _ => 16
  | .BlendState _ => 17
  | .RasterizerState _ => 18

def Matl.ParamV16.target : Image.Target Matl.ParamV16
  | .Float v => Image.record Image.f32 v
  | .Boolean v => Image.record Image.u32 v
  | .Vector4 v => Image.record Vector4.image v
  | .Unk7 v => Image.record Color4f.image v
  | .String v => Image.record (Image.text 4) v
  | .Sampler v => Image.record Matl.Sampler.image v
  | .UvTransform v => Image.record Matl.UvTransform.image v
  | .BlendState v => Image.record Matl.BlendStateV16.image v
  | .RasterizerState v => Image.record Matl.RasterizerStateV16.image v

/-- /repo/ssbh_lib/src/formats/matl.rs:93-98 -/
def Matl.AttributeV16.image (v : Matl.AttributeV16) : Image.Piece :=
    Matl.ParamId.image v.param_id ▹
    (Image.tagged Matl.ParamV16.number Matl.ParamV16.target) v.param

/-- /repo/ssbh_lib/src/formats/matl.rs:75-87 -/
def Matl.MatlEntryV16.image (v : Matl.MatlEntryV16) : Image.Piece :=
    (Image.text 4) v.material_label ▹
    (Image.list Matl.AttributeV16.image) v.attributes ▹
    (Image.text 4) v.shader_label

/-- `Matl::V15`, /repo/ssbh_lib/src/formats/matl.rs:25-30 -/
def Matl.V15Data.image (v : Matl.V15Data) : Image.Piece :=
    (Image.list Matl.MatlEntryV15.image) v.entries

/-- `Matl::V16`, /repo/ssbh_lib/src/formats/matl.rs:25-30 -/
def Matl.V16Data.image (v : Matl.V16Data) : Image.Piece :=
    (Image.list Matl.MatlEntryV16.image) v.entries

/-- /repo/ssbh_lib/src/formats/matl.rs:25-30, and the magic from /repo/ssbh_lib/src/lib.rs:300-309: LTAM -/
def Matl.image : Matl → Image.File
  | .V15 v => ⟨[0x4c, 0x54, 0x41, 0x4d], 1, 5, 1, (Matl.V15Data.image v)⟩
  | .V16 v => ⟨[0x4c, 0x54, 0x41, 0x4d], 1, 6, 1, (Matl.V16Data.image v)⟩

/-! ## Nrpd -/

/-- /repo/ssbh_lib/src/formats/nrpd.rs:74-87 -/
def Nrpd.UnkFormat.image : Nrpd.UnkFormat → Image.Piece := Image.enum 8

/-- /repo/ssbh_lib/src/formats/nrpd.rs:92-99 -/
def Nrpd.Framebuffer0.image (v : Nrpd.Framebuffer0) : Image.Piece :=
    (Image.text 4) v.name ▹
    Image.u32 v.width ▹
    Image.u32 v.height ▹
    Nrpd.UnkFormat.image v.unk1 ▹
    Image.u32 v.unk2 ▹
    Image.u32 v.unk3

/-- /repo/ssbh_lib/src/formats/nrpd.rs:104-111 -/
def Nrpd.Framebuffer1.image (v : Nrpd.Framebuffer1) : Image.Piece :=
    (Image.text 4) v.name ▹
    Image.u32 v.width ▹
    Image.u32 v.height ▹
    Image.u64 v.unk1 ▹
    Image.u32 v.unk2 ▹
    Image.u32 v.unk3

/-- /repo/ssbh_lib/src/formats/nrpd.rs:116-121 -/
def Nrpd.UniformBuffer.image (v : Nrpd.UniformBuffer) : Image.Piece :=
    (Image.text 4) v.name ▹ Image.u32 v.unk1 ▹ Image.u32 v.unk2 ▹ Image.u64 v.unk3

/-- /repo/ssbh_lib/src/formats/nrpd.rs:126-134 -/
def Nrpd.Framebuffer3.image (v : Nrpd.Framebuffer3) : Image.Piece :=
    (Image.text 4) v.name ▹
    Image.u32 v.width ▹
    Image.u32 v.height ▹
    Image.u32 v.unk1 ▹
    Image.u32 v.unk2 ▹
    Image.u32 v.unk3 ▹
    Image.u32 v.unk4

/-- /repo/ssbh_lib/src/formats/nrpd.rs:139-144 -/
def Nrpd.Framebuffer4.image (v : Nrpd.Framebuffer4) : Image.Piece :=
    (Image.text 4) v.name ▹ Image.u32 v.width ▹ Image.u32 v.height ▹ Image.u64 v.unk3

/-- /repo/ssbh_lib/src/formats/nrpd.rs:57-64: the numbers of the types -/
def Nrpd.FrameBuffer.number : Nrpd.FrameBuffer → Nat
  | .Framebuffer0 _ => 0
  | .Framebuffer1 _ => 1
  | .UniformBuffer _ => 2
  | .Framebuffer3 _ => 3
  | .Framebuffer4 _ => 4

def Nrpd.FrameBuffer.target : Image.Target Nrpd.FrameBuffer
  | .Framebuffer0 v => Image.record Nrpd.Framebuffer0.image v
  | .Framebuffer1 v => Image.record Nrpd.Framebuffer1.image v
  | .UniformBuffer v => Image.record Nrpd.UniformBuffer.image v
  | .Framebuffer3 v => Image.record Nrpd.Framebuffer3.image v
  | .Framebuffer4 v => Image.record Nrpd.Framebuffer4.image v

/-- /repo/ssbh_lib/src/formats/nrpd.rs:149-153 -/
def Nrpd.NrpdSampler.image (v : Nrpd.NrpdSampler) : Image.Piece :=
    (Image.text 4) v.name ▹ Matl.Sampler.image v.data ▹ Image.u64 v.unk13

/-- /repo/ssbh_lib/src/formats/nrpd.rs:158-167 -/
def Nrpd.NrpdRasterizerState.image (v : Nrpd.NrpdRasterizerState) : Image.Piece :=
    (Image.text 4) v.name ▹
    Matl.FillMode.image v.fill_mode ▹
    Matl.CullMode.image v.cull_mode ▹
    Image.f32 v.depth_bias ▹
    Image.f32 v.unk4 ▹
    Image.f32 v.unk5 ▹
    Image.u32 v.unk6

/-- /repo/ssbh_lib/src/formats/nrpd.rs:192-204 -/
def Nrpd.DepthState.image (v : Nrpd.DepthState) : Image.Piece :=
    (Image.text 4) v.name ▹
    Image.u32 v.unk2 ▹
    Image.u32 v.unk3 ▹
    Image.u32 v.unk4 ▹
    Image.u32 v.unk5 ▹
    Image.u32 v.unk6 ▹
    Image.u32 v.unk7 ▹
    Image.u64 v.unk8 ▹
    Image.u64 v.unk9 ▹
    Image.u64 v.unk10 ▹
    Image.u64 v.unk11

/-- /repo/ssbh_lib/src/formats/nrpd.rs:172-186 -/
def Nrpd.NrpdBlendState.image (v : Nrpd.NrpdBlendState) : Image.Piece :=
    (Image.text 4) v.name ▹
    Matl.BlendFactor.image v.source_color ▹
    Image.u32 v.unk2 ▹
    Matl.BlendFactor.image v.destination_color ▹
    Image.u32 v.unk4 ▹
    Image.u32 v.unk5 ▹
    Image.u32 v.unk6 ▹
    Image.u32 v.alpha_sample_to_coverage ▹
    Image.u32 v.unk8 ▹
    Image.u32 v.unk9 ▹
    Image.u32 v.unk10

/-- /repo/ssbh_lib/src/formats/nrpd.rs:206-212: the numbers of the types -/
def Nrpd.State.number : Nrpd.State → Nat
  | .Sampler _ => 0
  | .RasterizerState _ => 1
  | .DepthState _ => 2
  | .BlendState _ => 3

def Nrpd.State.target : Image.Target Nrpd.State
  | .Sampler v => Image.record Nrpd.NrpdSampler.image v
  | .RasterizerState v => Image.record Nrpd.NrpdRasterizerState.image v
  | .DepthState v => Image.record Nrpd.DepthState.image v
  | .BlendState v => Image.record Nrpd.NrpdBlendState.image v

/-- /repo/ssbh_lib/src/formats/nrpd.rs:237-241 -/
def Nrpd.RenderPassData0.image (v : Nrpd.RenderPassData0) : Image.Piece :=
    (Image.text 4) v.unk1 ▹ (Image.text 4) v.unk2 ▹ Image.u64 v.unk3

/-- /repo/ssbh_lib/src/formats/nrpd.rs:246-249 -/
def Nrpd.RenderPassData1.image (v : Nrpd.RenderPassData1) : Image.Piece :=
    (Image.text 4) v.unk1 ▹ (Image.text 4) v.unk2

/-- /repo/ssbh_lib/src/formats/nrpd.rs:254-262 -/
def Nrpd.RenderPassData2.image (v : Nrpd.RenderPassData2) : Image.Piece :=
    (Image.text 4) v.unk1 ▹
    (Image.text 4) v.unk2 ▹
    (Image.pointer 8 (Image.record Image.u64)) v.unk3 ▹
    Image.u64 v.unk4 ▹
    (Image.pointer 8 (Image.record Image.u64)) v.unk5 ▹
    Image.u64 v.unk6

/-- /repo/ssbh_lib/src/formats/nrpd.rs:299-302 -/
def Nrpd.Unk8Data.image (v : Nrpd.Unk8Data) : Image.Piece :=
    Image.u32 v.unk1 ▹ Image.u32 v.unk2

/-- /repo/ssbh_lib/src/formats/nrpd.rs:267-274 -/
def Nrpd.RenderPassData3.image (v : Nrpd.RenderPassData3) : Image.Piece :=
    (Image.text 4) v.unk1 ▹
    (Image.text 4) v.unk2 ▹
    (Image.pointer 4 (Image.record Nrpd.Unk8Data.image)) v.unk3 ▹
    Image.u64 v.unk4 ▹
    (Image.pointer 4 (Image.record Nrpd.Unk8Data.image)) v.unk5 ▹
    Image.u64 v.unk6

/-- /repo/ssbh_lib/src/formats/nrpd.rs:279-286 -/
def Nrpd.RenderPassData8.image (v : Nrpd.RenderPassData8) : Image.Piece :=
    (Image.text 4) v.unk1 ▹
    (Image.text 4) v.unk2 ▹
    (Image.pointer 8 (Image.record Image.u64)) v.unk3 ▹
    Image.u64 v.unk4 ▹
    (Image.pointer 8 (Image.record Image.u64)) v.unk5 ▹
    Image.u64 v.unk6

/-- /repo/ssbh_lib/src/formats/nrpd.rs:307-311 -/
def Nrpd.ColorClear.image (v : Nrpd.ColorClear) : Image.Piece :=
    (Image.text 4) v.name ▹ Color4f.image v.color ▹ Image.u64 v.unk1

/-- /repo/ssbh_lib/src/formats/nrpd.rs:316-320 -/
def Nrpd.DepthStencilClear.image (v : Nrpd.DepthStencilClear) : Image.Piece :=
    (Image.text 4) v.name ▹ Image.f32 v.depth ▹ Image.u32 v.stencil

/-- /repo/ssbh_lib/src/formats/nrpd.rs:325-333 -/
def Nrpd.Viewport.image (v : Nrpd.Viewport) : Image.Piece :=
    (Image.text 4) v.name ▹
    Image.u64 v.unk2 ▹
    Image.f32 v.width ▹
    Image.f32 v.height ▹
    Image.f32 v.unk_min ▹
    Image.f32 v.unk_max ▹
    Image.u64 v.unk4

/-- /repo/ssbh_lib/src/formats/nrpd.rs:338-346 -/
def Nrpd.RenderPassData13.image (v : Nrpd.RenderPassData13) : Image.Piece :=
    (Image.text 4) v.unk1 ▹
    (Image.text 4) v.unk2 ▹
    (Image.pointer 8 (Image.record Image.u64)) v.unk3 ▹
    Image.u64 v.unk4 ▹
    (Image.pointer 8 (Image.record Image.u64)) v.unk5 ▹
    Image.u64 v.unk6

/-- /repo/ssbh_lib/src/formats/nrpd.rs:382-385 -/
def Nrpd.StringPair.image (v : Nrpd.StringPair) : Image.Piece :=
    (Image.text 4) v.item1 ▹ (Image.text 4) v.item2

/-- /repo/ssbh_lib/src/formats/nrpd.rs:291-294 -/
def Nrpd.RenderPassData19.image (v : Nrpd.RenderPassData19) : Image.Piece :=
    (Image.text 4) v.unk1 ▹ Image.u64 v.unk2

/-- /repo/ssbh_lib/src/formats/nrpd.rs:215-232: the numbers of the types -/
def Nrpd.RenderPassData.number : Nrpd.RenderPassData → Nat
  | .FramebufferRtp _ => 0
  | .PassUnk1 _ => 1
  | .UnkTexture1 _ => 2
  | .UnkLight _ => 3
  | .Unk8 _ => 8
  | .ColorClear _ => 9
  | .DepthStencilClear _ => 10
  | .Viewport _ => 12
  | .Sampler _ => 13
  | .BlendState _ => 14
  | .RasterizerState _ => 15
  | .DepthStencilState _ => 16
  | .FramebufferRenderTarget _ => 17
  | .FramebufferDepthStencil _ => 18
  | .UnkTexture2 _ => 19

def Nrpd.RenderPassData.target : Image.Target Nrpd.RenderPassData
  | .FramebufferRtp v => Image.record Nrpd.RenderPassData0.image v
  | .PassUnk1 v => Image.record Nrpd.RenderPassData1.image v
  | .UnkTexture1 v => Image.record Nrpd.RenderPassData2.image v
  | .UnkLight v => Image.record Nrpd.RenderPassData3.image v
  | .Unk8 v => Image.record Nrpd.RenderPassData8.image v
  | .ColorClear v => Image.record Nrpd.ColorClear.image v
  | .DepthStencilClear v => Image.record Nrpd.DepthStencilClear.image v
  | .Viewport v => Image.record Nrpd.Viewport.image v
  | .Sampler v => Image.record Nrpd.RenderPassData13.image v
  | .BlendState v => Image.record Nrpd.StringPair.image v
  | .RasterizerState v => Image.record Nrpd.StringPair.image v
  | .DepthStencilState v => Image.record Nrpd.StringPair.image v
  | .FramebufferRenderTarget v => Image.record (Image.text 4) v
  | .FramebufferDepthStencil v => Image.record (Image.text 4) v
  | .UnkTexture2 v => Image.record Nrpd.RenderPassData19.image v

/-- /repo/ssbh_lib/src/formats/nrpd.rs:370-377 -/
def Nrpd.Unk3Data.image (v : Nrpd.Unk3Data) : Image.Piece :=
    (Image.text 4) v.unk1 ▹
    (Image.text 4) v.unk2 ▹
    Image.f32 v.unk3 ▹
    Image.f32 v.unk4 ▹
    Image.f32 v.unk5 ▹
    Image.f32 v.unk6

/-- /repo/ssbh_lib/src/formats/nrpd.rs:361-365: the numbers of the types -/
def Nrpd.RenderPassUnkData.number : Nrpd.RenderPassUnkData → Nat
  | .UnkDataUnk0 _ => 0
  | .UnkDataUnk3 _ => 3

def Nrpd.RenderPassUnkData.target : Image.Target Nrpd.RenderPassUnkData
  | .UnkDataUnk0 v => Image.record Image.unit v
  | .UnkDataUnk3 v => Image.record Nrpd.Unk3Data.image v

/-- /repo/ssbh_lib/src/formats/nrpd.rs:352-358 -/
def Nrpd.RenderPassContainer.image (v : Nrpd.RenderPassContainer) : Image.Piece :=
    ((Image.text 4) v.name ▹
    (Image.list (Image.tagged Nrpd.RenderPassData.number Nrpd.RenderPassData.target)) v.unk1 ▹
    (Image.list (Image.tagged Nrpd.RenderPassData.number Nrpd.RenderPassData.target)) v.unk2 ▹
    (Image.tagged Nrpd.RenderPassUnkData.number Nrpd.RenderPassUnkData.target) v.unk3) ▹ Image.padding 8

/-- /repo/ssbh_lib/src/formats/nrpd.rs:398-401 -/
def Nrpd.UnkItem20.image (v : Nrpd.UnkItem20) : Image.Piece :=
    (Image.text 4) v.unk1 ▹ (Image.text 4) v.unk2

/-- /repo/ssbh_lib/src/formats/nrpd.rs:406-410 -/
def Nrpd.UnkItem21.image (v : Nrpd.UnkItem21) : Image.Piece :=
    (Image.text 4) v.unk1 ▹ (Image.text 4) v.unk2 ▹ (Image.vector Image.u32) v.unk3

/-- /repo/ssbh_lib/src/formats/nrpd.rs:415-423 -/
def Nrpd.UnkItem22.image (v : Nrpd.UnkItem22) : Image.Piece :=
    (Image.text 4) v.unk1 ▹
    (Image.text 4) v.unk2 ▹
    Image.u32 v.unk3 ▹
    Image.u32 v.unk4 ▹
    Image.u32 v.unk5 ▹
    Nrpd.UnkFormat.image v.unk6 ▹
    Image.u32 v.unk8

/-- /repo/ssbh_lib/src/formats/nrpd.rs:428-432 -/
def Nrpd.UnkItem24.image (v : Nrpd.UnkItem24) : Image.Piece :=
    (Image.text 4) v.unk1 ▹ (Image.text 4) v.unk2 ▹ (Image.vector Image.u32) v.unk3

/-- /repo/ssbh_lib/src/formats/nrpd.rs:434-440: the numbers of the types -/
def Nrpd.UnkItem2.number : Nrpd.UnkItem2 → Nat
  | .UnkItem20 _ => 0
  | .UnkItem21 _ => 1
  | .UnkItem22 _ => 2
  | .UnkItem24 _ => 4

def Nrpd.UnkItem2.target : Image.Target Nrpd.UnkItem2
  | .UnkItem20 v => Image.record Nrpd.UnkItem20.image v
  | .UnkItem21 v => Image.record Nrpd.UnkItem21.image v
  | .UnkItem22 v => Image.record Nrpd.UnkItem22.image v
  | .UnkItem24 v => Image.record Nrpd.UnkItem24.image v

/-- /repo/ssbh_lib/src/formats/nrpd.rs:445-448 -/
def Nrpd.UnkItem3.image (v : Nrpd.UnkItem3) : Image.Piece :=
    (Image.text 4) v.name ▹ (Image.text 4) v.value

/-- /repo/ssbh_lib/src/formats/nrpd.rs:390-393 -/
def Nrpd.UnkItem1.image (v : Nrpd.UnkItem1) : Image.Piece :=
    (Image.text 4) v.unk1 ▹ (Image.list Nrpd.UnkItem3.image) v.unk2

/-- `Nrpd::V16`, /repo/ssbh_lib/src/formats/nrpd.rs:21-44 -/
def Nrpd.V16Data.image (v : Nrpd.V16Data) : Image.Piece :=
    (Image.list (Image.tagged Nrpd.FrameBuffer.number Nrpd.FrameBuffer.target)) v.frame_buffers ▹
    (Image.list (Image.tagged Nrpd.State.number Nrpd.State.target)) v.state_containers ▹
    (Image.list Nrpd.RenderPassContainer.image) v.render_passes ▹
    (Image.list Nrpd.StringPair.image) v.unk_string_list1 ▹
    (Image.list (Image.tagged Nrpd.UnkItem2.number Nrpd.UnkItem2.target)) v.unk_string_list2 ▹
    (Image.list Nrpd.UnkItem1.image) v.unk_list ▹
    Image.u32 v.unk_width1 ▹
    Image.u32 v.unk_height1 ▹
    Image.u32 v.unk3 ▹
    Image.u32 v.unk4 ▹
    Image.u32 v.unk5 ▹
    Image.u32 v.unk6 ▹
    Image.u32 v.unk7 ▹
    Image.u32 v.unk8 ▹
    (Image.text 4) v.unk9 ▹
    Image.u32 v.unk_width2 ▹
    Image.u32 v.unk_height2 ▹
    Image.u64 v.unk10

/-- /repo/ssbh_lib/src/formats/nrpd.rs:21-44, and the magic from /repo/ssbh_lib/src/lib.rs:300-309: DPRN -/
def Nrpd.image : Nrpd → Image.File
  | .V16 v => ⟨[0x44, 0x50, 0x52, 0x4e], 1, 6, 1, (Nrpd.V16Data.image v)⟩

/-- A file of any of the ten formats. /repo/ssbh_lib/src/lib.rs:496-537 -/
def Ssbh.image : Ssbh → Image.File
  | .Nlst v => Nlst.image v
  | .Shdr v => Shdr.image v
  | .Modl v => Modl.image v
  | .Skel v => Skel.image v
  | .Hlpb v => Hlpb.image v
  | .Nufx v => Nufx.image v
  | .Anim v => Anim.image v
  | .Mesh v => Mesh.image v
  | .Matl v => Matl.image v
  | .Nrpd v => Nrpd.image v

end Verif
