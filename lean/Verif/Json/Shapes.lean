import Verif.Json.Shape
/-!
# The JSON documents of the formats

Specification, see `Verif.Json.Shape`: the names of the fields and variants, and the numbers of the variants.
Written by tools/gen_json.py from the Rust definitions.
-/

namespace Verif

/-- /repo/ssbh_lib/src/vectors.rs:11-15 -/
def Vector3.shape : Shape :=
  .struct [.need "x" .float, .need "y" .float, .need "z" .float]

/-- /repo/ssbh_lib/src/vectors.rs:134-138 -/
def Matrix3x3.shape : Shape :=
  .struct [.need "col1" Vector3.shape, .need "col2" Vector3.shape, .need "col3" Vector3.shape]

/-- /repo/ssbh_lib/src/vectors.rs:216-221 -/
def Vector4.shape : Shape :=
  .struct [.need "x" .float, .need "y" .float, .need "z" .float, .need "w" .float]

/-- /repo/ssbh_lib/src/vectors.rs:332-337 -/
def Color4f.shape : Shape :=
  .struct [.need "r" .float, .need "g" .float, .need "b" .float, .need "a" .float]

/-- /repo/ssbh_lib/src/vectors.rs:343-348 -/
def Matrix4x4.shape : Shape :=
  .struct [.need "col1" Vector4.shape, .need "col2" Vector4.shape, .need "col3" Vector4.shape,
    .need "col4" Vector4.shape]

/-- The fields of `Nlst::V10`, /repo/ssbh_lib/src/formats/nlst.rs:14-17 -/
def Nlst.V10Data.shape : Shape :=
  .struct [.need "file_names" (.list (.opt .ctext))]

/-- /repo/ssbh_lib/src/formats/nlst.rs:14-17 -/
def Nlst.shape : Shape :=
  .variants [("V10", Nlst.V10Data.shape)]

/-- The names and numbers of the variants: /repo/ssbh_lib/src/formats/shdr.rs:47-52 -/
def Shdr.ShaderStage.numbers : List (String × Nat) :=
  [("Vertex", 0), ("Geometry", 3), ("Fragment", 4), ("Compute", 5)]

def Shdr.ShaderStage.shape : Shape := .names (Shdr.ShaderStage.numbers.map (·.1))

/-- /repo/ssbh_lib/src/formats/shdr.rs:30-39 -/
def Shdr.Shader.shape : Shape :=
  .struct [.need "name" (.opt .ctext), .need "shader_stage" Shdr.ShaderStage.shape, .need "unk3" (.int 0 4294967295),
    .need "shader_binary" .hex, .need "binary_size" (.int 0 18446744073709551615)]

/-- The fields of `Shdr::V12`, /repo/ssbh_lib/src/formats/shdr.rs:13-16 -/
def Shdr.V12Data.shape : Shape :=
  .struct [.need "shaders" (.list Shdr.Shader.shape)]

/-- /repo/ssbh_lib/src/formats/shdr.rs:13-16 -/
def Shdr.shape : Shape :=
  .variants [("V12", Shdr.V12Data.shape)]

/-- /repo/ssbh_lib/src/formats/modl.rs:48-57 -/
def Modl.ModlEntry.shape : Shape :=
  .struct [.need "mesh_object_name" (.opt .ctext), .need "mesh_object_subindex" (.int 0 18446744073709551615),
    .need "material_label" (.opt .ctext)]

/-- The fields of `Modl::V17`, /repo/ssbh_lib/src/formats/modl.rs:16-34 -/
def Modl.V17Data.shape : Shape :=
  .struct [.need "model_name" (.opt .ctext), .need "skeleton_file_name" (.opt .ctext),
    .need "material_file_names" (.list (.opt .ctext)), .need "animation_file_name" (.opt (.opt .ctext)),
    .need "mesh_file_name" (.opt .ctext), .need "entries" (.list Modl.ModlEntry.shape)]

/-- /repo/ssbh_lib/src/formats/modl.rs:16-34 -/
def Modl.shape : Shape :=
  .variants [("V17", Modl.V17Data.shape)]

/-- The names and numbers of the variants: /repo/ssbh_lib/src/formats/skel.rs:97-112 -/
def Skel.BillboardType.numbers : List (String × Nat) :=
  [("Disabled", 0), ("XAxisViewPointAligned", 1), ("YAxisViewPointAligned", 2), ("Unk3", 3),
    ("XYAxisViewPointAligned", 4), ("YAxisViewPlaneAligned", 6), ("XYAxisViewPlaneAligned", 8)]

def Skel.BillboardType.shape : Shape := .names (Skel.BillboardType.numbers.map (·.1))

/-- /repo/ssbh_lib/src/formats/skel.rs:72-76 -/
def Skel.SkelEntryFlags.shape : Shape :=
  .struct [.need "unk1" (.int 0 255), .need "billboard_type" Skel.BillboardType.shape]

/-- /repo/ssbh_lib/src/formats/skel.rs:58-66 -/
def Skel.SkelBoneEntry.shape : Shape :=
  .struct [.need "name" (.opt .ctext), .need "index" (.int 0 65535), .need "parent_index" (.int (-32768) 32767),
    .need "flags" Skel.SkelEntryFlags.shape]

/-- The fields of `Skel::V10`, /repo/ssbh_lib/src/formats/skel.rs:25-43 -/
def Skel.V10Data.shape : Shape :=
  .struct [.need "bone_entries" (.list Skel.SkelBoneEntry.shape), .need "world_transforms" (.list Matrix4x4.shape),
    .need "inv_world_transforms" (.list Matrix4x4.shape), .need "transforms" (.list Matrix4x4.shape),
    .need "inv_transforms" (.list Matrix4x4.shape)]

/-- /repo/ssbh_lib/src/formats/skel.rs:25-43 -/
def Skel.shape : Shape :=
  .variants [("V10", Skel.V10Data.shape)]

/-- /repo/ssbh_lib/src/formats/hlpb.rs:54-77 -/
def Hlpb.AimConstraint.shape : Shape :=
  .struct [.need "name" (.opt .ctext), .need "aim_bone_name1" (.opt .ctext), .need "aim_bone_name2" (.opt .ctext),
    .need "aim_type1" (.opt .ctext), .need "aim_type2" (.opt .ctext), .need "target_bone_name1" (.opt .ctext),
    .need "target_bone_name2" (.opt .ctext), .need "unk1" (.int 0 4294967295), .need "unk2" (.int 0 4294967295),
    .need "aim" Vector3.shape, .need "up" Vector3.shape, .need "quat1" Vector4.shape, .need "quat2" Vector4.shape,
    .need "unk17" .float, .need "unk18" .float, .need "unk19" .float, .need "unk20" .float, .need "unk21" .float,
    .need "unk22" .float]

/-- /repo/ssbh_lib/src/formats/hlpb.rs:85-112 -/
def Hlpb.OrientConstraint.shape : Shape :=
  .struct [.need "name" (.opt .ctext), .need "parent_bone_name1" (.opt .ctext),
    .need "parent_bone_name2" (.opt .ctext), .need "source_bone_name" (.opt .ctext),
    .need "target_bone_name" (.opt .ctext), .need "unk_type" (.int 0 4294967295),
    .need "constraint_axes" Vector3.shape, .need "quat1" Vector4.shape, .need "quat2" Vector4.shape,
    .need "range_min" Vector3.shape, .need "range_max" Vector3.shape]

/-- The names and numbers of the variants: /repo/ssbh_lib/src/formats/hlpb.rs:120-125 -/
def Hlpb.ConstraintType.numbers : List (String × Nat) :=
  [("Aim", 0), ("Orient", 1)]

def Hlpb.ConstraintType.shape : Shape := .names (Hlpb.ConstraintType.numbers.map (·.1))

/-- The fields of `Hlpb::V11`, /repo/ssbh_lib/src/formats/hlpb.rs:19-36 -/
def Hlpb.V11Data.shape : Shape :=
  .struct [.need "aim_constraints" (.list Hlpb.AimConstraint.shape),
    .need "orient_constraints" (.list Hlpb.OrientConstraint.shape),
    .need "constraint_indices" (.list (.int 0 4294967295)),
    .need "constraint_types" (.list Hlpb.ConstraintType.shape)]

/-- /repo/ssbh_lib/src/formats/hlpb.rs:19-36 -/
def Hlpb.shape : Shape :=
  .variants [("V11", Hlpb.V11Data.shape)]

/-- /repo/ssbh_lib/src/formats/nufx.rs:79-86 -/
def Nufx.ShaderStages.shape : Shape :=
  .struct [.need "vertex_shader" (.opt .ctext), .need "unk_shader1" (.opt .ctext), .need "unk_shader2" (.opt .ctext),
    .need "geometry_shader" (.opt .ctext), .need "pixel_shader" (.opt .ctext), .need "compute_shader" (.opt .ctext)]

/-- /repo/ssbh_lib/src/formats/nufx.rs:68-73 -/
def Nufx.MaterialParameter.shape : Shape :=
  .struct [.need "param_id" (.int 0 18446744073709551615), .need "parameter_name" (.opt .ctext)]

/-- /repo/ssbh_lib/src/formats/nufx.rs:93-103 -/
def Nufx.ShaderProgramV0.shape : Shape :=
  .struct [.need "name" (.opt .ctext), .need "render_pass" (.opt .ctext), .need "shaders" Nufx.ShaderStages.shape,
    .need "material_parameters" (.list Nufx.MaterialParameter.shape)]

/-- /repo/ssbh_lib/src/formats/nufx.rs:127-130 -/
def Nufx.UnkItem.shape : Shape :=
  .struct [.need "name" (.opt .ctext), .need "unk1" (.list (.opt .ctext))]

/-- /repo/ssbh_lib/src/formats/nufx.rs:40-43 -/
def Nufx.NufxV0.shape : Shape :=
  .struct [.need "programs" (.list Nufx.ShaderProgramV0.shape), .need "unk_string_list" (.list Nufx.UnkItem.shape)]

/-- /repo/ssbh_lib/src/formats/nufx.rs:58-61 -/
def Nufx.VertexAttribute.shape : Shape :=
  .struct [.need "name" (.opt .ctext), .need "attribute_name" (.opt .ctext)]

/-- /repo/ssbh_lib/src/formats/nufx.rs:110-122 -/
def Nufx.ShaderProgramV1.shape : Shape :=
  .struct [.need "name" (.opt .ctext), .need "render_pass" (.opt .ctext), .need "shaders" Nufx.ShaderStages.shape,
    .need "vertex_attributes" (.list Nufx.VertexAttribute.shape),
    .need "material_parameters" (.list Nufx.MaterialParameter.shape)]

/-- /repo/ssbh_lib/src/formats/nufx.rs:48-51 -/
def Nufx.NufxV1.shape : Shape :=
  .struct [.need "programs" (.list Nufx.ShaderProgramV1.shape), .need "unk_string_list" (.list Nufx.UnkItem.shape)]

/-- /repo/ssbh_lib/src/formats/nufx.rs:19-26 -/
def Nufx.shape : Shape :=
  .variants [("V0", Nufx.NufxV0.shape), ("V1", Nufx.NufxV1.shape)]

/-- The names and numbers of the variants: /repo/ssbh_lib/src/formats/anim.rs:217-221 -/
def Anim.TrackTypeV1.numbers : List (String × Nat) :=
  [("Transform", 0), ("UvTransform", 2), ("Visibility", 5)]

def Anim.TrackTypeV1.shape : Shape := .names (Anim.TrackTypeV1.numbers.map (·.1))

/-- /repo/ssbh_lib/src/formats/anim.rs:124-128 -/
def Anim.Property.shape : Shape :=
  .struct [.need "name" (.opt .ctext), .need "buffer_index" (.int 0 18446744073709551615)]

/-- /repo/ssbh_lib/src/formats/anim.rs:115-119 -/
def Anim.TrackV1.shape : Shape :=
  .struct [.need "name" (.opt .ctext), .need "track_type" Anim.TrackTypeV1.shape,
    .need "properties" (.list Anim.Property.shape)]

/-- The names and numbers of the variants: /repo/ssbh_lib/src/formats/anim.rs:268-273 -/
def Anim.GroupType.numbers : List (String × Nat) :=
  [("Transform", 1), ("Visibility", 2), ("Material", 4), ("Camera", 5)]

def Anim.GroupType.shape : Shape := .names (Anim.GroupType.numbers.map (·.1))

/-- The names and numbers of the variants: /repo/ssbh_lib/src/formats/anim.rs:228-235 -/
def Anim.TrackTypeV2.numbers : List (String × Nat) :=
  [("Transform", 1), ("UvTransform", 2), ("Float", 3), ("PatternIndex", 5), ("Boolean", 8), ("Vector4", 9)]

def Anim.TrackTypeV2.shape : Shape := .names (Anim.TrackTypeV2.numbers.map (·.1))

/-- The names and numbers of the variants: /repo/ssbh_lib/src/formats/anim.rs:242-257 -/
def Anim.CompressionType.numbers : List (String × Nat) :=
  [("Direct", 1), ("ConstTransform", 2), ("Compressed", 4), ("Constant", 5)]

def Anim.CompressionType.shape : Shape := .names (Anim.CompressionType.numbers.map (·.1))

/-- /repo/ssbh_lib/src/formats/anim.rs:168-172 -/
def Anim.TrackFlags.shape : Shape :=
  .struct [.need "track_type" Anim.TrackTypeV2.shape, .need "compression_type" Anim.CompressionType.shape]

/-- /repo/ssbh_lib/src/formats/anim.rs:196-208 -/
def Anim.TransformFlags.shape : Shape := .bits 4

/-- /repo/ssbh_lib/src/formats/anim.rs:93-100 -/
def Anim.TrackV2.shape : Shape :=
  .struct [.need "name" (.opt .ctext), .need "flags" Anim.TrackFlags.shape, .need "frame_count" (.int 0 4294967295),
    .need "transform_flags" Anim.TransformFlags.shape, .need "data_offset" (.int 0 4294967295),
    .need "data_size" (.int 0 18446744073709551615)]

/-- /repo/ssbh_lib/src/formats/anim.rs:85-88 -/
def Anim.Node.shape : Shape :=
  .struct [.need "name" (.opt .ctext), .need "tracks" (.list Anim.TrackV2.shape)]

/-- /repo/ssbh_lib/src/formats/anim.rs:77-80 -/
def Anim.Group.shape : Shape :=
  .struct [.need "group_type" Anim.GroupType.shape, .need "nodes" (.list Anim.Node.shape)]

/-- /repo/ssbh_lib/src/formats/anim.rs:159-162 -/
def Anim.UnkSubItem.shape : Shape :=
  .struct [.need "unk1" (.int 0 4294967295), .need "unk2" (.int 0 4294967295)]

/-- /repo/ssbh_lib/src/formats/anim.rs:142-145 -/
def Anim.UnkItem1.shape : Shape :=
  .struct [.need "unk1" (.int 0 18446744073709551615), .need "unk2" (.list Anim.UnkSubItem.shape)]

/-- /repo/ssbh_lib/src/formats/anim.rs:150-153 -/
def Anim.UnkItem2.shape : Shape :=
  .struct [.need "unk1" (.opt .ctext), .need "unk2" (.list Anim.UnkSubItem.shape)]

/-- /repo/ssbh_lib/src/formats/anim.rs:134-137 -/
def Anim.UnkData.shape : Shape :=
  .struct [.need "unk1" (.list Anim.UnkItem1.shape), .need "unk2" (.list Anim.UnkItem2.shape)]

/-- The fields of `Anim::V12`, /repo/ssbh_lib/src/formats/anim.rs:28-72 -/
def Anim.V12Data.shape : Shape :=
  .struct [.need "name" (.opt .ctext), .need "unk1" .float, .need "final_frame_index" .float, .need "unk2" .float,
    .need "unk3" .float, .need "tracks" (.list Anim.TrackV1.shape), .need "buffers" (.list .hex)]

/-- The fields of `Anim::V20`, /repo/ssbh_lib/src/formats/anim.rs:28-72 -/
def Anim.V20Data.shape : Shape :=
  .struct [.need "final_frame_index" .float, .need "unk1" (.int 0 65535), .need "unk2" (.int 0 65535),
    .need "name" (.opt .ctext), .need "groups" (.list Anim.Group.shape), .need "buffer" .hex]

/-- The fields of `Anim::V21`, /repo/ssbh_lib/src/formats/anim.rs:28-72 -/
def Anim.V21Data.shape : Shape :=
  .struct [.need "final_frame_index" .float, .need "unk1" (.int 0 65535), .need "unk2" (.int 0 65535),
    .need "name" (.opt .ctext), .need "groups" (.list Anim.Group.shape), .need "buffer" .hex,
    .need "unk_data" Anim.UnkData.shape]

/-- /repo/ssbh_lib/src/formats/anim.rs:28-72 -/
def Anim.shape : Shape :=
  .variants [("V12", Anim.V12Data.shape), ("V20", Anim.V20Data.shape), ("V21", Anim.V21Data.shape)]

/-- /repo/ssbh_lib/src/formats/mesh.rs:129-132 -/
def Mesh.BoundingSphere.shape : Shape :=
  .struct [.need "center" Vector3.shape, .need "radius" .float]

/-- /repo/ssbh_lib/src/formats/mesh.rs:139-142 -/
def Mesh.BoundingVolume.shape : Shape :=
  .struct [.need "min" Vector3.shape, .need "max" Vector3.shape]

/-- /repo/ssbh_lib/src/formats/mesh.rs:147-151 -/
def Mesh.OrientedBoundingBox.shape : Shape :=
  .struct [.need "center" Vector3.shape, .need "transform" Matrix3x3.shape, .need "size" Vector3.shape]

/-- /repo/ssbh_lib/src/formats/mesh.rs:120-124 -/
def Mesh.BoundingInfo.shape : Shape :=
  .struct [.need "bounding_sphere" Mesh.BoundingSphere.shape, .need "bounding_volume" Mesh.BoundingVolume.shape,
    .need "oriented_bounding_box" Mesh.OrientedBoundingBox.shape]

/-- The names and numbers of the variants: /repo/ssbh_lib/src/formats/mesh.rs:288-293 -/
def Mesh.DrawElementType.numbers : List (String × Nat) :=
  [("UnsignedShort", 0), ("UnsignedInt", 1)]

def Mesh.DrawElementType.shape : Shape := .names (Mesh.DrawElementType.numbers.map (·.1))

/-- /repo/ssbh_lib/src/formats/mesh.rs:274-280 -/
def Mesh.DepthFlags.shape : Shape :=
  .struct [.need "disable_depth_write" (.int 0 255), .need "disable_depth_test" (.int 0 255)]

/-- /repo/ssbh_lib/src/formats/mesh.rs:222-267 -/
def Mesh.MeshObject.shape (aS : Shape) : Shape :=
  .struct [.need "name" (.opt .ctext), .need "subindex" (.int 0 18446744073709551615),
    .need "parent_bone_name" (.opt .ctext), .need "vertex_count" (.int 0 4294967295),
    .need "vertex_index_count" (.int 0 4294967295), .need "unk2" (.int 0 4294967295),
    .need "vertex_buffer0_offset" (.int 0 4294967295), .need "vertex_buffer1_offset" (.int 0 4294967295),
    .need "vertex_buffer2_offset" (.int 0 4294967295), .need "vertex_buffer3_offset" (.int 0 4294967295),
    .need "stride0" (.int 0 4294967295), .need "stride1" (.int 0 4294967295), .need "stride2" (.int 0 4294967295),
    .need "stride3" (.int 0 4294967295), .need "index_buffer_offset" (.int 0 4294967295),
    .need "unk8" (.int 0 4294967295), .need "draw_element_type" Mesh.DrawElementType.shape,
    .need "use_vertex_skinning" (.int 0 4294967295), .need "sort_bias" (.int (-2147483648) 2147483647),
    .need "depth_flags" Mesh.DepthFlags.shape, .need "bounding_info" Mesh.BoundingInfo.shape,
    .need "attributes" (.list aS)]

/-- /repo/ssbh_lib/src/formats/mesh.rs:157-164 -/
def Mesh.RiggingFlags.shape : Shape :=
  .struct [.need "max_influences" (.int 0 255), .need "unk1" (.int 0 255)]

/-- /repo/ssbh_lib/src/formats/mesh.rs:169-172 -/
def Mesh.BoneBuffer.shape (w2S : Shape) : Shape :=
  .struct [.need "bone_name" (.opt .ctext), .need "data" w2S]

/-- /repo/ssbh_lib/src/formats/mesh.rs:179-184 -/
def Mesh.RiggingGroup.shape (w3S : Shape) : Shape :=
  .struct [.need "mesh_object_name" (.opt .ctext), .need "mesh_object_subindex" (.int 0 18446744073709551615),
    .need "flags" Mesh.RiggingFlags.shape, .need "buffers" (.list (Mesh.BoneBuffer.shape w3S))]

/-- /repo/ssbh_lib/src/formats/mesh.rs:56-75 -/
def Mesh.MeshInner.shape (aS : Shape) (w1S : Shape) : Shape :=
  .struct [.need "model_name" (.opt .ctext), .need "bounding_info" Mesh.BoundingInfo.shape,
    .need "unk1" (.int 0 4294967295), .need "objects" (.list (Mesh.MeshObject.shape aS)),
    .need "buffer_sizes" (.list (.int 0 4294967295)), .need "polygon_index_size" (.int 0 18446744073709551615),
    .need "vertex_buffers" (.list .hex), .need "index_buffer" .hex,
    .need "rigging_buffers" (.list (Mesh.RiggingGroup.shape w1S))]

/-- The names and numbers of the variants: /repo/ssbh_lib/src/formats/mesh.rs:362-368 -/
def Mesh.AttributeUsageV8.numbers : List (String × Nat) :=
  [("Position", 0), ("Normal", 1), ("Tangent", 3), ("TextureCoordinate", 4), ("ColorSet", 8)]

def Mesh.AttributeUsageV8.shape : Shape := .names (Mesh.AttributeUsageV8.numbers.map (·.1))

/-- The names and numbers of the variants: /repo/ssbh_lib/src/formats/mesh.rs:324-335 -/
def Mesh.AttributeDataTypeV8.numbers : List (String × Nat) :=
  [("Float3", 820), ("Float4", 1076), ("HalfFloat4", 1077), ("Float2", 1079), ("Byte4", 1024)]

def Mesh.AttributeDataTypeV8.shape : Shape := .names (Mesh.AttributeDataTypeV8.numbers.map (·.1))

/-- /repo/ssbh_lib/src/formats/mesh.rs:80-87 -/
def Mesh.AttributeV8.shape : Shape :=
  .struct [.need "usage" Mesh.AttributeUsageV8.shape, .need "data_type" Mesh.AttributeDataTypeV8.shape,
    .need "buffer_index" (.int 0 4294967295), .need "buffer_offset" (.int 0 4294967295),
    .need "subindex" (.int 0 4294967295)]

/-- /repo/ssbh_lib/src/formats/mesh.rs:205-208 -/
def Mesh.VertexWeightV8.shape : Shape :=
  .struct [.need "vertex_index" (.int 0 4294967295), .need "vertex_weight" .float]

/-- The names and numbers of the variants: /repo/ssbh_lib/src/formats/mesh.rs:346-353 -/
def Mesh.AttributeUsageV9.numbers : List (String × Nat) :=
  [("Position", 0), ("Normal", 1), ("Binormal", 2), ("Tangent", 3), ("TextureCoordinate", 4), ("ColorSet", 5)]

def Mesh.AttributeUsageV9.shape : Shape := .names (Mesh.AttributeUsageV9.numbers.map (·.1))

/-- /repo/ssbh_lib/src/formats/mesh.rs:92-101 -/
def Mesh.AttributeV9.shape : Shape :=
  .struct [.need "usage" Mesh.AttributeUsageV9.shape, .need "data_type" Mesh.AttributeDataTypeV8.shape,
    .need "buffer_index" (.int 0 4294967295), .need "buffer_offset" (.int 0 4294967295),
    .need "subindex" (.int 0 18446744073709551615), .need "name" (.opt .ctext),
    .need "attribute_names" (.list (.opt .ctext))]

/-- The names and numbers of the variants: /repo/ssbh_lib/src/formats/mesh.rs:302-315 -/
def Mesh.AttributeDataTypeV10.numbers : List (String × Nat) :=
  [("Float3", 0), ("Byte4", 2), ("Float4", 4), ("HalfFloat4", 5), ("Float2", 7), ("HalfFloat2", 8)]

def Mesh.AttributeDataTypeV10.shape : Shape := .names (Mesh.AttributeDataTypeV10.numbers.map (·.1))

/-- /repo/ssbh_lib/src/formats/mesh.rs:106-115 -/
def Mesh.AttributeV10.shape : Shape :=
  .struct [.need "usage" Mesh.AttributeUsageV9.shape, .need "data_type" Mesh.AttributeDataTypeV10.shape,
    .need "buffer_index" (.int 0 4294967295), .need "buffer_offset" (.int 0 4294967295),
    .need "subindex" (.int 0 18446744073709551615), .need "name" (.opt .ctext),
    .need "attribute_names" (.list (.opt .ctext))]

/-- /repo/ssbh_lib/src/formats/mesh.rs:26-41 -/
def Mesh.shape : Shape :=
  .variants [("V8", (Mesh.MeshInner.shape Mesh.AttributeV8.shape (.list Mesh.VertexWeightV8.shape))),
    ("V9", (Mesh.MeshInner.shape Mesh.AttributeV9.shape (.list Mesh.VertexWeightV8.shape))),
    ("V10", (Mesh.MeshInner.shape Mesh.AttributeV10.shape .hex))]

/-- The names and numbers of the variants: /repo/ssbh_lib/src/formats/matl.rs:147-516 -/
def Matl.ParamId.numbers : List (String × Nat) :=
  [("Diffuse", 0), ("Specular", 1), ("Ambient", 2), ("BlendMap", 3), ("Transparency", 4), ("DiffuseMapLayer1", 5),
    ("CosinePower", 6), ("SpecularPower", 7), ("Fresnel", 8), ("Roughness", 9), ("EmissiveScale", 10),
    ("EnableDiffuse", 11), ("EnableSpecular", 12), ("EnableAmbient", 13), ("DiffuseMapLayer2", 14),
    ("EnableTransparency", 15), ("EnableOpacity", 16), ("EnableCosinePower", 17), ("EnableSpecularPower", 18),
    ("EnableFresnel", 19), ("EnableRoughness", 20), ("EnableEmissiveScale", 21), ("WorldMatrix", 22),
    ("ViewMatrix", 23), ("ProjectionMatrix", 24), ("WorldViewMatrix", 25), ("ViewInverseMatrix", 26),
    ("ViewProjectionMatrix", 27), ("WorldViewProjectionMatrix", 28), ("WorldInverseTransposeMatrix", 29),
    ("DiffuseMap", 30), ("SpecularMap", 31), ("AmbientMap", 32), ("EmissiveMap", 33), ("SpecularMapLayer1", 34),
    ("TransparencyMap", 35), ("NormalMap", 36), ("DiffuseCubeMap", 37), ("ReflectionMap", 38),
    ("ReflectionCubeMap", 39), ("RefractionMap", 40), ("AmbientOcclusionMap", 41), ("LightMap", 42),
    ("AnisotropicMap", 43), ("RoughnessMap", 44), ("ReflectionMask", 45), ("OpacityMask", 46), ("UseDiffuseMap", 47),
    ("UseSpecularMap", 48), ("UseAmbientMap", 49), ("UseEmissiveMap", 50), ("UseTranslucencyMap", 51),
    ("UseTransparencyMap", 52), ("UseNormalMap", 53), ("UseDiffuseCubeMap", 54), ("UseReflectionMap", 55),
    ("UseReflectionCubeMap", 56), ("UseRefractionMap", 57), ("UseAmbientOcclusionMap", 58), ("UseLightMap", 59),
    ("UseAnisotropicMap", 60), ("UseRoughnessMap", 61), ("UseReflectionMask", 62), ("UseOpacityMask", 63),
    ("DiffuseSampler", 64), ("SpecularSampler", 65), ("NormalSampler", 66), ("ReflectionSampler", 67),
    ("SpecularMapLayer2", 68), ("NormalMapLayer1", 69), ("NormalMapBc5", 70), ("NormalMapLayer2", 71),
    ("RoughnessMapLayer1", 72), ("RoughnessMapLayer2", 73), ("UseDiffuseUvTransform1", 74),
    ("UseDiffuseUvTransform2", 75), ("UseSpecularUvTransform1", 76), ("UseSpecularUvTransform2", 77),
    ("UseNormalUvTransform1", 78), ("UseNormalUvTransform2", 79), ("ShadowDepthBias", 80), ("ShadowMap0", 81),
    ("ShadowMap1", 82), ("ShadowMap2", 83), ("ShadowMap3", 84), ("ShadowMap4", 85), ("ShadowMap5", 86),
    ("ShadowMap6", 87), ("ShadowMap7", 88), ("CastShadow", 89), ("ReceiveShadow", 90), ("ShadowMapSampler", 91),
    ("Texture0", 92), ("Texture1", 93), ("Texture2", 94), ("Texture3", 95), ("Texture4", 96), ("Texture5", 97),
    ("Texture6", 98), ("Texture7", 99), ("Texture8", 100), ("Texture9", 101), ("Texture10", 102), ("Texture11", 103),
    ("Texture12", 104), ("Texture13", 105), ("Texture14", 106), ("Texture15", 107), ("Sampler0", 108),
    ("Sampler1", 109), ("Sampler2", 110), ("Sampler3", 111), ("Sampler4", 112), ("Sampler5", 113), ("Sampler6", 114),
    ("Sampler7", 115), ("Sampler8", 116), ("Sampler9", 117), ("Sampler10", 118), ("Sampler11", 119),
    ("Sampler12", 120), ("Sampler13", 121), ("Sampler14", 122), ("Sampler15", 123), ("CustomBuffer0", 124),
    ("CustomBuffer1", 125), ("CustomBuffer2", 126), ("CustomBuffer3", 127), ("CustomBuffer4", 128),
    ("CustomBuffer5", 129), ("CustomBuffer6", 130), ("CustomBuffer7", 131), ("CustomMatrix0", 132),
    ("CustomMatrix1", 133), ("CustomMatrix2", 134), ("CustomMatrix3", 135), ("CustomMatrix4", 136),
    ("CustomMatrix5", 137), ("CustomMatrix6", 138), ("CustomMatrix7", 139), ("CustomMatrix8", 140),
    ("CustomMatrix9", 141), ("CustomMatrix10", 142), ("CustomMatrix11", 143), ("CustomMatrix12", 144),
    ("CustomMatrix13", 145), ("CustomMatrix14", 146), ("CustomMatrix15", 147), ("CustomMatrix16", 148),
    ("CustomMatrix17", 149), ("CustomMatrix18", 150), ("CustomMatrix19", 151), ("CustomVector0", 152),
    ("CustomVector1", 153), ("CustomVector2", 154), ("CustomVector3", 155), ("CustomVector4", 156),
    ("CustomVector5", 157), ("CustomVector6", 158), ("CustomVector7", 159), ("CustomVector8", 160),
    ("CustomVector9", 161), ("CustomVector10", 162), ("CustomVector11", 163), ("CustomVector12", 164),
    ("CustomVector13", 165), ("CustomVector14", 166), ("CustomVector15", 167), ("CustomVector16", 168),
    ("CustomVector17", 169), ("CustomVector18", 170), ("CustomVector19", 171), ("CustomColor0", 172),
    ("CustomColor1", 173), ("CustomColor2", 174), ("CustomColor3", 175), ("CustomColor4", 176),
    ("CustomColor5", 177), ("CustomColor6", 178), ("CustomColor7", 179), ("CustomColor8", 180),
    ("CustomColor9", 181), ("CustomColor10", 182), ("CustomColor11", 183), ("CustomColor12", 184),
    ("CustomColor13", 185), ("CustomColor14", 186), ("CustomColor15", 187), ("CustomColor16", 188),
    ("CustomColor17", 189), ("CustomColor18", 190), ("CustomColor19", 191), ("CustomFloat0", 192),
    ("CustomFloat1", 193), ("CustomFloat2", 194), ("CustomFloat3", 195), ("CustomFloat4", 196),
    ("CustomFloat5", 197), ("CustomFloat6", 198), ("CustomFloat7", 199), ("CustomFloat8", 200),
    ("CustomFloat9", 201), ("CustomFloat10", 202), ("CustomFloat11", 203), ("CustomFloat12", 204),
    ("CustomFloat13", 205), ("CustomFloat14", 206), ("CustomFloat15", 207), ("CustomFloat16", 208),
    ("CustomFloat17", 209), ("CustomFloat18", 210), ("CustomFloat19", 211), ("CustomInteger0", 212),
    ("CustomInteger1", 213), ("CustomInteger2", 214), ("CustomInteger3", 215), ("CustomInteger4", 216),
    ("CustomInteger5", 217), ("CustomInteger6", 218), ("CustomInteger7", 219), ("CustomInteger8", 220),
    ("CustomInteger9", 221), ("CustomInteger10", 222), ("CustomInteger11", 223), ("CustomInteger12", 224),
    ("CustomInteger13", 225), ("CustomInteger14", 226), ("CustomInteger15", 227), ("CustomInteger16", 228),
    ("CustomInteger17", 229), ("CustomInteger18", 230), ("CustomInteger19", 231), ("CustomBoolean0", 232),
    ("CustomBoolean1", 233), ("CustomBoolean2", 234), ("CustomBoolean3", 235), ("CustomBoolean4", 236),
    ("CustomBoolean5", 237), ("CustomBoolean6", 238), ("CustomBoolean7", 239), ("CustomBoolean8", 240),
    ("CustomBoolean9", 241), ("CustomBoolean10", 242), ("CustomBoolean11", 243), ("CustomBoolean12", 244),
    ("CustomBoolean13", 245), ("CustomBoolean14", 246), ("CustomBoolean15", 247), ("CustomBoolean16", 248),
    ("CustomBoolean17", 249), ("CustomBoolean18", 250), ("CustomBoolean19", 251), ("UvTransform0", 252),
    ("UvTransform1", 253), ("UvTransform2", 254), ("UvTransform3", 255), ("UvTransform4", 256),
    ("UvTransform5", 257), ("UvTransform6", 258), ("UvTransform7", 259), ("UvTransform8", 260),
    ("UvTransform9", 261), ("UvTransform10", 262), ("UvTransform11", 263), ("UvTransform12", 264),
    ("UvTransform13", 265), ("UvTransform14", 266), ("UvTransform15", 267), ("DiffuseUvTransform1", 268),
    ("DiffuseUvTransform2", 269), ("SpecularUvTransform1", 270), ("SpecularUvTransform2", 271),
    ("NormalUvTransform1", 272), ("NormalUvTransform2", 273), ("DiffuseUvTransform", 274),
    ("SpecularUvTransform", 275), ("NormalUvTransform", 276), ("UseDiffuseUvTransform", 277),
    ("UseSpecularUvTransform", 278), ("UseNormalUvTransform", 279), ("BlendState0", 280), ("BlendState1", 281),
    ("BlendState2", 282), ("BlendState3", 283), ("BlendState4", 284), ("BlendState5", 285), ("BlendState6", 286),
    ("BlendState7", 287), ("BlendState8", 288), ("BlendState9", 289), ("BlendState10", 290),
    ("RasterizerState0", 291), ("RasterizerState1", 292), ("RasterizerState2", 293), ("RasterizerState3", 294),
    ("RasterizerState4", 295), ("RasterizerState5", 296), ("RasterizerState6", 297), ("RasterizerState7", 298),
    ("RasterizerState8", 299), ("RasterizerState9", 300), ("RasterizerState10", 301), ("ShadowColor", 302),
    ("EmissiveMapLayer1", 303), ("EmissiveMapLayer2", 304), ("AlphaTestFunc", 305), ("AlphaTestRef", 306),
    ("Texture16", 307), ("Texture17", 308), ("Texture18", 309), ("Texture19", 310), ("Sampler16", 311),
    ("Sampler17", 312), ("Sampler18", 313), ("Sampler19", 314), ("CustomVector20", 315), ("CustomVector21", 316),
    ("CustomVector22", 317), ("CustomVector23", 318), ("CustomVector24", 319), ("CustomVector25", 320),
    ("CustomVector26", 321), ("CustomVector27", 322), ("CustomVector28", 323), ("CustomVector29", 324),
    ("CustomVector30", 325), ("CustomVector31", 326), ("CustomVector32", 327), ("CustomVector33", 328),
    ("CustomVector34", 329), ("CustomVector35", 330), ("CustomVector36", 331), ("CustomVector37", 332),
    ("CustomVector38", 333), ("CustomVector39", 334), ("CustomVector40", 335), ("CustomVector41", 336),
    ("CustomVector42", 337), ("CustomVector43", 338), ("CustomVector44", 339), ("CustomVector45", 340),
    ("CustomVector46", 341), ("CustomVector47", 342), ("CustomVector48", 343), ("CustomVector49", 344),
    ("CustomVector50", 345), ("CustomVector51", 346), ("CustomVector52", 347), ("CustomVector53", 348),
    ("CustomVector54", 349), ("CustomVector55", 350), ("CustomVector56", 351), ("CustomVector57", 352),
    ("CustomVector58", 353), ("CustomVector59", 354), ("CustomVector60", 355), ("CustomVector61", 356),
    ("CustomVector62", 357), ("CustomVector63", 358), ("UseBaseColorMap", 359), ("UseMetallicMap", 360),
    ("BaseColorMap", 361), ("BaseColorMapLayer1", 362), ("MetallicMap", 363), ("MetallicMapLayer1", 364),
    ("DiffuseLightingAoOffset", 365)]

def Matl.ParamId.shape : Shape := .names (Matl.ParamId.numbers.map (·.1))

/-- The names and numbers of the variants: /repo/ssbh_lib/src/formats/matl.rs:571-576 -/
def Matl.WrapMode.numbers : List (String × Nat) :=
  [("Repeat", 0), ("ClampToEdge", 1), ("MirroredRepeat", 2), ("ClampToBorder", 3)]

def Matl.WrapMode.shape : Shape := .names (Matl.WrapMode.numbers.map (·.1))

/-- The names and numbers of the variants: /repo/ssbh_lib/src/formats/matl.rs:584-588 -/
def Matl.MinFilter.numbers : List (String × Nat) :=
  [("Nearest", 0), ("LinearMipmapLinear", 1), ("LinearMipmapLinear2", 2)]

def Matl.MinFilter.shape : Shape := .names (Matl.MinFilter.numbers.map (·.1))

/-- The names and numbers of the variants: /repo/ssbh_lib/src/formats/matl.rs:596-600 -/
def Matl.MagFilter.numbers : List (String × Nat) :=
  [("Nearest", 0), ("Linear", 1), ("Linear2", 2)]

def Matl.MagFilter.shape : Shape := .names (Matl.MagFilter.numbers.map (·.1))

/-- The names and numbers of the variants: /repo/ssbh_lib/src/formats/matl.rs:608-612 -/
def Matl.FilteringType.numbers : List (String × Nat) :=
  [("Default", 0), ("Default2", 1), ("AnisotropicFiltering", 2)]

def Matl.FilteringType.shape : Shape := .names (Matl.FilteringType.numbers.map (·.1))

/-- The names and numbers of the variants: /repo/ssbh_lib/src/formats/matl.rs:640-646 -/
def Matl.MaxAnisotropy.numbers : List (String × Nat) :=
  [("One", 1), ("Two", 2), ("Four", 4), ("Eight", 8), ("Sixteen", 16)]

def Matl.MaxAnisotropy.shape : Shape := .names (Matl.MaxAnisotropy.numbers.map (·.1))

/-- /repo/ssbh_lib/src/formats/matl.rs:617-629 -/
def Matl.Sampler.shape : Shape :=
  .struct [.need "wraps" Matl.WrapMode.shape, .need "wrapt" Matl.WrapMode.shape, .need "wrapr" Matl.WrapMode.shape,
    .need "min_filter" Matl.MinFilter.shape, .need "mag_filter" Matl.MagFilter.shape,
    .need "texture_filtering_type" Matl.FilteringType.shape, .need "border_color" Color4f.shape,
    .need "unk11" (.int 0 4294967295), .need "unk12" (.int 0 4294967295), .need "lod_bias" .float,
    .need "max_anisotropy" Matl.MaxAnisotropy.shape]

/-- /repo/ssbh_lib/src/formats/matl.rs:651-657 -/
def Matl.UvTransform.shape : Shape :=
  .struct [.need "scale_u" .float, .need "scale_v" .float, .need "rotation" .float, .need "translate_u" .float,
    .need "translate_v" .float]

/-- The names and numbers of the variants: /repo/ssbh_lib/src/formats/matl.rs:666-679 -/
def Matl.BlendFactor.numbers : List (String × Nat) :=
  [("Zero", 0), ("One", 1), ("SourceAlpha", 2), ("DestinationAlpha", 3), ("SourceColor", 4), ("DestinationColor", 5),
    ("OneMinusSourceAlpha", 6), ("OneMinusDestinationAlpha", 7), ("OneMinusSourceColor", 8),
    ("OneMinusDestinationColor", 9), ("SourceAlphaSaturate", 10)]

def Matl.BlendFactor.shape : Shape := .names (Matl.BlendFactor.numbers.map (·.1))

/-- The names and numbers of the variants: /repo/ssbh_lib/src/formats/matl.rs:688-694 -/
def Matl.BlendOperation.numbers : List (String × Nat) :=
  [("Add", 0), ("Subtract", 1), ("ReverseSubtract", 2), ("Minimum", 3), ("Maximum", 4)]

def Matl.BlendOperation.shape : Shape := .names (Matl.BlendOperation.numbers.map (·.1))

/-- /repo/ssbh_lib/src/formats/matl.rs:700-711 -/
def Matl.BlendStateV15.shape : Shape :=
  .struct [.need "source_color" Matl.BlendFactor.shape, .need "color_operation" Matl.BlendOperation.shape,
    .need "destination_color" Matl.BlendFactor.shape, .need "source_alpha" Matl.BlendFactor.shape,
    .need "alpha_operation" Matl.BlendOperation.shape, .need "destination_alpha" Matl.BlendFactor.shape,
    .need "unk6" (.int 0 18446744073709551615), .need "unk7" (.int 0 4294967295), .need "unk8" (.int 0 4294967295),
    .need "unk9" (.int 0 4294967295)]

/-- The names and numbers of the variants: /repo/ssbh_lib/src/formats/matl.rs:537-541 -/
def Matl.CullMode.numbers : List (String × Nat) :=
  [("Back", 0), ("Front", 1), ("Disabled", 2)]

def Matl.CullMode.shape : Shape := .names (Matl.CullMode.numbers.map (·.1))

/-- /repo/ssbh_lib/src/formats/matl.rs:546-548 -/
def Matl.RasterizerStateV15.shape : Shape :=
  .struct [.need "cull_mode" Matl.CullMode.shape]

/-- /repo/ssbh_lib/src/formats/matl.rs:100-116 -/
def Matl.ParamV15.shape : Shape :=
  .variants [("Float", .float), ("Boolean", (.int 0 4294967295)), ("Vector4", Vector4.shape),
    ("Unk7", Color4f.shape), ("String", (.opt .ctext)), ("Sampler", Matl.Sampler.shape),
    ("UvTransform", Matl.UvTransform.shape), ("BlendState", Matl.BlendStateV15.shape),
    ("RasterizerState", Matl.RasterizerStateV15.shape)]

/-- /repo/ssbh_lib/src/formats/matl.rs:64-69 -/
def Matl.AttributeV15.shape : Shape :=
  .struct [.need "param_id" Matl.ParamId.shape, .need "param" (.tagged Matl.ParamV15.shape)]

/-- /repo/ssbh_lib/src/formats/matl.rs:45-57 -/
def Matl.MatlEntryV15.shape : Shape :=
  .struct [.need "material_label" (.opt .ctext), .need "attributes" (.list Matl.AttributeV15.shape),
    .need "shader_label" (.opt .ctext)]

/-- /repo/ssbh_lib/src/formats/matl.rs:718-730 -/
def Matl.BlendStateV16.shape : Shape :=
  .struct [.need "source_color" Matl.BlendFactor.shape, .need "color_operation" Matl.BlendOperation.shape,
    .need "destination_color" Matl.BlendFactor.shape, .need "source_alpha" Matl.BlendFactor.shape,
    .need "alpha_operation" Matl.BlendOperation.shape, .need "destination_alpha" Matl.BlendFactor.shape,
    .need "alpha_sample_to_coverage" (.int 0 4294967295), .need "unk8" (.int 0 4294967295),
    .need "unk9" (.int 0 4294967295), .need "unk10" (.int 0 4294967295)]

/-- The names and numbers of the variants: /repo/ssbh_lib/src/formats/matl.rs:525-528 -/
def Matl.FillMode.numbers : List (String × Nat) :=
  [("Line", 0), ("Solid", 1)]

def Matl.FillMode.shape : Shape := .names (Matl.FillMode.numbers.map (·.1))

/-- /repo/ssbh_lib/src/formats/matl.rs:554-561 -/
def Matl.RasterizerStateV16.shape : Shape :=
  .struct [.need "fill_mode" Matl.FillMode.shape, .need "cull_mode" Matl.CullMode.shape, .need "depth_bias" .float,
    .need "unk4" .float, .need "unk5" .float, .need "unk6" (.int 0 4294967295)]

/-- /repo/ssbh_lib/src/formats/matl.rs:118-134 -/
def Matl.ParamV16.shape : Shape :=
  .variants [("Float", .float), ("Boolean", (.int 0 4294967295)), ("Vector4", Vector4.shape),
    ("Unk7", Color4f.shape), ("String", (.opt .ctext)), ("Sampler", Matl.Sampler.shape),
    ("UvTransform", Matl.UvTransform.shape), ("BlendState", Matl.BlendStateV16.shape),
    ("RasterizerState", Matl.RasterizerStateV16.shape)]

/-- /repo/ssbh_lib/src/formats/matl.rs:93-98 -/
def Matl.AttributeV16.shape : Shape :=
  .struct [.need "param_id" Matl.ParamId.shape, .need "param" (.tagged Matl.ParamV16.shape)]

/-- /repo/ssbh_lib/src/formats/matl.rs:75-87 -/
def Matl.MatlEntryV16.shape : Shape :=
  .struct [.need "material_label" (.opt .ctext), .need "attributes" (.list Matl.AttributeV16.shape),
    .need "shader_label" (.opt .ctext)]

/-- The fields of `Matl::V15`, /repo/ssbh_lib/src/formats/matl.rs:25-30 -/
def Matl.V15Data.shape : Shape :=
  .struct [.need "entries" (.list Matl.MatlEntryV15.shape)]

/-- The fields of `Matl::V16`, /repo/ssbh_lib/src/formats/matl.rs:25-30 -/
def Matl.V16Data.shape : Shape :=
  .struct [.need "entries" (.list Matl.MatlEntryV16.shape)]

/-- /repo/ssbh_lib/src/formats/matl.rs:25-30 -/
def Matl.shape : Shape :=
  .variants [("V15", Matl.V15Data.shape), ("V16", Matl.V16Data.shape)]

/-- The names and numbers of the variants: /repo/ssbh_lib/src/formats/nrpd.rs:74-87 -/
def Nrpd.UnkFormat.numbers : List (String × Nat) :=
  [("UnkFormat0", 256), ("UnkFormat1", 308), ("UnkFormat2", 324), ("UnkFormat3", 528), ("UnkFormat4", 532),
    ("UnkFormat5", 582), ("UnkFormat6", 801), ("UnkFormat7", 836), ("UnkFormat8", 1024), ("UnkFormat9", 1025),
    ("UnkFormat10", 1029), ("UnkFormat11", 1088)]

def Nrpd.UnkFormat.shape : Shape := .names (Nrpd.UnkFormat.numbers.map (·.1))

/-- /repo/ssbh_lib/src/formats/nrpd.rs:92-99 -/
def Nrpd.Framebuffer0.shape : Shape :=
  .struct [.need "name" (.opt .ctext), .need "width" (.int 0 4294967295), .need "height" (.int 0 4294967295),
    .need "unk1" Nrpd.UnkFormat.shape, .need "unk2" (.int 0 4294967295), .need "unk3" (.int 0 4294967295)]

/-- /repo/ssbh_lib/src/formats/nrpd.rs:104-111 -/
def Nrpd.Framebuffer1.shape : Shape :=
  .struct [.need "name" (.opt .ctext), .need "width" (.int 0 4294967295), .need "height" (.int 0 4294967295),
    .need "unk1" (.int 0 18446744073709551615), .need "unk2" (.int 0 4294967295), .need "unk3" (.int 0 4294967295)]

/-- /repo/ssbh_lib/src/formats/nrpd.rs:116-121 -/
def Nrpd.UniformBuffer.shape : Shape :=
  .struct [.need "name" (.opt .ctext), .need "unk1" (.int 0 4294967295), .need "unk2" (.int 0 4294967295),
    .need "unk3" (.int 0 18446744073709551615)]

/-- /repo/ssbh_lib/src/formats/nrpd.rs:126-134 -/
def Nrpd.Framebuffer3.shape : Shape :=
  .struct [.need "name" (.opt .ctext), .need "width" (.int 0 4294967295), .need "height" (.int 0 4294967295),
    .need "unk1" (.int 0 4294967295), .need "unk2" (.int 0 4294967295), .need "unk3" (.int 0 4294967295),
    .need "unk4" (.int 0 4294967295)]

/-- /repo/ssbh_lib/src/formats/nrpd.rs:139-144 -/
def Nrpd.Framebuffer4.shape : Shape :=
  .struct [.need "name" (.opt .ctext), .need "width" (.int 0 4294967295), .need "height" (.int 0 4294967295),
    .need "unk3" (.int 0 18446744073709551615)]

/-- /repo/ssbh_lib/src/formats/nrpd.rs:57-64 -/
def Nrpd.FrameBuffer.shape : Shape :=
  .variants [("Framebuffer0", Nrpd.Framebuffer0.shape), ("Framebuffer1", Nrpd.Framebuffer1.shape),
    ("UniformBuffer", Nrpd.UniformBuffer.shape), ("Framebuffer3", Nrpd.Framebuffer3.shape),
    ("Framebuffer4", Nrpd.Framebuffer4.shape)]

/-- /repo/ssbh_lib/src/formats/nrpd.rs:149-153 -/
def Nrpd.NrpdSampler.shape : Shape :=
  .struct [.need "name" (.opt .ctext), .need "data" Matl.Sampler.shape, .need "unk13" (.int 0 18446744073709551615)]

/-- /repo/ssbh_lib/src/formats/nrpd.rs:158-167 -/
def Nrpd.NrpdRasterizerState.shape : Shape :=
  .struct [.need "name" (.opt .ctext), .need "fill_mode" Matl.FillMode.shape, .need "cull_mode" Matl.CullMode.shape,
    .need "depth_bias" .float, .need "unk4" .float, .need "unk5" .float, .need "unk6" (.int 0 4294967295)]

/-- /repo/ssbh_lib/src/formats/nrpd.rs:192-204 -/
def Nrpd.DepthState.shape : Shape :=
  .struct [.need "name" (.opt .ctext), .need "unk2" (.int 0 4294967295), .need "unk3" (.int 0 4294967295),
    .need "unk4" (.int 0 4294967295), .need "unk5" (.int 0 4294967295), .need "unk6" (.int 0 4294967295),
    .need "unk7" (.int 0 4294967295), .need "unk8" (.int 0 18446744073709551615),
    .need "unk9" (.int 0 18446744073709551615), .need "unk10" (.int 0 18446744073709551615),
    .need "unk11" (.int 0 18446744073709551615)]

/-- /repo/ssbh_lib/src/formats/nrpd.rs:172-186 -/
def Nrpd.NrpdBlendState.shape : Shape :=
  .struct [.need "name" (.opt .ctext), .need "source_color" Matl.BlendFactor.shape, .need "unk2" (.int 0 4294967295),
    .need "destination_color" Matl.BlendFactor.shape, .need "unk4" (.int 0 4294967295),
    .need "unk5" (.int 0 4294967295), .need "unk6" (.int 0 4294967295),
    .need "alpha_sample_to_coverage" (.int 0 4294967295), .need "unk8" (.int 0 4294967295),
    .need "unk9" (.int 0 4294967295), .need "unk10" (.int 0 4294967295)]

/-- /repo/ssbh_lib/src/formats/nrpd.rs:206-212 -/
def Nrpd.State.shape : Shape :=
  .variants [("Sampler", Nrpd.NrpdSampler.shape), ("RasterizerState", Nrpd.NrpdRasterizerState.shape),
    ("DepthState", Nrpd.DepthState.shape), ("BlendState", Nrpd.NrpdBlendState.shape)]

/-- /repo/ssbh_lib/src/formats/nrpd.rs:237-241 -/
def Nrpd.RenderPassData0.shape : Shape :=
  .struct [.need "unk1" (.opt .ctext), .need "unk2" (.opt .ctext), .need "unk3" (.int 0 18446744073709551615)]

/-- /repo/ssbh_lib/src/formats/nrpd.rs:246-249 -/
def Nrpd.RenderPassData1.shape : Shape :=
  .struct [.need "unk1" (.opt .ctext), .need "unk2" (.opt .ctext)]

/-- /repo/ssbh_lib/src/formats/nrpd.rs:254-262 -/
def Nrpd.RenderPassData2.shape : Shape :=
  .struct [.need "unk1" (.opt .ctext), .need "unk2" (.opt .ctext), .need "unk3" (.opt (.int 0 18446744073709551615)),
    .need "unk4" (.int 0 18446744073709551615), .need "unk5" (.opt (.int 0 18446744073709551615)),
    .need "unk6" (.int 0 18446744073709551615)]

/-- /repo/ssbh_lib/src/formats/nrpd.rs:299-302 -/
def Nrpd.Unk8Data.shape : Shape :=
  .struct [.need "unk1" (.int 0 4294967295), .need "unk2" (.int 0 4294967295)]

/-- /repo/ssbh_lib/src/formats/nrpd.rs:267-274 -/
def Nrpd.RenderPassData3.shape : Shape :=
  .struct [.need "unk1" (.opt .ctext), .need "unk2" (.opt .ctext), .need "unk3" (.opt Nrpd.Unk8Data.shape),
    .need "unk4" (.int 0 18446744073709551615), .need "unk5" (.opt Nrpd.Unk8Data.shape),
    .need "unk6" (.int 0 18446744073709551615)]

/-- /repo/ssbh_lib/src/formats/nrpd.rs:279-286 -/
def Nrpd.RenderPassData8.shape : Shape :=
  .struct [.need "unk1" (.opt .ctext), .need "unk2" (.opt .ctext), .need "unk3" (.opt (.int 0 18446744073709551615)),
    .need "unk4" (.int 0 18446744073709551615), .need "unk5" (.opt (.int 0 18446744073709551615)),
    .need "unk6" (.int 0 18446744073709551615)]

/-- /repo/ssbh_lib/src/formats/nrpd.rs:307-311 -/
def Nrpd.ColorClear.shape : Shape :=
  .struct [.need "name" (.opt .ctext), .need "color" Color4f.shape, .need "unk1" (.int 0 18446744073709551615)]

/-- /repo/ssbh_lib/src/formats/nrpd.rs:316-320 -/
def Nrpd.DepthStencilClear.shape : Shape :=
  .struct [.need "name" (.opt .ctext), .need "depth" .float, .need "stencil" (.int 0 4294967295)]

/-- /repo/ssbh_lib/src/formats/nrpd.rs:325-333 -/
def Nrpd.Viewport.shape : Shape :=
  .struct [.need "name" (.opt .ctext), .need "unk2" (.int 0 18446744073709551615), .need "width" .float,
    .need "height" .float, .need "unk_min" .float, .need "unk_max" .float, .need "unk4" (.int 0 18446744073709551615)]

/-- /repo/ssbh_lib/src/formats/nrpd.rs:338-346 -/
def Nrpd.RenderPassData13.shape : Shape :=
  .struct [.need "unk1" (.opt .ctext), .need "unk2" (.opt .ctext), .need "unk3" (.opt (.int 0 18446744073709551615)),
    .need "unk4" (.int 0 18446744073709551615), .need "unk5" (.opt (.int 0 18446744073709551615)),
    .need "unk6" (.int 0 18446744073709551615)]

/-- /repo/ssbh_lib/src/formats/nrpd.rs:382-385 -/
def Nrpd.StringPair.shape : Shape :=
  .struct [.need "item1" (.opt .ctext), .need "item2" (.opt .ctext)]

/-- /repo/ssbh_lib/src/formats/nrpd.rs:291-294 -/
def Nrpd.RenderPassData19.shape : Shape :=
  .struct [.need "unk1" (.opt .ctext), .need "unk2" (.int 0 18446744073709551615)]

/-- /repo/ssbh_lib/src/formats/nrpd.rs:215-232 -/
def Nrpd.RenderPassData.shape : Shape :=
  .variants [("FramebufferRtp", Nrpd.RenderPassData0.shape), ("PassUnk1", Nrpd.RenderPassData1.shape),
    ("UnkTexture1", Nrpd.RenderPassData2.shape), ("UnkLight", Nrpd.RenderPassData3.shape),
    ("Unk8", Nrpd.RenderPassData8.shape), ("ColorClear", Nrpd.ColorClear.shape),
    ("DepthStencilClear", Nrpd.DepthStencilClear.shape), ("Viewport", Nrpd.Viewport.shape),
    ("Sampler", Nrpd.RenderPassData13.shape), ("BlendState", Nrpd.StringPair.shape),
    ("RasterizerState", Nrpd.StringPair.shape), ("DepthStencilState", Nrpd.StringPair.shape),
    ("FramebufferRenderTarget", (.opt .ctext)), ("FramebufferDepthStencil", (.opt .ctext)),
    ("UnkTexture2", Nrpd.RenderPassData19.shape)]

/-- /repo/ssbh_lib/src/formats/nrpd.rs:370-377 -/
def Nrpd.Unk3Data.shape : Shape :=
  .struct [.need "unk1" (.opt .ctext), .need "unk2" (.opt .ctext), .need "unk3" .float, .need "unk4" .float,
    .need "unk5" .float, .need "unk6" .float]

/-- /repo/ssbh_lib/src/formats/nrpd.rs:361-365 -/
def Nrpd.RenderPassUnkData.shape : Shape :=
  .variants [("UnkDataUnk0", .unit), ("UnkDataUnk3", Nrpd.Unk3Data.shape)]

/-- /repo/ssbh_lib/src/formats/nrpd.rs:352-358 -/
def Nrpd.RenderPassContainer.shape : Shape :=
  .struct [.need "name" (.opt .ctext), .need "unk1" (.list (.tagged Nrpd.RenderPassData.shape)),
    .need "unk2" (.list (.tagged Nrpd.RenderPassData.shape)), .need "unk3" (.tagged Nrpd.RenderPassUnkData.shape)]

/-- /repo/ssbh_lib/src/formats/nrpd.rs:398-401 -/
def Nrpd.UnkItem20.shape : Shape :=
  .struct [.need "unk1" (.opt .ctext), .need "unk2" (.opt .ctext)]

/-- /repo/ssbh_lib/src/formats/nrpd.rs:406-410 -/
def Nrpd.UnkItem21.shape : Shape :=
  .struct [.need "unk1" (.opt .ctext), .need "unk2" (.opt .ctext), .need "unk3" (.array 2 (.int 0 4294967295))]

/-- /repo/ssbh_lib/src/formats/nrpd.rs:415-423 -/
def Nrpd.UnkItem22.shape : Shape :=
  .struct [.need "unk1" (.opt .ctext), .need "unk2" (.opt .ctext), .need "unk3" (.int 0 4294967295),
    .need "unk4" (.int 0 4294967295), .need "unk5" (.int 0 4294967295), .need "unk6" Nrpd.UnkFormat.shape,
    .need "unk8" (.int 0 4294967295)]

/-- /repo/ssbh_lib/src/formats/nrpd.rs:428-432 -/
def Nrpd.UnkItem24.shape : Shape :=
  .struct [.need "unk1" (.opt .ctext), .need "unk2" (.opt .ctext), .need "unk3" (.array 6 (.int 0 4294967295))]

/-- /repo/ssbh_lib/src/formats/nrpd.rs:434-440 -/
def Nrpd.UnkItem2.shape : Shape :=
  .variants [("UnkItem20", Nrpd.UnkItem20.shape), ("UnkItem21", Nrpd.UnkItem21.shape),
    ("UnkItem22", Nrpd.UnkItem22.shape), ("UnkItem24", Nrpd.UnkItem24.shape)]

/-- /repo/ssbh_lib/src/formats/nrpd.rs:445-448 -/
def Nrpd.UnkItem3.shape : Shape :=
  .struct [.need "name" (.opt .ctext), .need "value" (.opt .ctext)]

/-- /repo/ssbh_lib/src/formats/nrpd.rs:390-393 -/
def Nrpd.UnkItem1.shape : Shape :=
  .struct [.need "unk1" (.opt .ctext), .need "unk2" (.list Nrpd.UnkItem3.shape)]

/-- The fields of `Nrpd::V16`, /repo/ssbh_lib/src/formats/nrpd.rs:21-44 -/
def Nrpd.V16Data.shape : Shape :=
  .struct [.need "frame_buffers" (.list (.tagged Nrpd.FrameBuffer.shape)),
    .need "state_containers" (.list (.tagged Nrpd.State.shape)),
    .need "render_passes" (.list Nrpd.RenderPassContainer.shape),
    .need "unk_string_list1" (.list Nrpd.StringPair.shape),
    .need "unk_string_list2" (.list (.tagged Nrpd.UnkItem2.shape)), .need "unk_list" (.list Nrpd.UnkItem1.shape),
    .need "unk_width1" (.int 0 4294967295), .need "unk_height1" (.int 0 4294967295),
    .need "unk3" (.int 0 4294967295), .need "unk4" (.int 0 4294967295), .need "unk5" (.int 0 4294967295),
    .need "unk6" (.int 0 4294967295), .need "unk7" (.int 0 4294967295), .need "unk8" (.int 0 4294967295),
    .need "unk9" (.opt .ctext), .need "unk_width2" (.int 0 4294967295), .need "unk_height2" (.int 0 4294967295),
    .need "unk10" (.int 0 18446744073709551615)]

/-- /repo/ssbh_lib/src/formats/nrpd.rs:21-44 -/
def Nrpd.shape : Shape :=
  .variants [("V16", Nrpd.V16Data.shape)]

/-- /repo/ssbh_lib/src/formats/meshex.rs:60-63 -/
def MeshEx.AllData.shape : Shape :=
  .struct [.need "bounding_sphere" Mesh.BoundingSphere.shape, .may "name" (.opt .ctext)]

/-- /repo/ssbh_lib/src/formats/meshex.rs:69-76 -/
def MeshEx.MeshObjectGroup.shape : Shape :=
  .struct [.need "bounding_sphere" Mesh.BoundingSphere.shape, .may "mesh_object_full_name" (.opt .ctext),
    .may "mesh_object_name" (.opt .ctext)]

/-- /repo/ssbh_lib/src/formats/meshex.rs:48-54 -/
def MeshEx.MeshEntry.shape : Shape :=
  .struct [.need "mesh_object_group_index" (.int 0 4294967295), .need "unk1" Vector3.shape]

/-- /repo/ssbh_lib/src/formats/meshex.rs:18-41 -/
def MeshEx.shape : Shape :=
  .struct [.may "all_data" (.opt MeshEx.AllData.shape),
    .may "mesh_object_groups" (.opt (.list MeshEx.MeshObjectGroup.shape)),
    .may "entries" (.opt (.list MeshEx.MeshEntry.shape)), .may "entry_flags" (.opt (.list (.bits 2))),
    .need "unk1" (.int 0 4294967295)]

/-- /repo/ssbh_lib/src/formats/adj.rs:49-57 -/
def Adj.AdjEntry.shape : Shape :=
  .struct [.need "mesh_object_index" (.int 0 4294967295), .need "index_buffer_offset" (.int 0 4294967295)]

/-- /repo/ssbh_lib/src/formats/adj.rs:17-43 -/
def Adj.shape : Shape :=
  .struct [.need "entries" (.list Adj.AdjEntry.shape), .need "index_buffer" (.list (.int (-32768) 32767))]

/-- /repo/ssbh_lib/src/lib.rs:507-537; `SsbhFile` and `Versioned` are transparent -/
def Ssbh.shape : Shape :=
  .variants [("Hlpb", Hlpb.shape), ("Matl", Matl.shape), ("Modl", Modl.shape), ("Mesh", Mesh.shape),
    ("Skel", Skel.shape), ("Anim", Anim.shape), ("Nlst", Nlst.shape), ("Nrpd", Nrpd.shape), ("Nufx", Nufx.shape),
    ("Shdr", Shdr.shape)]

end Verif
