import Verif.Json.Shapes
/-!
# The JSON documents of the data types

Specification, see `Verif.Json.Shape`: the names of the fields and variants, and the default values.
Written by tools/gen_json_data.py from the Rust definitions.
-/

namespace Verif

/-- /repo/ssbh_data/src/modl_data.rs:47-51 -/
def ModlData.ModlEntryData.shape : Shape :=
  .struct [.need "mesh_object_name" .text, .need "mesh_object_subindex" (.int 0 18446744073709551615),
    .need "material_label" .text]

/-- /repo/ssbh_data/src/modl_data.rs:32-41 -/
def ModlData.shape : Shape :=
  .struct [.need "major_version" (.int 0 65535), .need "minor_version" (.int 0 65535), .need "model_name" .text,
    .need "skeleton_file_name" .text, .need "material_file_names" (.list .text),
    .may "animation_file_name" (.opt .text), .need "mesh_file_name" .text,
    .need "entries" (.list ModlData.ModlEntryData.shape)]

/-- /repo/ssbh_data/src/hlpb_data.rs:27-41 -/
def HlpbData.AimConstraintData.shape : Shape :=
  .struct [.need "name" .text, .need "aim_bone_name1" .text, .need "aim_bone_name2" .text, .need "aim_type1" .text,
    .need "aim_type2" .text, .need "target_bone_name1" .text, .need "target_bone_name2" .text,
    .need "unk1" (.int 0 4294967295), .need "unk2" (.int 0 4294967295), .need "aim" Vector3.shape,
    .need "up" Vector3.shape, .need "quat1" Vector4.shape, .need "quat2" Vector4.shape]

/-- /repo/ssbh_data/src/hlpb_data.rs:47-59 -/
def HlpbData.OrientConstraintData.shape : Shape :=
  .struct [.need "name" .text, .need "parent_bone_name1" .text, .need "parent_bone_name2" .text,
    .need "source_bone_name" .text, .need "target_bone_name" .text, .need "unk_type" (.int 0 4294967295),
    .need "constraint_axes" Vector3.shape, .need "quat1" Vector4.shape, .need "quat2" Vector4.shape,
    .need "range_min" Vector3.shape, .need "range_max" Vector3.shape]

/-- /repo/ssbh_data/src/hlpb_data.rs:14-19 -/
def HlpbData.shape : Shape :=
  .struct [.need "major_version" (.int 0 65535), .need "minor_version" (.int 0 65535),
    .need "aim_constraints" (.list HlpbData.AimConstraintData.shape),
    .need "orient_constraints" (.list HlpbData.OrientConstraintData.shape)]

/-- /repo/ssbh_data/src/matl_data.rs:113-118 -/
def MatlData.ParamData.shape (s : Shape) : Shape :=
  .struct [.need "param_id" Matl.ParamId.shape, .need "data" s]

/-- /repo/ssbh_data/src/matl_data.rs:148-162 -/
def MatlData.SamplerData.shape : Shape :=
  .struct [.default "wraps" Matl.WrapMode.shape (.str "ClampToEdge"),
    .default "wrapt" Matl.WrapMode.shape (.str "ClampToEdge"),
    .default "wrapr" Matl.WrapMode.shape (.str "ClampToEdge"),
    .default "min_filter" Matl.MinFilter.shape (.str "LinearMipmapLinear"),
    .default "mag_filter" Matl.MagFilter.shape (.str "Linear"),
    .default "border_color" Color4f.shape (.obj [("r", .flt 0), ("g", .flt 0), ("b", .flt 0), ("a", .flt 0)]),
    .default "lod_bias" .float (.flt 0),
    .default "max_anisotropy" (.orNull Matl.MaxAnisotropy.shape (.str "One")) (.str "One")]

/-- /repo/ssbh_data/src/matl_data.rs:255-263 -/
def MatlData.BlendStateData.shape : Shape :=
  .struct [.default "source_color" Matl.BlendFactor.shape (.str "One"),
    .default "color_operation" Matl.BlendOperation.shape (.str "Add"),
    .default "destination_color" Matl.BlendFactor.shape (.str "Zero"),
    .default "source_alpha" Matl.BlendFactor.shape (.str "One"),
    .default "alpha_operation" Matl.BlendOperation.shape (.str "Add"),
    .default "destination_alpha" Matl.BlendFactor.shape (.str "Zero"),
    .default "alpha_sample_to_coverage" .bool (.bool false)]

/-- /repo/ssbh_data/src/matl_data.rs:374-378 -/
def MatlData.RasterizerStateData.shape : Shape :=
  .struct [.need "fill_mode" Matl.FillMode.shape, .need "cull_mode" Matl.CullMode.shape, .need "depth_bias" .float]

/-- /repo/ssbh_data/src/matl_data.rs:95-107 -/
def MatlData.MatlEntryData.shape : Shape :=
  .struct [.need "material_label" .text, .need "shader_label" .text,
    .need "blend_states" (.list (MatlData.ParamData.shape MatlData.BlendStateData.shape)),
    .need "floats" (.list (MatlData.ParamData.shape .float)),
    .need "booleans" (.list (MatlData.ParamData.shape .bool)),
    .need "vectors" (.list (MatlData.ParamData.shape Vector4.shape)),
    .need "rasterizer_states" (.list (MatlData.ParamData.shape MatlData.RasterizerStateData.shape)),
    .need "samplers" (.list (MatlData.ParamData.shape MatlData.SamplerData.shape)),
    .need "textures" (.list (MatlData.ParamData.shape .text)),
    .default "uv_transforms" (.list (MatlData.ParamData.shape Matl.UvTransform.shape)) (.arr [])]

/-- /repo/ssbh_data/src/matl_data.rs:82-86 -/
def MatlData.shape : Shape :=
  .struct [.need "major_version" (.int 0 65535), .need "minor_version" (.int 0 65535),
    .need "entries" (.list MatlData.MatlEntryData.shape)]

/-- /repo/ssbh_data/src/skel_data.rs:48-59 -/
def SkelData.BoneData.shape : Shape :=
  .struct [.need "name" .text, .need "transform" (.array 4 (.array 4 .float)),
    .may "parent_index" (.opt (.int 0 18446744073709551615)), .need "billboard_type" Skel.BillboardType.shape]

/-- /repo/ssbh_data/src/skel_data.rs:34-38 -/
def SkelData.shape : Shape :=
  .struct [.need "major_version" (.int 0 65535), .need "minor_version" (.int 0 65535),
    .need "bones" (.list SkelData.BoneData.shape)]

/-- /repo/ssbh_data/src/meshex_data.rs:45-49 -/
def MeshExData.EntryFlags.shape : Shape :=
  .struct [.need "draw_model" .bool, .need "cast_shadow" .bool]

/-- /repo/ssbh_data/src/meshex_data.rs:33-39 -/
def MeshExData.MeshObjectGroupData.shape : Shape :=
  .struct [.need "bounding_sphere" Mesh.BoundingSphere.shape, .need "mesh_object_full_name" .text,
    .need "mesh_object_name" .text, .need "entry_flags" (.list MeshExData.EntryFlags.shape)]

/-- /repo/ssbh_data/src/meshex_data.rs:22-24 -/
def MeshExData.shape : Shape :=
  .struct [.need "mesh_object_groups" (.list MeshExData.MeshObjectGroupData.shape)]

/-- /repo/ssbh_data/src/adj_data.rs:66-74 -/
def AdjEntryData.shape : Shape :=
  .struct [.need "mesh_object_index" (.int 0 18446744073709551615),
    .need "vertex_adjacency" (.list (.int (-32768) 32767))]

/-- /repo/ssbh_data/src/adj_data.rs:58-60 -/
def AdjData.shape : Shape :=
  .struct [.need "entries" (.list AdjEntryData.shape)]

/-- /repo/ssbh_data/src/mesh_data/vector_data.rs:21-25 -/
def VectorData.shape : Shape :=
  .variants [("Vector2", (.list (.array 2 .float))), ("Vector3", (.list (.array 3 .float))),
    ("Vector4", (.list (.array 4 .float)))]

/-- /repo/ssbh_data/src/mesh_data.rs:587-590 -/
def MeshData.AttributeData.shape : Shape :=
  .struct [.need "name" .text, .need "data" VectorData.shape]

/-- /repo/ssbh_data/src/mesh_data.rs:181-184 -/
def MeshData.VertexWeight.shape : Shape :=
  .struct [.need "vertex_index" (.int 0 4294967295), .need "vertex_weight" .float]

/-- /repo/ssbh_data/src/mesh_data.rs:474-477 -/
def MeshData.BoneInfluence.shape : Shape :=
  .struct [.need "bone_name" .text, .need "vertex_weights" (.list MeshData.VertexWeight.shape)]

/-- /repo/ssbh_data/src/mesh_data.rs:558-581 -/
def MeshData.MeshObjectData.shape : Shape :=
  .struct [.need "name" .text, .need "subindex" (.int 0 18446744073709551615), .need "parent_bone_name" .text,
    .need "sort_bias" (.int (-2147483648) 2147483647), .need "disable_depth_write" .bool,
    .need "disable_depth_test" .bool, .need "vertex_indices" (.list (.int 0 4294967295)),
    .need "positions" (.list MeshData.AttributeData.shape), .need "normals" (.list MeshData.AttributeData.shape),
    .need "binormals" (.list MeshData.AttributeData.shape), .need "tangents" (.list MeshData.AttributeData.shape),
    .need "texture_coordinates" (.list MeshData.AttributeData.shape),
    .need "color_sets" (.list MeshData.AttributeData.shape),
    .need "bone_influences" (.list MeshData.BoneInfluence.shape)]

/-- /repo/ssbh_data/src/mesh_data.rs:484-488 -/
def MeshData.shape : Shape :=
  .struct [.need "major_version" (.int 0 65535), .need "minor_version" (.int 0 65535),
    .need "objects" (.list MeshData.MeshObjectData.shape)]

/-- /repo/ssbh_data/src/anim_data.rs:672-678 -/
def UvTransform.shape : Shape :=
  .struct [.need "scale_u" .float, .need "scale_v" .float, .need "rotation" .float, .need "translate_u" .float,
    .need "translate_v" .float]

/-- /repo/ssbh_data/src/anim_data.rs:684-692 -/
def Transform.shape : Shape :=
  .struct [.need "scale" Vector3.shape, .need "rotation" Vector4.shape, .need "translation" Vector3.shape]

/-- /repo/ssbh_data/src/anim_data.rs:722-735 -/
def TrackValues.shape : Shape :=
  .variants [("Transform", (.list Transform.shape)), ("UvTransform", (.list UvTransform.shape)),
    ("Float", (.list .float)), ("PatternIndex", (.list (.int 0 4294967295))), ("Boolean", (.list .bool)),
    ("Vector4", (.list Vector4.shape))]

/-- /repo/ssbh_data/src/anim_data.rs:639-644 -/
def AnimData.TransformFlags.shape : Shape :=
  .struct [.need "override_translation" .bool, .need "override_rotation" .bool, .need "override_scale" .bool,
    .need "override_compensate_scale" .bool]

/-- /repo/ssbh_data/src/anim_data.rs:607-632 -/
def AnimData.TrackData.shape : Shape :=
  .struct [.need "name" .text, .need "compensate_scale" .bool, .need "transform_flags" AnimData.TransformFlags.shape,
    .need "values" TrackValues.shape]

/-- /repo/ssbh_data/src/anim_data.rs:583-586 -/
def AnimData.NodeData.shape : Shape :=
  .struct [.need "name" .text, .need "tracks" (.list AnimData.TrackData.shape)]

/-- /repo/ssbh_data/src/anim_data.rs:573-577 -/
def AnimData.GroupData.shape : Shape :=
  .struct [.need "group_type" Anim.GroupType.shape, .need "nodes" (.list AnimData.NodeData.shape)]

/-- /repo/ssbh_data/src/anim_data.rs:69-82 -/
def AnimData.shape : Shape :=
  .struct [.need "major_version" (.int 0 65535), .need "minor_version" (.int 0 65535),
    .need "final_frame_index" .float, .need "groups" (.list AnimData.GroupData.shape)]

/-- /repo/ssbh_data/src/shdr_data.rs:338-367 -/
def ShdrData.DataType.shape : Shape :=
  .names ["Boolean", "Int", "Unk7", "UnsignedInt", "UVec3", "Float", "Vector2", "Vector3", "Vector4", "Matrix4x4",
    "Sampler2d", "Sampler3d", "SamplerCube", "Sampler2dArray", "Image2d"]

/-- /repo/ssbh_data/src/shdr_data.rs:77-85 -/
def ShdrData.Buffer.shape : Shape :=
  .struct [.need "name" .text, .need "used_size_in_bytes" (.int 0 4294967295),
    .need "uniform_count" (.int 0 4294967295), .need "unk4" (.int (-2147483648) 2147483647),
    .need "unk5" (.int (-2147483648) 2147483647), .need "unk6" (.int (-2147483648) 2147483647),
    .need "unk7" (.int (-2147483648) 2147483647)]

/-- /repo/ssbh_data/src/shdr_data.rs:105-111 -/
def ShdrData.Uniform.shape : Shape :=
  .struct [.need "name" .text, .need "data_type" ShdrData.DataType.shape,
    .need "buffer_index" (.int (-2147483648) 2147483647),
    .need "uniform_buffer_offset" (.int (-2147483648) 2147483647), .need "unk11" (.int (-2147483648) 2147483647)]

/-- /repo/ssbh_data/src/shdr_data.rs:129-133 -/
def ShdrData.Attribute.shape : Shape :=
  .struct [.need "name" .text, .need "data_type" ShdrData.DataType.shape,
    .need "location" (.int (-2147483648) 2147483647)]

/-- /repo/ssbh_data/src/shdr_data.rs:31-36 -/
def ShdrData.MetaData.shape : Shape :=
  .struct [.need "buffers" (.list ShdrData.Buffer.shape), .need "uniforms" (.list ShdrData.Uniform.shape),
    .need "inputs" (.list ShdrData.Attribute.shape), .need "outputs" (.list ShdrData.Attribute.shape)]

/-- /repo/ssbh_data/src/shdr_data.rs:22-26 -/
def ShdrData.ShaderEntryData.shape : Shape :=
  .struct [.need "name" .text, .need "shader_stage" Shdr.ShaderStage.shape, .need "meta_data" ShdrData.MetaData.shape]

/-- /repo/ssbh_data/src/shdr_data.rs:14-16 -/
def ShdrData.shape : Shape :=
  .struct [.need "shaders" (.list ShdrData.ShaderEntryData.shape)]

end Verif
