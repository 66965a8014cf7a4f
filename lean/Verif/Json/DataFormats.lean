import Verif.Json.Formats
import Verif.Data.DataFiles
import Verif.Data.ShdrData
/-!
# The JSON of the data types

The derived implementations of the types in /repo/ssbh_data/src: the names of the fields and of the variants.
Written by tools/gen_json_data.py from the Rust definitions.
-/

namespace Verif

/-- /repo/ssbh_data/src/modl_data.rs:47-51 -/
def ModlData.ModlEntryData.json : JCodec ModlData.ModlEntryData :=
  JCodec.struct (.and (.field "mesh_object_name" JCodec.string) (.and (.field "mesh_object_subindex" JCodec.u64) (.field "material_label" JCodec.string)))
    (fun v => (v.mesh_object_name, v.mesh_object_subindex, v.material_label))
    (fun (mesh_object_name, mesh_object_subindex, material_label) => ⟨mesh_object_name, mesh_object_subindex, material_label⟩)

/-- /repo/ssbh_data/src/modl_data.rs:32-41 -/
def ModlData.json : JCodec ModlData :=
  JCodec.struct (.and (.field "major_version" JCodec.u16) (.and (.field "minor_version" JCodec.u16) (.and (.field "model_name" JCodec.string) (.and (.field "skeleton_file_name" JCodec.string) (.and (.field "material_file_names" (JCodec.vec JCodec.string)) (.and (.field "animation_file_name" (JCodec.option JCodec.string)) (.and (.field "mesh_file_name" JCodec.string) (.field "entries" (JCodec.vec ModlData.ModlEntryData.json)))))))))
    (fun v => (v.major_version, v.minor_version, v.model_name, v.skeleton_file_name, v.material_file_names, v.animation_file_name, v.mesh_file_name, v.entries))
    (fun (major_version, minor_version, model_name, skeleton_file_name, material_file_names, animation_file_name, mesh_file_name, entries) => ⟨major_version, minor_version, model_name, skeleton_file_name, material_file_names, animation_file_name, mesh_file_name, entries⟩)

/-- /repo/ssbh_data/src/hlpb_data.rs:27-41 -/
def HlpbData.AimConstraintData.json : JCodec HlpbData.AimConstraintData :=
  JCodec.struct (.and (.field "name" JCodec.string) (.and (.field "aim_bone_name1" JCodec.string) (.and (.field "aim_bone_name2" JCodec.string) (.and (.field "aim_type1" JCodec.string) (.and (.field "aim_type2" JCodec.string) (.and (.field "target_bone_name1" JCodec.string) (.and (.field "target_bone_name2" JCodec.string) (.and (.field "unk1" JCodec.u32) (.and (.field "unk2" JCodec.u32) (.and (.field "aim" Vector3.json) (.and (.field "up" Vector3.json) (.and (.field "quat1" Vector4.json) (.field "quat2" Vector4.json)))))))))))))
    (fun v => (v.name, v.aim_bone_name1, v.aim_bone_name2, v.aim_type1, v.aim_type2, v.target_bone_name1, v.target_bone_name2, v.unk1, v.unk2, v.aim, v.up, v.quat1, v.quat2))
    (fun (name, aim_bone_name1, aim_bone_name2, aim_type1, aim_type2, target_bone_name1, target_bone_name2, unk1, unk2, aim, up, quat1, quat2) => ⟨name, aim_bone_name1, aim_bone_name2, aim_type1, aim_type2, target_bone_name1, target_bone_name2, unk1, unk2, aim, up, quat1, quat2⟩)

/-- /repo/ssbh_data/src/hlpb_data.rs:47-59 -/
def HlpbData.OrientConstraintData.json : JCodec HlpbData.OrientConstraintData :=
  JCodec.struct (.and (.field "name" JCodec.string) (.and (.field "parent_bone_name1" JCodec.string) (.and (.field "parent_bone_name2" JCodec.string) (.and (.field "source_bone_name" JCodec.string) (.and (.field "target_bone_name" JCodec.string) (.and (.field "unk_type" JCodec.u32) (.and (.field "constraint_axes" Vector3.json) (.and (.field "quat1" Vector4.json) (.and (.field "quat2" Vector4.json) (.and (.field "range_min" Vector3.json) (.field "range_max" Vector3.json)))))))))))
    (fun v => (v.name, v.parent_bone_name1, v.parent_bone_name2, v.source_bone_name, v.target_bone_name, v.unk_type, v.constraint_axes, v.quat1, v.quat2, v.range_min, v.range_max))
    (fun (name, parent_bone_name1, parent_bone_name2, source_bone_name, target_bone_name, unk_type, constraint_axes, quat1, quat2, range_min, range_max) => ⟨name, parent_bone_name1, parent_bone_name2, source_bone_name, target_bone_name, unk_type, constraint_axes, quat1, quat2, range_min, range_max⟩)

/-- /repo/ssbh_data/src/hlpb_data.rs:14-19 -/
def HlpbData.json : JCodec HlpbData :=
  JCodec.struct (.and (.field "major_version" JCodec.u16) (.and (.field "minor_version" JCodec.u16) (.and (.field "aim_constraints" (JCodec.vec HlpbData.AimConstraintData.json)) (.field "orient_constraints" (JCodec.vec HlpbData.OrientConstraintData.json)))))
    (fun v => (v.major_version, v.minor_version, v.aim_constraints, v.orient_constraints))
    (fun (major_version, minor_version, aim_constraints, orient_constraints) => ⟨major_version, minor_version, aim_constraints, orient_constraints⟩)

/-- /repo/ssbh_data/src/matl_data.rs:113-118 -/
def MatlData.ParamData.json (c : JCodec α) : JCodec (MatlData.ParamData α) :=
  JCodec.struct (.and (.field "param_id" Matl.ParamId.json) (.field "data" c)) (fun v => (v.param_id, v.data)) (fun (p, d) => ⟨p, d⟩)

/-- `SamplerData::default`, /repo/ssbh_data/src/matl_data.rs:172-193 and /repo/ssbh_lib/src/formats/matl.rs:732-736 -/
def MatlData.SamplerData.default : MatlData.SamplerData where
  wraps := .ClampToEdge
  wrapt := .ClampToEdge
  wrapr := .ClampToEdge
  min_filter := .LinearMipmapLinear
  mag_filter := .Linear
  border_color := ⟨0, 0, 0, 0⟩
  lod_bias := 0
  max_anisotropy := .One

/-- `BlendStateData::default`, /repo/ssbh_data/src/matl_data.rs:265-278 -/
def MatlData.BlendStateData.default : MatlData.BlendStateData where
  source_color := .One
  color_operation := .Add
  destination_color := .Zero
  source_alpha := .One
  alpha_operation := .Add
  destination_alpha := .Zero
  alpha_sample_to_coverage := false

/-- `parse_max_anisotropy`, /repo/ssbh_data/src/matl_data.rs:164-170 -/
def MatlData.maxAnisotropy : JCodec Matl.MaxAnisotropy := JCodec.orNull Matl.MaxAnisotropy.json .One

/-- /repo/ssbh_data/src/matl_data.rs:148-162 -/
def MatlData.SamplerData.json : JCodec MatlData.SamplerData :=
  JCodec.struct (.and (.fieldOr "wraps" Matl.WrapMode.json MatlData.SamplerData.default.wraps) (.and (.fieldOr "wrapt" Matl.WrapMode.json MatlData.SamplerData.default.wrapt) (.and (.fieldOr "wrapr" Matl.WrapMode.json MatlData.SamplerData.default.wrapr) (.and (.fieldOr "min_filter" Matl.MinFilter.json MatlData.SamplerData.default.min_filter) (.and (.fieldOr "mag_filter" Matl.MagFilter.json MatlData.SamplerData.default.mag_filter) (.and (.fieldOr "border_color" Color4f.json MatlData.SamplerData.default.border_color) (.and (.fieldOr "lod_bias" JCodec.f32 MatlData.SamplerData.default.lod_bias) (.fieldOr "max_anisotropy" MatlData.maxAnisotropy MatlData.SamplerData.default.max_anisotropy))))))))
    (fun v => (v.wraps, v.wrapt, v.wrapr, v.min_filter, v.mag_filter, v.border_color, v.lod_bias, v.max_anisotropy))
    (fun (wraps, wrapt, wrapr, min_filter, mag_filter, border_color, lod_bias, max_anisotropy) => ⟨wraps, wrapt, wrapr, min_filter, mag_filter, border_color, lod_bias, max_anisotropy⟩)

/-- /repo/ssbh_data/src/matl_data.rs:255-263 -/
def MatlData.BlendStateData.json : JCodec MatlData.BlendStateData :=
  JCodec.struct (.and (.fieldOr "source_color" Matl.BlendFactor.json MatlData.BlendStateData.default.source_color) (.and (.fieldOr "color_operation" Matl.BlendOperation.json MatlData.BlendStateData.default.color_operation) (.and (.fieldOr "destination_color" Matl.BlendFactor.json MatlData.BlendStateData.default.destination_color) (.and (.fieldOr "source_alpha" Matl.BlendFactor.json MatlData.BlendStateData.default.source_alpha) (.and (.fieldOr "alpha_operation" Matl.BlendOperation.json MatlData.BlendStateData.default.alpha_operation) (.and (.fieldOr "destination_alpha" Matl.BlendFactor.json MatlData.BlendStateData.default.destination_alpha) (.fieldOr "alpha_sample_to_coverage" JCodec.boolean MatlData.BlendStateData.default.alpha_sample_to_coverage)))))))
    (fun v => (v.source_color, v.color_operation, v.destination_color, v.source_alpha, v.alpha_operation, v.destination_alpha, v.alpha_sample_to_coverage))
    (fun (source_color, color_operation, destination_color, source_alpha, alpha_operation, destination_alpha, alpha_sample_to_coverage) => ⟨source_color, color_operation, destination_color, source_alpha, alpha_operation, destination_alpha, alpha_sample_to_coverage⟩)

/-- /repo/ssbh_data/src/matl_data.rs:374-378 -/
def MatlData.RasterizerStateData.json : JCodec MatlData.RasterizerStateData :=
  JCodec.struct (.and (.field "fill_mode" Matl.FillMode.json) (.and (.field "cull_mode" Matl.CullMode.json) (.field "depth_bias" JCodec.f32)))
    (fun v => (v.fill_mode, v.cull_mode, v.depth_bias))
    (fun (fill_mode, cull_mode, depth_bias) => ⟨fill_mode, cull_mode, depth_bias⟩)

/-- /repo/ssbh_data/src/matl_data.rs:95-107 -/
def MatlData.MatlEntryData.json : JCodec MatlData.MatlEntryData :=
  JCodec.struct (.and (.field "material_label" JCodec.string) (.and (.field "shader_label" JCodec.string) (.and (.field "blend_states" (JCodec.vec (MatlData.ParamData.json MatlData.BlendStateData.json))) (.and (.field "floats" (JCodec.vec (MatlData.ParamData.json JCodec.f32))) (.and (.field "booleans" (JCodec.vec (MatlData.ParamData.json JCodec.boolean))) (.and (.field "vectors" (JCodec.vec (MatlData.ParamData.json Vector4.json))) (.and (.field "rasterizer_states" (JCodec.vec (MatlData.ParamData.json MatlData.RasterizerStateData.json))) (.and (.field "samplers" (JCodec.vec (MatlData.ParamData.json MatlData.SamplerData.json))) (.and (.field "textures" (JCodec.vec (MatlData.ParamData.json JCodec.string))) (.fieldOr "uv_transforms" (JCodec.vec (MatlData.ParamData.json Matl.UvTransform.json)) []))))))))))
    (fun v => (v.material_label, v.shader_label, v.blend_states, v.floats, v.booleans, v.vectors, v.rasterizer_states, v.samplers, v.textures, v.uv_transforms))
    (fun (material_label, shader_label, blend_states, floats, booleans, vectors, rasterizer_states, samplers, textures, uv_transforms) => ⟨material_label, shader_label, blend_states, floats, booleans, vectors, rasterizer_states, samplers, textures, uv_transforms⟩)

/-- /repo/ssbh_data/src/matl_data.rs:82-86 -/
def MatlData.json : JCodec MatlData :=
  JCodec.struct (.and (.field "major_version" JCodec.u16) (.and (.field "minor_version" JCodec.u16) (.field "entries" (JCodec.vec MatlData.MatlEntryData.json))))
    (fun v => (v.major_version, v.minor_version, v.entries))
    (fun (major_version, minor_version, entries) => ⟨major_version, minor_version, entries⟩)

/-- `[[f32; 4]; 4]`; the model has these arrays as a `Matrix4x4`. -/
def matrixJson : JCodec Matrix4x4 :=
  JCodec.via (JCodec.arrayN 4 (JCodec.arrayN 4 JCodec.f32))
    (fun m => #v[#v[m.col1.x, m.col1.y, m.col1.z, m.col1.w], #v[m.col2.x, m.col2.y, m.col2.z, m.col2.w],
      #v[m.col3.x, m.col3.y, m.col3.z, m.col3.w], #v[m.col4.x, m.col4.y, m.col4.z, m.col4.w]])
    (fun v => ⟨⟨v[0][0], v[0][1], v[0][2], v[0][3]⟩, ⟨v[1][0], v[1][1], v[1][2], v[1][3]⟩,
      ⟨v[2][0], v[2][1], v[2][2], v[2][3]⟩, ⟨v[3][0], v[3][1], v[3][2], v[3][3]⟩⟩)

/-- /repo/ssbh_data/src/skel_data.rs:48-59 -/
def SkelData.BoneData.json : JCodec SkelData.BoneData :=
  JCodec.struct (.and (.field "name" JCodec.string) (.and (.field "transform" matrixJson) (.and (.field "parent_index" (JCodec.option JCodec.usize)) (.field "billboard_type" Skel.BillboardType.json))))
    (fun v => (v.name, v.transform, v.parent_index, v.billboard_type))
    (fun (name, transform, parent_index, billboard_type) => ⟨name, transform, parent_index, billboard_type⟩)

/-- /repo/ssbh_data/src/skel_data.rs:34-38 -/
def SkelData.json : JCodec SkelData :=
  JCodec.struct (.and (.field "major_version" JCodec.u16) (.and (.field "minor_version" JCodec.u16) (.field "bones" (JCodec.vec SkelData.BoneData.json))))
    (fun v => (v.major_version, v.minor_version, v.bones))
    (fun (major_version, minor_version, bones) => ⟨major_version, minor_version, bones⟩)

/-- /repo/ssbh_data/src/meshex_data.rs:45-49 -/
def MeshExData.EntryFlags.json : JCodec MeshExData.EntryFlags :=
  JCodec.struct (.and (.field "draw_model" JCodec.boolean) (.field "cast_shadow" JCodec.boolean))
    (fun v => (v.draw_model, v.cast_shadow))
    (fun (draw_model, cast_shadow) => ⟨draw_model, cast_shadow⟩)

/-- /repo/ssbh_data/src/meshex_data.rs:33-39 -/
def MeshExData.MeshObjectGroupData.json : JCodec MeshExData.MeshObjectGroupData :=
  JCodec.struct (.and (.field "bounding_sphere" Mesh.BoundingSphere.json) (.and (.field "mesh_object_full_name" JCodec.string) (.and (.field "mesh_object_name" JCodec.string) (.field "entry_flags" (JCodec.vec MeshExData.EntryFlags.json)))))
    (fun v => (v.bounding_sphere, v.mesh_object_full_name, v.mesh_object_name, v.entry_flags))
    (fun (bounding_sphere, mesh_object_full_name, mesh_object_name, entry_flags) => ⟨bounding_sphere, mesh_object_full_name, mesh_object_name, entry_flags⟩)

/-- /repo/ssbh_data/src/meshex_data.rs:22-24 -/
def MeshExData.json : JCodec MeshExData :=
  JCodec.struct (.field "mesh_object_groups" (JCodec.vec MeshExData.MeshObjectGroupData.json))
    (fun v => (v.mesh_object_groups))
    (fun mesh_object_groups => ⟨mesh_object_groups⟩)

/-- /repo/ssbh_data/src/adj_data.rs:66-74 -/
def AdjEntryData.json : JCodec AdjEntryData :=
  JCodec.struct (.and (.field "mesh_object_index" JCodec.usize) (.field "vertex_adjacency" (JCodec.vec JCodec.i16)))
    (fun v => (v.mesh_object_index, v.vertex_adjacency))
    (fun (mesh_object_index, vertex_adjacency) => ⟨mesh_object_index, vertex_adjacency⟩)

/-- /repo/ssbh_data/src/adj_data.rs:58-60 -/
def AdjData.json : JCodec AdjData :=
  JCodec.struct (.field "entries" (JCodec.vec AdjEntryData.json))
    (fun v => (v.entries))
    (fun entries => ⟨entries⟩)

/-- /repo/ssbh_data/src/mesh_data/vector_data.rs:21-25 -/
def VectorData.json : JCodec VectorData where
  ser
    | .Vector2 v => .obj [("Vector2", (JCodec.vec (JCodec.arrayN 2 JCodec.f32)).ser v)]
    | .Vector3 v => .obj [("Vector3", (JCodec.vec (JCodec.arrayN 3 JCodec.f32)).ser v)]
    | .Vector4 v => .obj [("Vector4", (JCodec.vec (JCodec.arrayN 4 JCodec.f32)).ser v)]
  de
    | .obj [(n, j)] =>
      if n = "Vector2" then ((JCodec.vec (JCodec.arrayN 2 JCodec.f32)).de j).map .Vector2
      else if n = "Vector3" then ((JCodec.vec (JCodec.arrayN 3 JCodec.f32)).de j).map .Vector3
      else if n = "Vector4" then ((JCodec.vec (JCodec.arrayN 4 JCodec.f32)).de j).map .Vector4
      else none
    | _ => none
  miss := none

/-- /repo/ssbh_data/src/mesh_data.rs:587-590 -/
def MeshData.AttributeData.json : JCodec MeshData.AttributeData :=
  JCodec.struct (.and (.field "name" JCodec.string) (.field "data" VectorData.json))
    (fun v => (v.name, v.data))
    (fun (name, data) => ⟨name, data⟩)

/-- /repo/ssbh_data/src/mesh_data.rs:181-184 -/
def MeshData.VertexWeight.json : JCodec MeshData.VertexWeight :=
  JCodec.struct (.and (.field "vertex_index" JCodec.u32) (.field "vertex_weight" JCodec.f32))
    (fun v => (v.vertex_index, v.vertex_weight))
    (fun (vertex_index, vertex_weight) => ⟨vertex_index, vertex_weight⟩)

/-- /repo/ssbh_data/src/mesh_data.rs:474-477 -/
def MeshData.BoneInfluence.json : JCodec MeshData.BoneInfluence :=
  JCodec.struct (.and (.field "bone_name" JCodec.string) (.field "vertex_weights" (JCodec.vec MeshData.VertexWeight.json)))
    (fun v => (v.bone_name, v.vertex_weights))
    (fun (bone_name, vertex_weights) => ⟨bone_name, vertex_weights⟩)

/-- /repo/ssbh_data/src/mesh_data.rs:558-581 -/
def MeshData.MeshObjectData.json : JCodec MeshData.MeshObjectData :=
  JCodec.struct (.and (.field "name" JCodec.string) (.and (.field "subindex" JCodec.u64) (.and (.field "parent_bone_name" JCodec.string) (.and (.field "sort_bias" JCodec.i32) (.and (.field "disable_depth_write" JCodec.boolean) (.and (.field "disable_depth_test" JCodec.boolean) (.and (.field "vertex_indices" (JCodec.vec JCodec.u32)) (.and (.field "positions" (JCodec.vec MeshData.AttributeData.json)) (.and (.field "normals" (JCodec.vec MeshData.AttributeData.json)) (.and (.field "binormals" (JCodec.vec MeshData.AttributeData.json)) (.and (.field "tangents" (JCodec.vec MeshData.AttributeData.json)) (.and (.field "texture_coordinates" (JCodec.vec MeshData.AttributeData.json)) (.and (.field "color_sets" (JCodec.vec MeshData.AttributeData.json)) (.field "bone_influences" (JCodec.vec MeshData.BoneInfluence.json)))))))))))))))
    (fun v => (v.name, v.subindex, v.parent_bone_name, v.sort_bias, v.disable_depth_write, v.disable_depth_test, v.vertex_indices, v.positions, v.normals, v.binormals, v.tangents, v.texture_coordinates, v.color_sets, v.bone_influences))
    (fun (name, subindex, parent_bone_name, sort_bias, disable_depth_write, disable_depth_test, vertex_indices, positions, normals, binormals, tangents, texture_coordinates, color_sets, bone_influences) => ⟨name, subindex, parent_bone_name, sort_bias, disable_depth_write, disable_depth_test, vertex_indices, positions, normals, binormals, tangents, texture_coordinates, color_sets, bone_influences⟩)

/-- /repo/ssbh_data/src/mesh_data.rs:484-488 -/
def MeshData.json : JCodec MeshData :=
  JCodec.struct (.and (.field "major_version" JCodec.u16) (.and (.field "minor_version" JCodec.u16) (.field "objects" (JCodec.vec MeshData.MeshObjectData.json))))
    (fun v => (v.major_version, v.minor_version, v.objects))
    (fun (major_version, minor_version, objects) => ⟨major_version, minor_version, objects⟩)

/-- /repo/ssbh_data/src/anim_data.rs:672-678 -/
def UvTransform.json : JCodec UvTransform :=
  JCodec.struct (.and (.field "scale_u" JCodec.f32) (.and (.field "scale_v" JCodec.f32) (.and (.field "rotation" JCodec.f32) (.and (.field "translate_u" JCodec.f32) (.field "translate_v" JCodec.f32)))))
    (fun v => (v.scale_u, v.scale_v, v.rotation, v.translate_u, v.translate_v))
    (fun (scale_u, scale_v, rotation, translate_u, translate_v) => ⟨scale_u, scale_v, rotation, translate_u, translate_v⟩)

/-- /repo/ssbh_data/src/anim_data.rs:684-692 -/
def Transform.json : JCodec Transform :=
  JCodec.struct (.and (.field "scale" Vector3.json) (.and (.field "rotation" Vector4.json) (.field "translation" Vector3.json)))
    (fun v => (v.scale, v.rotation, v.translation))
    (fun (scale, rotation, translation) => ⟨scale, rotation, translation⟩)

/-- /repo/ssbh_data/src/anim_data.rs:722-735 -/
def TrackValues.json : JCodec TrackValues where
  ser
    | .transform v => .obj [("Transform", (JCodec.vec Transform.json).ser v)]
    | .uvTransform v => .obj [("UvTransform", (JCodec.vec UvTransform.json).ser v)]
    | .float v => .obj [("Float", (JCodec.vec JCodec.f32).ser v)]
    | .patternIndex v => .obj [("PatternIndex", (JCodec.vec JCodec.u32).ser v)]
    | .boolean v => .obj [("Boolean", (JCodec.vec JCodec.boolean).ser v)]
    | .vector4 v => .obj [("Vector4", (JCodec.vec Vector4.json).ser v)]
  de
    | .obj [(n, j)] =>
      if n = "Transform" then ((JCodec.vec Transform.json).de j).map .transform
      else if n = "UvTransform" then ((JCodec.vec UvTransform.json).de j).map .uvTransform
      else if n = "Float" then ((JCodec.vec JCodec.f32).de j).map .float
      else if n = "PatternIndex" then ((JCodec.vec JCodec.u32).de j).map .patternIndex
      else if n = "Boolean" then ((JCodec.vec JCodec.boolean).de j).map .boolean
      else if n = "Vector4" then ((JCodec.vec Vector4.json).de j).map .vector4
      else none
    | _ => none
  miss := none

/-- /repo/ssbh_data/src/anim_data.rs:639-644 -/
def AnimData.TransformFlags.json : JCodec AnimData.TransformFlags :=
  JCodec.struct (.and (.field "override_translation" JCodec.boolean) (.and (.field "override_rotation" JCodec.boolean) (.and (.field "override_scale" JCodec.boolean) (.field "override_compensate_scale" JCodec.boolean))))
    (fun v => (v.override_translation, v.override_rotation, v.override_scale, v.override_compensate_scale))
    (fun (override_translation, override_rotation, override_scale, override_compensate_scale) => ⟨override_translation, override_rotation, override_scale, override_compensate_scale⟩)

/-- /repo/ssbh_data/src/anim_data.rs:607-632 -/
def AnimData.TrackData.json : JCodec AnimData.TrackData :=
  JCodec.struct (.and (.field "name" JCodec.string) (.and (.field "compensate_scale" JCodec.boolean) (.and (.field "transform_flags" AnimData.TransformFlags.json) (.field "values" TrackValues.json))))
    (fun v => (v.name, v.compensate_scale, v.transform_flags, v.values))
    (fun (name, compensate_scale, transform_flags, values) => ⟨name, compensate_scale, transform_flags, values⟩)

/-- /repo/ssbh_data/src/anim_data.rs:583-586 -/
def AnimData.NodeData.json : JCodec AnimData.NodeData :=
  JCodec.struct (.and (.field "name" JCodec.string) (.field "tracks" (JCodec.vec AnimData.TrackData.json)))
    (fun v => (v.name, v.tracks))
    (fun (name, tracks) => ⟨name, tracks⟩)

/-- /repo/ssbh_data/src/anim_data.rs:573-577 -/
def AnimData.GroupData.json : JCodec AnimData.GroupData :=
  JCodec.struct (.and (.field "group_type" Anim.GroupType.json) (.field "nodes" (JCodec.vec AnimData.NodeData.json)))
    (fun v => (v.group_type, v.nodes))
    (fun (group_type, nodes) => ⟨group_type, nodes⟩)

/-- /repo/ssbh_data/src/anim_data.rs:69-82 -/
def AnimData.json : JCodec AnimData :=
  JCodec.struct (.and (.field "major_version" JCodec.u16) (.and (.field "minor_version" JCodec.u16) (.and (.field "final_frame_index" JCodec.f32) (.field "groups" (JCodec.vec AnimData.GroupData.json)))))
    (fun v => (v.major_version, v.minor_version, v.final_frame_index, v.groups))
    (fun (major_version, minor_version, final_frame_index, groups) => ⟨major_version, minor_version, final_frame_index, groups⟩)

/-- /repo/ssbh_data/src/shdr_data.rs:338-367 -/
def ShdrData.DataType.json : JCodec ShdrData.DataType :=
  JCodec.variants [("Boolean", .Boolean), ("Int", .Int), ("Unk7", .Unk7), ("UnsignedInt", .UnsignedInt), ("UVec3", .UVec3), ("Float", .Float), ("Vector2", .Vector2), ("Vector3", .Vector3), ("Vector4", .Vector4), ("Matrix4x4", .Matrix4x4), ("Sampler2d", .Sampler2d), ("Sampler3d", .Sampler3d), ("SamplerCube", .SamplerCube), ("Sampler2dArray", .Sampler2dArray), ("Image2d", .Image2d)]

/-- /repo/ssbh_data/src/shdr_data.rs:77-85 -/
def ShdrData.Buffer.json : JCodec ShdrData.Buffer :=
  JCodec.struct (.and (.field "name" JCodec.string) (.and (.field "used_size_in_bytes" JCodec.u32) (.and (.field "uniform_count" JCodec.u32) (.and (.field "unk4" JCodec.i32) (.and (.field "unk5" JCodec.i32) (.and (.field "unk6" JCodec.i32) (.field "unk7" JCodec.i32)))))))
    (fun v => (v.name, v.used_size_in_bytes, v.uniform_count, v.unk4, v.unk5, v.unk6, v.unk7))
    (fun (name, used_size_in_bytes, uniform_count, unk4, unk5, unk6, unk7) => ⟨name, used_size_in_bytes, uniform_count, unk4, unk5, unk6, unk7⟩)

/-- /repo/ssbh_data/src/shdr_data.rs:105-111 -/
def ShdrData.Uniform.json : JCodec ShdrData.Uniform :=
  JCodec.struct (.and (.field "name" JCodec.string) (.and (.field "data_type" ShdrData.DataType.json) (.and (.field "buffer_index" JCodec.i32) (.and (.field "uniform_buffer_offset" JCodec.i32) (.field "unk11" JCodec.i32)))))
    (fun v => (v.name, v.data_type, v.buffer_index, v.uniform_buffer_offset, v.unk11))
    (fun (name, data_type, buffer_index, uniform_buffer_offset, unk11) => ⟨name, data_type, buffer_index, uniform_buffer_offset, unk11⟩)

/-- /repo/ssbh_data/src/shdr_data.rs:129-133 -/
def ShdrData.Attribute.json : JCodec ShdrData.Attribute :=
  JCodec.struct (.and (.field "name" JCodec.string) (.and (.field "data_type" ShdrData.DataType.json) (.field "location" JCodec.i32)))
    (fun v => (v.name, v.data_type, v.location))
    (fun (name, data_type, location) => ⟨name, data_type, location⟩)

/-- /repo/ssbh_data/src/shdr_data.rs:31-36 -/
def ShdrData.MetaData.json : JCodec ShdrData.MetaData :=
  JCodec.struct (.and (.field "buffers" (JCodec.vec ShdrData.Buffer.json)) (.and (.field "uniforms" (JCodec.vec ShdrData.Uniform.json)) (.and (.field "inputs" (JCodec.vec ShdrData.Attribute.json)) (.field "outputs" (JCodec.vec ShdrData.Attribute.json)))))
    (fun v => (v.buffers, v.uniforms, v.inputs, v.outputs))
    (fun (buffers, uniforms, inputs, outputs) => ⟨buffers, uniforms, inputs, outputs⟩)

/-- /repo/ssbh_data/src/shdr_data.rs:22-26 -/
def ShdrData.ShaderEntryData.json : JCodec ShdrData.ShaderEntryData :=
  JCodec.struct (.and (.field "name" JCodec.string) (.and (.field "shader_stage" Shdr.ShaderStage.json) (.field "meta_data" ShdrData.MetaData.json)))
    (fun v => (v.name, v.shader_stage, v.meta_data))
    (fun (name, shader_stage, meta_data) => ⟨name, shader_stage, meta_data⟩)

/-- /repo/ssbh_data/src/shdr_data.rs:14-16 -/
def ShdrData.json : JCodec ShdrData :=
  JCodec.struct (.field "shaders" (JCodec.vec ShdrData.ShaderEntryData.json))
    (fun v => (v.shaders))
    (fun shaders => ⟨shaders⟩)

end Verif
