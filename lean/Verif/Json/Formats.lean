import Verif.Json.Core
import Verif.Formats.Ssbh
import Verif.Formats.MeshEx
import Verif.Formats.Adj
/-!
# The JSON of the formats

The derived implementations of the types in /repo/ssbh_lib/src: the names of the fields and of the variants.
Written by tools/gen_json.py from the Rust definitions.
-/

namespace Verif

/-- /repo/ssbh_lib/src/vectors.rs:11-15 -/
def Vector3.json : JCodec Vector3 :=
  JCodec.struct (.and (.field "x" JCodec.f32) (.and (.field "y" JCodec.f32) (.field "z" JCodec.f32)))
    (fun v => (v.x, v.y, v.z))
    (fun (x, y, z) => ⟨x, y, z⟩)

/-- /repo/ssbh_lib/src/vectors.rs:134-138 -/
def Matrix3x3.json : JCodec Matrix3x3 :=
  JCodec.struct (.and (.field "col1" Vector3.json) (.and (.field "col2" Vector3.json) (.field "col3" Vector3.json)))
    (fun v => (v.col1, v.col2, v.col3))
    (fun (col1, col2, col3) => ⟨col1, col2, col3⟩)

/-- /repo/ssbh_lib/src/vectors.rs:216-221 -/
def Vector4.json : JCodec Vector4 :=
  JCodec.struct (.and (.field "x" JCodec.f32) (.and (.field "y" JCodec.f32) (.and (.field "z" JCodec.f32) (.field "w" JCodec.f32))))
    (fun v => (v.x, v.y, v.z, v.w))
    (fun (x, y, z, w) => ⟨x, y, z, w⟩)

/-- /repo/ssbh_lib/src/vectors.rs:332-337 -/
def Color4f.json : JCodec Color4f :=
  JCodec.struct (.and (.field "r" JCodec.f32) (.and (.field "g" JCodec.f32) (.and (.field "b" JCodec.f32) (.field "a" JCodec.f32))))
    (fun v => (v.r, v.g, v.b, v.a))
    (fun (r, g, b, a) => ⟨r, g, b, a⟩)

/-- /repo/ssbh_lib/src/vectors.rs:343-348 -/
def Matrix4x4.json : JCodec Matrix4x4 :=
  JCodec.struct (.and (.field "col1" Vector4.json) (.and (.field "col2" Vector4.json) (.and (.field "col3" Vector4.json) (.field "col4" Vector4.json))))
    (fun v => (v.col1, v.col2, v.col3, v.col4))
    (fun (col1, col2, col3, col4) => ⟨col1, col2, col3, col4⟩)

/-- The fields of `Nlst::V10`, /repo/ssbh_lib/src/formats/nlst.rs:14-17 -/
def Nlst.V10Data.json : JCodec Nlst.V10Data :=
  JCodec.struct (.field "file_names" (JCodec.array JCodec.ssbhString))
    (fun v => (v.file_names))
    (fun file_names => ⟨file_names⟩)

/-- /repo/ssbh_lib/src/formats/nlst.rs:14-17 -/
def Nlst.json : JCodec Nlst where
  ser
    | .V10 v => .obj [("V10", Nlst.V10Data.json.ser v)]
  de
    | .obj [(n, j)] =>
      if n = "V10" then (Nlst.V10Data.json.de j).map .V10
      else none
    | _ => none
  miss := none

/-- The names of the variants: /repo/ssbh_lib/src/formats/shdr.rs:47-52 -/
def Shdr.ShaderStage.names : List String :=
  ["Vertex", "Geometry", "Fragment", "Compute"]

def Shdr.ShaderStage.json : JCodec Shdr.ShaderStage := JCodec.enumNames Shdr.ShaderStage.names [0, 3, 4, 5]

/-- /repo/ssbh_lib/src/formats/shdr.rs:30-39 -/
def Shdr.Shader.json : JCodec Shdr.Shader :=
  JCodec.struct (.and (.field "name" JCodec.ssbhString) (.and (.field "shader_stage" Shdr.ShaderStage.json) (.and (.field "unk3" JCodec.u32) (.and (.field "shader_binary" JCodec.hex) (.field "binary_size" JCodec.u64)))))
    (fun v => (v.name, v.shader_stage, v.unk3, v.shader_binary, v.binary_size))
    (fun (name, shader_stage, unk3, shader_binary, binary_size) => ⟨name, shader_stage, unk3, shader_binary, binary_size⟩)

/-- The fields of `Shdr::V12`, /repo/ssbh_lib/src/formats/shdr.rs:13-16 -/
def Shdr.V12Data.json : JCodec Shdr.V12Data :=
  JCodec.struct (.field "shaders" (JCodec.array Shdr.Shader.json))
    (fun v => (v.shaders))
    (fun shaders => ⟨shaders⟩)

/-- /repo/ssbh_lib/src/formats/shdr.rs:13-16 -/
def Shdr.json : JCodec Shdr where
  ser
    | .V12 v => .obj [("V12", Shdr.V12Data.json.ser v)]
  de
    | .obj [(n, j)] =>
      if n = "V12" then (Shdr.V12Data.json.de j).map .V12
      else none
    | _ => none
  miss := none

/-- /repo/ssbh_lib/src/formats/modl.rs:48-57 -/
def Modl.ModlEntry.json : JCodec Modl.ModlEntry :=
  JCodec.struct (.and (.field "mesh_object_name" JCodec.ssbhString) (.and (.field "mesh_object_subindex" JCodec.u64) (.field "material_label" JCodec.ssbhString)))
    (fun v => (v.mesh_object_name, v.mesh_object_subindex, v.material_label))
    (fun (mesh_object_name, mesh_object_subindex, material_label) => ⟨mesh_object_name, mesh_object_subindex, material_label⟩)

/-- The fields of `Modl::V17`, /repo/ssbh_lib/src/formats/modl.rs:16-34 -/
def Modl.V17Data.json : JCodec Modl.V17Data :=
  JCodec.struct (.and (.field "model_name" JCodec.ssbhString) (.and (.field "skeleton_file_name" JCodec.ssbhString) (.and (.field "material_file_names" (JCodec.array JCodec.ssbhString)) (.and (.field "animation_file_name" (JCodec.relPtr JCodec.ssbhString)) (.and (.field "mesh_file_name" JCodec.ssbhString) (.field "entries" (JCodec.array Modl.ModlEntry.json)))))))
    (fun v => (v.model_name, v.skeleton_file_name, v.material_file_names, v.animation_file_name, v.mesh_file_name, v.entries))
    (fun (model_name, skeleton_file_name, material_file_names, animation_file_name, mesh_file_name, entries) => ⟨model_name, skeleton_file_name, material_file_names, animation_file_name, mesh_file_name, entries⟩)

/-- /repo/ssbh_lib/src/formats/modl.rs:16-34 -/
def Modl.json : JCodec Modl where
  ser
    | .V17 v => .obj [("V17", Modl.V17Data.json.ser v)]
  de
    | .obj [(n, j)] =>
      if n = "V17" then (Modl.V17Data.json.de j).map .V17
      else none
    | _ => none
  miss := none

/-- The names of the variants: /repo/ssbh_lib/src/formats/skel.rs:97-112 -/
def Skel.BillboardType.names : List String :=
  ["Disabled", "XAxisViewPointAligned", "YAxisViewPointAligned", "Unk3", "XYAxisViewPointAligned",
   "YAxisViewPlaneAligned", "XYAxisViewPlaneAligned"]

def Skel.BillboardType.json : JCodec Skel.BillboardType := JCodec.enumNames Skel.BillboardType.names [0, 1, 2, 3, 4, 6, 8]

/-- /repo/ssbh_lib/src/formats/skel.rs:72-76 -/
def Skel.SkelEntryFlags.json : JCodec Skel.SkelEntryFlags :=
  JCodec.struct (.and (.field "unk1" JCodec.u8) (.field "billboard_type" Skel.BillboardType.json))
    (fun v => (v.unk1, v.billboard_type))
    (fun (unk1, billboard_type) => ⟨unk1, billboard_type⟩)

/-- /repo/ssbh_lib/src/formats/skel.rs:58-66 -/
def Skel.SkelBoneEntry.json : JCodec Skel.SkelBoneEntry :=
  JCodec.struct (.and (.field "name" JCodec.ssbhString) (.and (.field "index" JCodec.u16) (.and (.field "parent_index" JCodec.i16) (.field "flags" Skel.SkelEntryFlags.json))))
    (fun v => (v.name, v.index, v.parent_index, v.flags))
    (fun (name, index, parent_index, flags) => ⟨name, index, parent_index, flags⟩)

/-- The fields of `Skel::V10`, /repo/ssbh_lib/src/formats/skel.rs:25-43 -/
def Skel.V10Data.json : JCodec Skel.V10Data :=
  JCodec.struct (.and (.field "bone_entries" (JCodec.array Skel.SkelBoneEntry.json)) (.and (.field "world_transforms" (JCodec.array Matrix4x4.json)) (.and (.field "inv_world_transforms" (JCodec.array Matrix4x4.json)) (.and (.field "transforms" (JCodec.array Matrix4x4.json)) (.field "inv_transforms" (JCodec.array Matrix4x4.json))))))
    (fun v => (v.bone_entries, v.world_transforms, v.inv_world_transforms, v.transforms, v.inv_transforms))
    (fun (bone_entries, world_transforms, inv_world_transforms, transforms, inv_transforms) => ⟨bone_entries, world_transforms, inv_world_transforms, transforms, inv_transforms⟩)

/-- /repo/ssbh_lib/src/formats/skel.rs:25-43 -/
def Skel.json : JCodec Skel where
  ser
    | .V10 v => .obj [("V10", Skel.V10Data.json.ser v)]
  de
    | .obj [(n, j)] =>
      if n = "V10" then (Skel.V10Data.json.de j).map .V10
      else none
    | _ => none
  miss := none

/-- /repo/ssbh_lib/src/formats/hlpb.rs:54-77 -/
def Hlpb.AimConstraint.json : JCodec Hlpb.AimConstraint :=
  JCodec.struct (.and (.field "name" JCodec.ssbhString) (.and (.field "aim_bone_name1" JCodec.ssbhString) (.and (.field "aim_bone_name2" JCodec.ssbhString) (.and (.field "aim_type1" JCodec.ssbhString) (.and (.field "aim_type2" JCodec.ssbhString) (.and (.field "target_bone_name1" JCodec.ssbhString) (.and (.field "target_bone_name2" JCodec.ssbhString) (.and (.field "unk1" JCodec.u32) (.and (.field "unk2" JCodec.u32) (.and (.field "aim" Vector3.json) (.and (.field "up" Vector3.json) (.and (.field "quat1" Vector4.json) (.and (.field "quat2" Vector4.json) (.and (.field "unk17" JCodec.f32) (.and (.field "unk18" JCodec.f32) (.and (.field "unk19" JCodec.f32) (.and (.field "unk20" JCodec.f32) (.and (.field "unk21" JCodec.f32) (.field "unk22" JCodec.f32)))))))))))))))))))
    (fun v => (v.name, v.aim_bone_name1, v.aim_bone_name2, v.aim_type1, v.aim_type2, v.target_bone_name1, v.target_bone_name2, v.unk1, v.unk2, v.aim, v.up, v.quat1, v.quat2, v.unk17, v.unk18, v.unk19, v.unk20, v.unk21, v.unk22))
    (fun (name, aim_bone_name1, aim_bone_name2, aim_type1, aim_type2, target_bone_name1, target_bone_name2, unk1, unk2, aim, up, quat1, quat2, unk17, unk18, unk19, unk20, unk21, unk22) => ⟨name, aim_bone_name1, aim_bone_name2, aim_type1, aim_type2, target_bone_name1, target_bone_name2, unk1, unk2, aim, up, quat1, quat2, unk17, unk18, unk19, unk20, unk21, unk22⟩)

/-- /repo/ssbh_lib/src/formats/hlpb.rs:85-112 -/
def Hlpb.OrientConstraint.json : JCodec Hlpb.OrientConstraint :=
  JCodec.struct (.and (.field "name" JCodec.ssbhString) (.and (.field "parent_bone_name1" JCodec.ssbhString) (.and (.field "parent_bone_name2" JCodec.ssbhString) (.and (.field "source_bone_name" JCodec.ssbhString) (.and (.field "target_bone_name" JCodec.ssbhString) (.and (.field "unk_type" JCodec.u32) (.and (.field "constraint_axes" Vector3.json) (.and (.field "quat1" Vector4.json) (.and (.field "quat2" Vector4.json) (.and (.field "range_min" Vector3.json) (.field "range_max" Vector3.json)))))))))))
    (fun v => (v.name, v.parent_bone_name1, v.parent_bone_name2, v.source_bone_name, v.target_bone_name, v.unk_type, v.constraint_axes, v.quat1, v.quat2, v.range_min, v.range_max))
    (fun (name, parent_bone_name1, parent_bone_name2, source_bone_name, target_bone_name, unk_type, constraint_axes, quat1, quat2, range_min, range_max) => ⟨name, parent_bone_name1, parent_bone_name2, source_bone_name, target_bone_name, unk_type, constraint_axes, quat1, quat2, range_min, range_max⟩)

/-- The names of the variants: /repo/ssbh_lib/src/formats/hlpb.rs:120-125 -/
def Hlpb.ConstraintType.names : List String :=
  ["Aim", "Orient"]

def Hlpb.ConstraintType.json : JCodec Hlpb.ConstraintType := JCodec.enumNames Hlpb.ConstraintType.names [0, 1]

/-- The fields of `Hlpb::V11`, /repo/ssbh_lib/src/formats/hlpb.rs:19-36 -/
def Hlpb.V11Data.json : JCodec Hlpb.V11Data :=
  JCodec.struct (.and (.field "aim_constraints" (JCodec.array Hlpb.AimConstraint.json)) (.and (.field "orient_constraints" (JCodec.array Hlpb.OrientConstraint.json)) (.and (.field "constraint_indices" (JCodec.array JCodec.u32)) (.field "constraint_types" (JCodec.array Hlpb.ConstraintType.json)))))
    (fun v => (v.aim_constraints, v.orient_constraints, v.constraint_indices, v.constraint_types))
    (fun (aim_constraints, orient_constraints, constraint_indices, constraint_types) => ⟨aim_constraints, orient_constraints, constraint_indices, constraint_types⟩)

/-- /repo/ssbh_lib/src/formats/hlpb.rs:19-36 -/
def Hlpb.json : JCodec Hlpb where
  ser
    | .V11 v => .obj [("V11", Hlpb.V11Data.json.ser v)]
  de
    | .obj [(n, j)] =>
      if n = "V11" then (Hlpb.V11Data.json.de j).map .V11
      else none
    | _ => none
  miss := none

/-- /repo/ssbh_lib/src/formats/nufx.rs:79-86 -/
def Nufx.ShaderStages.json : JCodec Nufx.ShaderStages :=
  JCodec.struct (.and (.field "vertex_shader" JCodec.ssbhString) (.and (.field "unk_shader1" JCodec.ssbhString) (.and (.field "unk_shader2" JCodec.ssbhString) (.and (.field "geometry_shader" JCodec.ssbhString) (.and (.field "pixel_shader" JCodec.ssbhString) (.field "compute_shader" JCodec.ssbhString))))))
    (fun v => (v.vertex_shader, v.unk_shader1, v.unk_shader2, v.geometry_shader, v.pixel_shader, v.compute_shader))
    (fun (vertex_shader, unk_shader1, unk_shader2, geometry_shader, pixel_shader, compute_shader) => ⟨vertex_shader, unk_shader1, unk_shader2, geometry_shader, pixel_shader, compute_shader⟩)

/-- /repo/ssbh_lib/src/formats/nufx.rs:68-73 -/
def Nufx.MaterialParameter.json : JCodec Nufx.MaterialParameter :=
  JCodec.struct (.and (.field "param_id" JCodec.u64) (.field "parameter_name" JCodec.ssbhString))
    (fun v => (v.param_id, v.parameter_name))
    (fun (param_id, parameter_name) => ⟨param_id, parameter_name⟩)

/-- /repo/ssbh_lib/src/formats/nufx.rs:93-103 -/
def Nufx.ShaderProgramV0.json : JCodec Nufx.ShaderProgramV0 :=
  JCodec.struct (.and (.field "name" JCodec.ssbhString) (.and (.field "render_pass" JCodec.ssbhString) (.and (.field "shaders" Nufx.ShaderStages.json) (.field "material_parameters" (JCodec.array Nufx.MaterialParameter.json)))))
    (fun v => (v.name, v.render_pass, v.shaders, v.material_parameters))
    (fun (name, render_pass, shaders, material_parameters) => ⟨name, render_pass, shaders, material_parameters⟩)

/-- /repo/ssbh_lib/src/formats/nufx.rs:127-130 -/
def Nufx.UnkItem.json : JCodec Nufx.UnkItem :=
  JCodec.struct (.and (.field "name" JCodec.ssbhString) (.field "unk1" (JCodec.array JCodec.ssbhString)))
    (fun v => (v.name, v.unk1))
    (fun (name, unk1) => ⟨name, unk1⟩)

/-- /repo/ssbh_lib/src/formats/nufx.rs:40-43 -/
def Nufx.NufxV0.json : JCodec Nufx.NufxV0 :=
  JCodec.struct (.and (.field "programs" (JCodec.array Nufx.ShaderProgramV0.json)) (.field "unk_string_list" (JCodec.array Nufx.UnkItem.json)))
    (fun v => (v.programs, v.unk_string_list))
    (fun (programs, unk_string_list) => ⟨programs, unk_string_list⟩)

/-- /repo/ssbh_lib/src/formats/nufx.rs:58-61 -/
def Nufx.VertexAttribute.json : JCodec Nufx.VertexAttribute :=
  JCodec.struct (.and (.field "name" JCodec.ssbhString) (.field "attribute_name" JCodec.ssbhString))
    (fun v => (v.name, v.attribute_name))
    (fun (name, attribute_name) => ⟨name, attribute_name⟩)

/-- /repo/ssbh_lib/src/formats/nufx.rs:110-122 -/
def Nufx.ShaderProgramV1.json : JCodec Nufx.ShaderProgramV1 :=
  JCodec.struct (.and (.field "name" JCodec.ssbhString) (.and (.field "render_pass" JCodec.ssbhString) (.and (.field "shaders" Nufx.ShaderStages.json) (.and (.field "vertex_attributes" (JCodec.array Nufx.VertexAttribute.json)) (.field "material_parameters" (JCodec.array Nufx.MaterialParameter.json))))))
    (fun v => (v.name, v.render_pass, v.shaders, v.vertex_attributes, v.material_parameters))
    (fun (name, render_pass, shaders, vertex_attributes, material_parameters) => ⟨name, render_pass, shaders, vertex_attributes, material_parameters⟩)

/-- /repo/ssbh_lib/src/formats/nufx.rs:48-51 -/
def Nufx.NufxV1.json : JCodec Nufx.NufxV1 :=
  JCodec.struct (.and (.field "programs" (JCodec.array Nufx.ShaderProgramV1.json)) (.field "unk_string_list" (JCodec.array Nufx.UnkItem.json)))
    (fun v => (v.programs, v.unk_string_list))
    (fun (programs, unk_string_list) => ⟨programs, unk_string_list⟩)

/-- /repo/ssbh_lib/src/formats/nufx.rs:19-26 -/
def Nufx.json : JCodec Nufx where
  ser
    | .V0 v => .obj [("V0", Nufx.NufxV0.json.ser v)]
    | .V1 v => .obj [("V1", Nufx.NufxV1.json.ser v)]
  de
    | .obj [(n, j)] =>
      if n = "V0" then (Nufx.NufxV0.json.de j).map .V0
      else if n = "V1" then (Nufx.NufxV1.json.de j).map .V1
      else none
    | _ => none
  miss := none

/-- The names of the variants: /repo/ssbh_lib/src/formats/anim.rs:217-221 -/
def Anim.TrackTypeV1.names : List String :=
  ["Transform", "UvTransform", "Visibility"]

def Anim.TrackTypeV1.json : JCodec Anim.TrackTypeV1 := JCodec.enumNames Anim.TrackTypeV1.names [0, 2, 5]

/-- /repo/ssbh_lib/src/formats/anim.rs:124-128 -/
def Anim.Property.json : JCodec Anim.Property :=
  JCodec.struct (.and (.field "name" JCodec.ssbhString) (.field "buffer_index" JCodec.u64))
    (fun v => (v.name, v.buffer_index))
    (fun (name, buffer_index) => ⟨name, buffer_index⟩)

/-- /repo/ssbh_lib/src/formats/anim.rs:115-119 -/
def Anim.TrackV1.json : JCodec Anim.TrackV1 :=
  JCodec.struct (.and (.field "name" JCodec.ssbhString) (.and (.field "track_type" Anim.TrackTypeV1.json) (.field "properties" (JCodec.array Anim.Property.json))))
    (fun v => (v.name, v.track_type, v.properties))
    (fun (name, track_type, properties) => ⟨name, track_type, properties⟩)

/-- The names of the variants: /repo/ssbh_lib/src/formats/anim.rs:268-273 -/
def Anim.GroupType.names : List String :=
  ["Transform", "Visibility", "Material", "Camera"]

def Anim.GroupType.json : JCodec Anim.GroupType := JCodec.enumNames Anim.GroupType.names [1, 2, 4, 5]

/-- The names of the variants: /repo/ssbh_lib/src/formats/anim.rs:228-235 -/
def Anim.TrackTypeV2.names : List String :=
  ["Transform", "UvTransform", "Float", "PatternIndex", "Boolean", "Vector4"]

def Anim.TrackTypeV2.json : JCodec Anim.TrackTypeV2 := JCodec.enumNames Anim.TrackTypeV2.names [1, 2, 3, 5, 8, 9]

/-- The names of the variants: /repo/ssbh_lib/src/formats/anim.rs:242-257 -/
def Anim.CompressionType.names : List String :=
  ["Direct", "ConstTransform", "Compressed", "Constant"]

def Anim.CompressionType.json : JCodec Anim.CompressionType := JCodec.enumNames Anim.CompressionType.names [1, 2, 4, 5]

/-- /repo/ssbh_lib/src/formats/anim.rs:168-172 -/
def Anim.TrackFlags.json : JCodec Anim.TrackFlags :=
  JCodec.struct (.and (.field "track_type" Anim.TrackTypeV2.json) (.field "compression_type" Anim.CompressionType.json))
    (fun v => (v.track_type, v.compression_type))
    (fun (track_type, compression_type) => ⟨track_type, compression_type⟩)

/-- /repo/ssbh_lib/src/formats/anim.rs:196-208 -/
def Anim.TransformFlags.json : JCodec Anim.TransformFlags := JCodec.bitfield32

/-- /repo/ssbh_lib/src/formats/anim.rs:93-100 -/
def Anim.TrackV2.json : JCodec Anim.TrackV2 :=
  JCodec.struct (.and (.field "name" JCodec.ssbhString) (.and (.field "flags" Anim.TrackFlags.json) (.and (.field "frame_count" JCodec.u32) (.and (.field "transform_flags" Anim.TransformFlags.json) (.and (.field "data_offset" JCodec.u32) (.field "data_size" JCodec.u64))))))
    (fun v => (v.name, v.flags, v.frame_count, v.transform_flags, v.data_offset, v.data_size))
    (fun (name, flags, frame_count, transform_flags, data_offset, data_size) => ⟨name, flags, frame_count, transform_flags, data_offset, data_size⟩)

/-- /repo/ssbh_lib/src/formats/anim.rs:85-88 -/
def Anim.Node.json : JCodec Anim.Node :=
  JCodec.struct (.and (.field "name" JCodec.ssbhString) (.field "tracks" (JCodec.array Anim.TrackV2.json)))
    (fun v => (v.name, v.tracks))
    (fun (name, tracks) => ⟨name, tracks⟩)

/-- /repo/ssbh_lib/src/formats/anim.rs:77-80 -/
def Anim.Group.json : JCodec Anim.Group :=
  JCodec.struct (.and (.field "group_type" Anim.GroupType.json) (.field "nodes" (JCodec.array Anim.Node.json)))
    (fun v => (v.group_type, v.nodes))
    (fun (group_type, nodes) => ⟨group_type, nodes⟩)

/-- /repo/ssbh_lib/src/formats/anim.rs:159-162 -/
def Anim.UnkSubItem.json : JCodec Anim.UnkSubItem :=
  JCodec.struct (.and (.field "unk1" JCodec.u32) (.field "unk2" JCodec.u32))
    (fun v => (v.unk1, v.unk2))
    (fun (unk1, unk2) => ⟨unk1, unk2⟩)

/-- /repo/ssbh_lib/src/formats/anim.rs:142-145 -/
def Anim.UnkItem1.json : JCodec Anim.UnkItem1 :=
  JCodec.struct (.and (.field "unk1" JCodec.u64) (.field "unk2" (JCodec.array Anim.UnkSubItem.json)))
    (fun v => (v.unk1, v.unk2))
    (fun (unk1, unk2) => ⟨unk1, unk2⟩)

/-- /repo/ssbh_lib/src/formats/anim.rs:150-153 -/
def Anim.UnkItem2.json : JCodec Anim.UnkItem2 :=
  JCodec.struct (.and (.field "unk1" JCodec.ssbhString) (.field "unk2" (JCodec.array Anim.UnkSubItem.json)))
    (fun v => (v.unk1, v.unk2))
    (fun (unk1, unk2) => ⟨unk1, unk2⟩)

/-- /repo/ssbh_lib/src/formats/anim.rs:134-137 -/
def Anim.UnkData.json : JCodec Anim.UnkData :=
  JCodec.struct (.and (.field "unk1" (JCodec.array Anim.UnkItem1.json)) (.field "unk2" (JCodec.array Anim.UnkItem2.json)))
    (fun v => (v.unk1, v.unk2))
    (fun (unk1, unk2) => ⟨unk1, unk2⟩)

/-- The fields of `Anim::V12`, /repo/ssbh_lib/src/formats/anim.rs:28-72 -/
def Anim.V12Data.json : JCodec Anim.V12Data :=
  JCodec.struct (.and (.field "name" JCodec.ssbhString) (.and (.field "unk1" JCodec.f32) (.and (.field "final_frame_index" JCodec.f32) (.and (.field "unk2" JCodec.f32) (.and (.field "unk3" JCodec.f32) (.and (.field "tracks" (JCodec.array Anim.TrackV1.json)) (.field "buffers" (JCodec.array JCodec.hex))))))))
    (fun v => (v.name, v.unk1, v.final_frame_index, v.unk2, v.unk3, v.tracks, v.buffers))
    (fun (name, unk1, final_frame_index, unk2, unk3, tracks, buffers) => ⟨name, unk1, final_frame_index, unk2, unk3, tracks, buffers⟩)

/-- The fields of `Anim::V20`, /repo/ssbh_lib/src/formats/anim.rs:28-72 -/
def Anim.V20Data.json : JCodec Anim.V20Data :=
  JCodec.struct (.and (.field "final_frame_index" JCodec.f32) (.and (.field "unk1" JCodec.u16) (.and (.field "unk2" JCodec.u16) (.and (.field "name" JCodec.ssbhString) (.and (.field "groups" (JCodec.array Anim.Group.json)) (.field "buffer" JCodec.hex))))))
    (fun v => (v.final_frame_index, v.unk1, v.unk2, v.name, v.groups, v.buffer))
    (fun (final_frame_index, unk1, unk2, name, groups, buffer) => ⟨final_frame_index, unk1, unk2, name, groups, buffer⟩)

/-- The fields of `Anim::V21`, /repo/ssbh_lib/src/formats/anim.rs:28-72 -/
def Anim.V21Data.json : JCodec Anim.V21Data :=
  JCodec.struct (.and (.field "final_frame_index" JCodec.f32) (.and (.field "unk1" JCodec.u16) (.and (.field "unk2" JCodec.u16) (.and (.field "name" JCodec.ssbhString) (.and (.field "groups" (JCodec.array Anim.Group.json)) (.and (.field "buffer" JCodec.hex) (.field "unk_data" Anim.UnkData.json)))))))
    (fun v => (v.final_frame_index, v.unk1, v.unk2, v.name, v.groups, v.buffer, v.unk_data))
    (fun (final_frame_index, unk1, unk2, name, groups, buffer, unk_data) => ⟨final_frame_index, unk1, unk2, name, groups, buffer, unk_data⟩)

/-- /repo/ssbh_lib/src/formats/anim.rs:28-72 -/
def Anim.json : JCodec Anim where
  ser
    | .V12 v => .obj [("V12", Anim.V12Data.json.ser v)]
    | .V20 v => .obj [("V20", Anim.V20Data.json.ser v)]
    | .V21 v => .obj [("V21", Anim.V21Data.json.ser v)]
  de
    | .obj [(n, j)] =>
      if n = "V12" then (Anim.V12Data.json.de j).map .V12
      else if n = "V20" then (Anim.V20Data.json.de j).map .V20
      else if n = "V21" then (Anim.V21Data.json.de j).map .V21
      else none
    | _ => none
  miss := none

/-- /repo/ssbh_lib/src/formats/mesh.rs:129-132 -/
def Mesh.BoundingSphere.json : JCodec Mesh.BoundingSphere :=
  JCodec.struct (.and (.field "center" Vector3.json) (.field "radius" JCodec.f32))
    (fun v => (v.center, v.radius))
    (fun (center, radius) => ⟨center, radius⟩)

/-- /repo/ssbh_lib/src/formats/mesh.rs:139-142 -/
def Mesh.BoundingVolume.json : JCodec Mesh.BoundingVolume :=
  JCodec.struct (.and (.field "min" Vector3.json) (.field "max" Vector3.json))
    (fun v => (v.min, v.max))
    (fun (min, max) => ⟨min, max⟩)

/-- /repo/ssbh_lib/src/formats/mesh.rs:147-151 -/
def Mesh.OrientedBoundingBox.json : JCodec Mesh.OrientedBoundingBox :=
  JCodec.struct (.and (.field "center" Vector3.json) (.and (.field "transform" Matrix3x3.json) (.field "size" Vector3.json)))
    (fun v => (v.center, v.transform, v.size))
    (fun (center, transform, size) => ⟨center, transform, size⟩)

/-- /repo/ssbh_lib/src/formats/mesh.rs:120-124 -/
def Mesh.BoundingInfo.json : JCodec Mesh.BoundingInfo :=
  JCodec.struct (.and (.field "bounding_sphere" Mesh.BoundingSphere.json) (.and (.field "bounding_volume" Mesh.BoundingVolume.json) (.field "oriented_bounding_box" Mesh.OrientedBoundingBox.json)))
    (fun v => (v.bounding_sphere, v.bounding_volume, v.oriented_bounding_box))
    (fun (bounding_sphere, bounding_volume, oriented_bounding_box) => ⟨bounding_sphere, bounding_volume, oriented_bounding_box⟩)

/-- The names of the variants: /repo/ssbh_lib/src/formats/mesh.rs:288-293 -/
def Mesh.DrawElementType.names : List String :=
  ["UnsignedShort", "UnsignedInt"]

def Mesh.DrawElementType.json : JCodec Mesh.DrawElementType := JCodec.enumNames Mesh.DrawElementType.names [0, 1]

/-- /repo/ssbh_lib/src/formats/mesh.rs:274-280 -/
def Mesh.DepthFlags.json : JCodec Mesh.DepthFlags :=
  JCodec.struct (.and (.field "disable_depth_write" JCodec.u8) (.field "disable_depth_test" JCodec.u8))
    (fun v => (v.disable_depth_write, v.disable_depth_test))
    (fun (disable_depth_write, disable_depth_test) => ⟨disable_depth_write, disable_depth_test⟩)

/-- /repo/ssbh_lib/src/formats/mesh.rs:222-267 -/
def Mesh.MeshObject.json {A : Type} (aJ : JCodec A) : JCodec (Mesh.MeshObject A) :=
  JCodec.struct (.and (.field "name" JCodec.ssbhString) (.and (.field "subindex" JCodec.u64) (.and (.field "parent_bone_name" JCodec.ssbhString) (.and (.field "vertex_count" JCodec.u32) (.and (.field "vertex_index_count" JCodec.u32) (.and (.field "unk2" JCodec.u32) (.and (.field "vertex_buffer0_offset" JCodec.u32) (.and (.field "vertex_buffer1_offset" JCodec.u32) (.and (.field "vertex_buffer2_offset" JCodec.u32) (.and (.field "vertex_buffer3_offset" JCodec.u32) (.and (.field "stride0" JCodec.u32) (.and (.field "stride1" JCodec.u32) (.and (.field "stride2" JCodec.u32) (.and (.field "stride3" JCodec.u32) (.and (.field "index_buffer_offset" JCodec.u32) (.and (.field "unk8" JCodec.u32) (.and (.field "draw_element_type" Mesh.DrawElementType.json) (.and (.field "use_vertex_skinning" JCodec.u32) (.and (.field "sort_bias" JCodec.i32) (.and (.field "depth_flags" Mesh.DepthFlags.json) (.and (.field "bounding_info" Mesh.BoundingInfo.json) (.field "attributes" (JCodec.array aJ)))))))))))))))))))))))
    (fun v => (v.name, v.subindex, v.parent_bone_name, v.vertex_count, v.vertex_index_count, v.unk2, v.vertex_buffer0_offset, v.vertex_buffer1_offset, v.vertex_buffer2_offset, v.vertex_buffer3_offset, v.stride0, v.stride1, v.stride2, v.stride3, v.index_buffer_offset, v.unk8, v.draw_element_type, v.use_vertex_skinning, v.sort_bias, v.depth_flags, v.bounding_info, v.attributes))
    (fun (name, subindex, parent_bone_name, vertex_count, vertex_index_count, unk2, vertex_buffer0_offset, vertex_buffer1_offset, vertex_buffer2_offset, vertex_buffer3_offset, stride0, stride1, stride2, stride3, index_buffer_offset, unk8, draw_element_type, use_vertex_skinning, sort_bias, depth_flags, bounding_info, attributes) => ⟨name, subindex, parent_bone_name, vertex_count, vertex_index_count, unk2, vertex_buffer0_offset, vertex_buffer1_offset, vertex_buffer2_offset, vertex_buffer3_offset, stride0, stride1, stride2, stride3, index_buffer_offset, unk8, draw_element_type, use_vertex_skinning, sort_bias, depth_flags, bounding_info, attributes⟩)

/-- /repo/ssbh_lib/src/formats/mesh.rs:157-164 -/
def Mesh.RiggingFlags.json : JCodec Mesh.RiggingFlags :=
  JCodec.struct (.and (.field "max_influences" JCodec.u8) (.field "unk1" JCodec.u8))
    (fun v => (v.max_influences, v.unk1))
    (fun (max_influences, unk1) => ⟨max_influences, unk1⟩)

/-- /repo/ssbh_lib/src/formats/mesh.rs:169-172 -/
def Mesh.BoneBuffer.json {W2 : Type} (w2J : JCodec W2) : JCodec (Mesh.BoneBuffer W2) :=
  JCodec.struct (.and (.field "bone_name" JCodec.ssbhString) (.field "data" w2J))
    (fun v => (v.bone_name, v.data))
    (fun (bone_name, data) => ⟨bone_name, data⟩)

/-- /repo/ssbh_lib/src/formats/mesh.rs:179-184 -/
def Mesh.RiggingGroup.json {W3 : Type} (w3J : JCodec W3) : JCodec (Mesh.RiggingGroup W3) :=
  JCodec.struct (.and (.field "mesh_object_name" JCodec.ssbhString) (.and (.field "mesh_object_subindex" JCodec.u64) (.and (.field "flags" Mesh.RiggingFlags.json) (.field "buffers" (JCodec.array (Mesh.BoneBuffer.json w3J))))))
    (fun v => (v.mesh_object_name, v.mesh_object_subindex, v.flags, v.buffers))
    (fun (mesh_object_name, mesh_object_subindex, flags, buffers) => ⟨mesh_object_name, mesh_object_subindex, flags, buffers⟩)

/-- /repo/ssbh_lib/src/formats/mesh.rs:56-75 -/
def Mesh.MeshInner.json {A : Type} {W1 : Type} (aJ : JCodec A) (w1J : JCodec W1) : JCodec (Mesh.MeshInner A W1) :=
  JCodec.struct (.and (.field "model_name" JCodec.ssbhString) (.and (.field "bounding_info" Mesh.BoundingInfo.json) (.and (.field "unk1" JCodec.u32) (.and (.field "objects" (JCodec.array (Mesh.MeshObject.json aJ))) (.and (.field "buffer_sizes" (JCodec.array JCodec.u32)) (.and (.field "polygon_index_size" JCodec.u64) (.and (.field "vertex_buffers" (JCodec.array JCodec.hex)) (.and (.field "index_buffer" JCodec.hex) (.field "rigging_buffers" (JCodec.array (Mesh.RiggingGroup.json w1J)))))))))))
    (fun v => (v.model_name, v.bounding_info, v.unk1, v.objects, v.buffer_sizes, v.polygon_index_size, v.vertex_buffers, v.index_buffer, v.rigging_buffers))
    (fun (model_name, bounding_info, unk1, objects, buffer_sizes, polygon_index_size, vertex_buffers, index_buffer, rigging_buffers) => ⟨model_name, bounding_info, unk1, objects, buffer_sizes, polygon_index_size, vertex_buffers, index_buffer, rigging_buffers⟩)

/-- The names of the variants: /repo/ssbh_lib/src/formats/mesh.rs:362-368 -/
def Mesh.AttributeUsageV8.names : List String :=
  ["Position", "Normal", "Tangent", "TextureCoordinate", "ColorSet"]

def Mesh.AttributeUsageV8.json : JCodec Mesh.AttributeUsageV8 := JCodec.enumNames Mesh.AttributeUsageV8.names [0, 1, 3, 4, 8]

/-- The names of the variants: /repo/ssbh_lib/src/formats/mesh.rs:324-335 -/
def Mesh.AttributeDataTypeV8.names : List String :=
  ["Float3", "Float4", "HalfFloat4", "Float2", "Byte4"]

def Mesh.AttributeDataTypeV8.json : JCodec Mesh.AttributeDataTypeV8 := JCodec.enumNames Mesh.AttributeDataTypeV8.names [820, 1076, 1077, 1079, 1024]

/-- /repo/ssbh_lib/src/formats/mesh.rs:80-87 -/
def Mesh.AttributeV8.json : JCodec Mesh.AttributeV8 :=
  JCodec.struct (.and (.field "usage" Mesh.AttributeUsageV8.json) (.and (.field "data_type" Mesh.AttributeDataTypeV8.json) (.and (.field "buffer_index" JCodec.u32) (.and (.field "buffer_offset" JCodec.u32) (.field "subindex" JCodec.u32)))))
    (fun v => (v.usage, v.data_type, v.buffer_index, v.buffer_offset, v.subindex))
    (fun (usage, data_type, buffer_index, buffer_offset, subindex) => ⟨usage, data_type, buffer_index, buffer_offset, subindex⟩)

/-- /repo/ssbh_lib/src/formats/mesh.rs:205-208 -/
def Mesh.VertexWeightV8.json : JCodec Mesh.VertexWeightV8 :=
  JCodec.struct (.and (.field "vertex_index" JCodec.u32) (.field "vertex_weight" JCodec.f32))
    (fun v => (v.vertex_index, v.vertex_weight))
    (fun (vertex_index, vertex_weight) => ⟨vertex_index, vertex_weight⟩)

/-- The names of the variants: /repo/ssbh_lib/src/formats/mesh.rs:346-353 -/
def Mesh.AttributeUsageV9.names : List String :=
  ["Position", "Normal", "Binormal", "Tangent", "TextureCoordinate", "ColorSet"]

def Mesh.AttributeUsageV9.json : JCodec Mesh.AttributeUsageV9 := JCodec.enumNames Mesh.AttributeUsageV9.names [0, 1, 2, 3, 4, 5]

/-- /repo/ssbh_lib/src/formats/mesh.rs:92-101 -/
def Mesh.AttributeV9.json : JCodec Mesh.AttributeV9 :=
  JCodec.struct (.and (.field "usage" Mesh.AttributeUsageV9.json) (.and (.field "data_type" Mesh.AttributeDataTypeV8.json) (.and (.field "buffer_index" JCodec.u32) (.and (.field "buffer_offset" JCodec.u32) (.and (.field "subindex" JCodec.u64) (.and (.field "name" JCodec.ssbhString) (.field "attribute_names" (JCodec.array JCodec.ssbhString))))))))
    (fun v => (v.usage, v.data_type, v.buffer_index, v.buffer_offset, v.subindex, v.name, v.attribute_names))
    (fun (usage, data_type, buffer_index, buffer_offset, subindex, name, attribute_names) => ⟨usage, data_type, buffer_index, buffer_offset, subindex, name, attribute_names⟩)

/-- The names of the variants: /repo/ssbh_lib/src/formats/mesh.rs:302-315 -/
def Mesh.AttributeDataTypeV10.names : List String :=
  ["Float3", "Byte4", "Float4", "HalfFloat4", "Float2", "HalfFloat2"]

def Mesh.AttributeDataTypeV10.json : JCodec Mesh.AttributeDataTypeV10 := JCodec.enumNames Mesh.AttributeDataTypeV10.names [0, 2, 4, 5, 7, 8]

/-- /repo/ssbh_lib/src/formats/mesh.rs:106-115 -/
def Mesh.AttributeV10.json : JCodec Mesh.AttributeV10 :=
  JCodec.struct (.and (.field "usage" Mesh.AttributeUsageV9.json) (.and (.field "data_type" Mesh.AttributeDataTypeV10.json) (.and (.field "buffer_index" JCodec.u32) (.and (.field "buffer_offset" JCodec.u32) (.and (.field "subindex" JCodec.u64) (.and (.field "name" JCodec.ssbhString) (.field "attribute_names" (JCodec.array JCodec.ssbhString))))))))
    (fun v => (v.usage, v.data_type, v.buffer_index, v.buffer_offset, v.subindex, v.name, v.attribute_names))
    (fun (usage, data_type, buffer_index, buffer_offset, subindex, name, attribute_names) => ⟨usage, data_type, buffer_index, buffer_offset, subindex, name, attribute_names⟩)

/-- /repo/ssbh_lib/src/formats/mesh.rs:26-41 -/
def Mesh.json : JCodec Mesh where
  ser
    | .V8 v => .obj [("V8", (Mesh.MeshInner.json Mesh.AttributeV8.json (JCodec.array Mesh.VertexWeightV8.json)).ser v)]
    | .V9 v => .obj [("V9", (Mesh.MeshInner.json Mesh.AttributeV9.json (JCodec.array Mesh.VertexWeightV8.json)).ser v)]
    | .V10 v => .obj [("V10", (Mesh.MeshInner.json Mesh.AttributeV10.json JCodec.hex).ser v)]
  de
    | .obj [(n, j)] =>
      if n = "V8" then ((Mesh.MeshInner.json Mesh.AttributeV8.json (JCodec.array Mesh.VertexWeightV8.json)).de j).map .V8
      else if n = "V9" then ((Mesh.MeshInner.json Mesh.AttributeV9.json (JCodec.array Mesh.VertexWeightV8.json)).de j).map .V9
      else if n = "V10" then ((Mesh.MeshInner.json Mesh.AttributeV10.json JCodec.hex).de j).map .V10
      else none
    | _ => none
  miss := none

/-- The names of the variants: /repo/ssbh_lib/src/formats/matl.rs:147-516 -/
def Matl.ParamId.names : List String :=
  ["Diffuse", "Specular", "Ambient", "BlendMap", "Transparency", "DiffuseMapLayer1", "CosinePower", "SpecularPower",
   "Fresnel", "Roughness", "EmissiveScale", "EnableDiffuse", "EnableSpecular", "EnableAmbient", "DiffuseMapLayer2",
   "EnableTransparency", "EnableOpacity", "EnableCosinePower", "EnableSpecularPower", "EnableFresnel",
   "EnableRoughness", "EnableEmissiveScale", "WorldMatrix", "ViewMatrix", "ProjectionMatrix", "WorldViewMatrix",
   "ViewInverseMatrix", "ViewProjectionMatrix", "WorldViewProjectionMatrix", "WorldInverseTransposeMatrix",
   "DiffuseMap", "SpecularMap", "AmbientMap", "EmissiveMap", "SpecularMapLayer1", "TransparencyMap", "NormalMap",
   "DiffuseCubeMap", "ReflectionMap", "ReflectionCubeMap", "RefractionMap", "AmbientOcclusionMap", "LightMap",
   "AnisotropicMap", "RoughnessMap", "ReflectionMask", "OpacityMask", "UseDiffuseMap", "UseSpecularMap",
   "UseAmbientMap", "UseEmissiveMap", "UseTranslucencyMap", "UseTransparencyMap", "UseNormalMap",
   "UseDiffuseCubeMap", "UseReflectionMap", "UseReflectionCubeMap", "UseRefractionMap", "UseAmbientOcclusionMap",
   "UseLightMap", "UseAnisotropicMap", "UseRoughnessMap", "UseReflectionMask", "UseOpacityMask", "DiffuseSampler",
   "SpecularSampler", "NormalSampler", "ReflectionSampler", "SpecularMapLayer2", "NormalMapLayer1", "NormalMapBc5",
   "NormalMapLayer2", "RoughnessMapLayer1", "RoughnessMapLayer2", "UseDiffuseUvTransform1", "UseDiffuseUvTransform2",
   "UseSpecularUvTransform1", "UseSpecularUvTransform2", "UseNormalUvTransform1", "UseNormalUvTransform2",
   "ShadowDepthBias", "ShadowMap0", "ShadowMap1", "ShadowMap2", "ShadowMap3", "ShadowMap4", "ShadowMap5",
   "ShadowMap6", "ShadowMap7", "CastShadow", "ReceiveShadow", "ShadowMapSampler", "Texture0", "Texture1", "Texture2",
   "Texture3", "Texture4", "Texture5", "Texture6", "Texture7", "Texture8", "Texture9", "Texture10", "Texture11",
   "Texture12", "Texture13", "Texture14", "Texture15", "Sampler0", "Sampler1", "Sampler2", "Sampler3", "Sampler4",
   "Sampler5", "Sampler6", "Sampler7", "Sampler8", "Sampler9", "Sampler10", "Sampler11", "Sampler12", "Sampler13",
   "Sampler14", "Sampler15", "CustomBuffer0", "CustomBuffer1", "CustomBuffer2", "CustomBuffer3", "CustomBuffer4",
   "CustomBuffer5", "CustomBuffer6", "CustomBuffer7", "CustomMatrix0", "CustomMatrix1", "CustomMatrix2",
   "CustomMatrix3", "CustomMatrix4", "CustomMatrix5", "CustomMatrix6", "CustomMatrix7", "CustomMatrix8",
   "CustomMatrix9", "CustomMatrix10", "CustomMatrix11", "CustomMatrix12", "CustomMatrix13", "CustomMatrix14",
   "CustomMatrix15", "CustomMatrix16", "CustomMatrix17", "CustomMatrix18", "CustomMatrix19", "CustomVector0",
   "CustomVector1", "CustomVector2", "CustomVector3", "CustomVector4", "CustomVector5", "CustomVector6",
   "CustomVector7", "CustomVector8", "CustomVector9", "CustomVector10", "CustomVector11", "CustomVector12",
   "CustomVector13", "CustomVector14", "CustomVector15", "CustomVector16", "CustomVector17", "CustomVector18",
   "CustomVector19", "CustomColor0", "CustomColor1", "CustomColor2", "CustomColor3", "CustomColor4", "CustomColor5",
   "CustomColor6", "CustomColor7", "CustomColor8", "CustomColor9", "CustomColor10", "CustomColor11", "CustomColor12",
   "CustomColor13", "CustomColor14", "CustomColor15", "CustomColor16", "CustomColor17", "CustomColor18",
   "CustomColor19", "CustomFloat0", "CustomFloat1", "CustomFloat2", "CustomFloat3", "CustomFloat4", "CustomFloat5",
   "CustomFloat6", "CustomFloat7", "CustomFloat8", "CustomFloat9", "CustomFloat10", "CustomFloat11", "CustomFloat12",
   "CustomFloat13", "CustomFloat14", "CustomFloat15", "CustomFloat16", "CustomFloat17", "CustomFloat18",
   "CustomFloat19", "CustomInteger0", "CustomInteger1", "CustomInteger2", "CustomInteger3", "CustomInteger4",
   "CustomInteger5", "CustomInteger6", "CustomInteger7", "CustomInteger8", "CustomInteger9", "CustomInteger10",
   "CustomInteger11", "CustomInteger12", "CustomInteger13", "CustomInteger14", "CustomInteger15", "CustomInteger16",
   "CustomInteger17", "CustomInteger18", "CustomInteger19", "CustomBoolean0", "CustomBoolean1", "CustomBoolean2",
   "CustomBoolean3", "CustomBoolean4", "CustomBoolean5", "CustomBoolean6", "CustomBoolean7", "CustomBoolean8",
   "CustomBoolean9", "CustomBoolean10", "CustomBoolean11", "CustomBoolean12", "CustomBoolean13", "CustomBoolean14",
   "CustomBoolean15", "CustomBoolean16", "CustomBoolean17", "CustomBoolean18", "CustomBoolean19", "UvTransform0",
   "UvTransform1", "UvTransform2", "UvTransform3", "UvTransform4", "UvTransform5", "UvTransform6", "UvTransform7",
   "UvTransform8", "UvTransform9", "UvTransform10", "UvTransform11", "UvTransform12", "UvTransform13",
   "UvTransform14", "UvTransform15", "DiffuseUvTransform1", "DiffuseUvTransform2", "SpecularUvTransform1",
   "SpecularUvTransform2", "NormalUvTransform1", "NormalUvTransform2", "DiffuseUvTransform", "SpecularUvTransform",
   "NormalUvTransform", "UseDiffuseUvTransform", "UseSpecularUvTransform", "UseNormalUvTransform", "BlendState0",
   "BlendState1", "BlendState2", "BlendState3", "BlendState4", "BlendState5", "BlendState6", "BlendState7",
   "BlendState8", "BlendState9", "BlendState10", "RasterizerState0", "RasterizerState1", "RasterizerState2",
   "RasterizerState3", "RasterizerState4", "RasterizerState5", "RasterizerState6", "RasterizerState7",
   "RasterizerState8", "RasterizerState9", "RasterizerState10", "ShadowColor", "EmissiveMapLayer1",
   "EmissiveMapLayer2", "AlphaTestFunc", "AlphaTestRef", "Texture16", "Texture17", "Texture18", "Texture19",
   "Sampler16", "Sampler17", "Sampler18", "Sampler19", "CustomVector20", "CustomVector21", "CustomVector22",
   "CustomVector23", "CustomVector24", "CustomVector25", "CustomVector26", "CustomVector27", "CustomVector28",
   "CustomVector29", "CustomVector30", "CustomVector31", "CustomVector32", "CustomVector33", "CustomVector34",
   "CustomVector35", "CustomVector36", "CustomVector37", "CustomVector38", "CustomVector39", "CustomVector40",
   "CustomVector41", "CustomVector42", "CustomVector43", "CustomVector44", "CustomVector45", "CustomVector46",
   "CustomVector47", "CustomVector48", "CustomVector49", "CustomVector50", "CustomVector51", "CustomVector52",
   "CustomVector53", "CustomVector54", "CustomVector55", "CustomVector56", "CustomVector57", "CustomVector58",
   "CustomVector59", "CustomVector60", "CustomVector61", "CustomVector62", "CustomVector63", "UseBaseColorMap",
   "UseMetallicMap", "BaseColorMap", "BaseColorMapLayer1", "MetallicMap", "MetallicMapLayer1",
   "DiffuseLightingAoOffset"]

def Matl.ParamId.json : JCodec Matl.ParamId := JCodec.enumNames Matl.ParamId.names (List.range 366)

/-- The names of the variants: /repo/ssbh_lib/src/formats/matl.rs:571-576 -/
def Matl.WrapMode.names : List String :=
  ["Repeat", "ClampToEdge", "MirroredRepeat", "ClampToBorder"]

def Matl.WrapMode.json : JCodec Matl.WrapMode := JCodec.enumNames Matl.WrapMode.names [0, 1, 2, 3]

/-- The names of the variants: /repo/ssbh_lib/src/formats/matl.rs:584-588 -/
def Matl.MinFilter.names : List String :=
  ["Nearest", "LinearMipmapLinear", "LinearMipmapLinear2"]

def Matl.MinFilter.json : JCodec Matl.MinFilter := JCodec.enumNames Matl.MinFilter.names [0, 1, 2]

/-- The names of the variants: /repo/ssbh_lib/src/formats/matl.rs:596-600 -/
def Matl.MagFilter.names : List String :=
  ["Nearest", "Linear", "Linear2"]

def Matl.MagFilter.json : JCodec Matl.MagFilter := JCodec.enumNames Matl.MagFilter.names [0, 1, 2]

/-- The names of the variants: /repo/ssbh_lib/src/formats/matl.rs:608-612 -/
def Matl.FilteringType.names : List String :=
  ["Default", "Default2", "AnisotropicFiltering"]

def Matl.FilteringType.json : JCodec Matl.FilteringType := JCodec.enumNames Matl.FilteringType.names [0, 1, 2]

/-- The names of the variants: /repo/ssbh_lib/src/formats/matl.rs:640-646 -/
def Matl.MaxAnisotropy.names : List String :=
  ["One", "Two", "Four", "Eight", "Sixteen"]

def Matl.MaxAnisotropy.json : JCodec Matl.MaxAnisotropy := JCodec.enumNames Matl.MaxAnisotropy.names [1, 2, 4, 8, 16]

/-- /repo/ssbh_lib/src/formats/matl.rs:617-629 -/
def Matl.Sampler.json : JCodec Matl.Sampler :=
  JCodec.struct (.and (.field "wraps" Matl.WrapMode.json) (.and (.field "wrapt" Matl.WrapMode.json) (.and (.field "wrapr" Matl.WrapMode.json) (.and (.field "min_filter" Matl.MinFilter.json) (.and (.field "mag_filter" Matl.MagFilter.json) (.and (.field "texture_filtering_type" Matl.FilteringType.json) (.and (.field "border_color" Color4f.json) (.and (.field "unk11" JCodec.u32) (.and (.field "unk12" JCodec.u32) (.and (.field "lod_bias" JCodec.f32) (.field "max_anisotropy" Matl.MaxAnisotropy.json)))))))))))
    (fun v => (v.wraps, v.wrapt, v.wrapr, v.min_filter, v.mag_filter, v.texture_filtering_type, v.border_color, v.unk11, v.unk12, v.lod_bias, v.max_anisotropy))
    (fun (wraps, wrapt, wrapr, min_filter, mag_filter, texture_filtering_type, border_color, unk11, unk12, lod_bias, max_anisotropy) => ⟨wraps, wrapt, wrapr, min_filter, mag_filter, texture_filtering_type, border_color, unk11, unk12, lod_bias, max_anisotropy⟩)

/-- /repo/ssbh_lib/src/formats/matl.rs:651-657 -/
def Matl.UvTransform.json : JCodec Matl.UvTransform :=
  JCodec.struct (.and (.field "scale_u" JCodec.f32) (.and (.field "scale_v" JCodec.f32) (.and (.field "rotation" JCodec.f32) (.and (.field "translate_u" JCodec.f32) (.field "translate_v" JCodec.f32)))))
    (fun v => (v.scale_u, v.scale_v, v.rotation, v.translate_u, v.translate_v))
    (fun (scale_u, scale_v, rotation, translate_u, translate_v) => ⟨scale_u, scale_v, rotation, translate_u, translate_v⟩)

/-- The names of the variants: /repo/ssbh_lib/src/formats/matl.rs:666-679 -/
def Matl.BlendFactor.names : List String :=
  ["Zero", "One", "SourceAlpha", "DestinationAlpha", "SourceColor", "DestinationColor", "OneMinusSourceAlpha",
   "OneMinusDestinationAlpha", "OneMinusSourceColor", "OneMinusDestinationColor", "SourceAlphaSaturate"]

def Matl.BlendFactor.json : JCodec Matl.BlendFactor := JCodec.enumNames Matl.BlendFactor.names [0, 1, 2, 3, 4, 5, 6, 7, 8, 9, 10]

/-- The names of the variants: /repo/ssbh_lib/src/formats/matl.rs:688-694 -/
def Matl.BlendOperation.names : List String :=
  ["Add", "Subtract", "ReverseSubtract", "Minimum", "Maximum"]

def Matl.BlendOperation.json : JCodec Matl.BlendOperation := JCodec.enumNames Matl.BlendOperation.names [0, 1, 2, 3, 4]

/-- /repo/ssbh_lib/src/formats/matl.rs:700-711 -/
def Matl.BlendStateV15.json : JCodec Matl.BlendStateV15 :=
  JCodec.struct (.and (.field "source_color" Matl.BlendFactor.json) (.and (.field "color_operation" Matl.BlendOperation.json) (.and (.field "destination_color" Matl.BlendFactor.json) (.and (.field "source_alpha" Matl.BlendFactor.json) (.and (.field "alpha_operation" Matl.BlendOperation.json) (.and (.field "destination_alpha" Matl.BlendFactor.json) (.and (.field "unk6" JCodec.u64) (.and (.field "unk7" JCodec.u32) (.and (.field "unk8" JCodec.u32) (.field "unk9" JCodec.u32))))))))))
    (fun v => (v.source_color, v.color_operation, v.destination_color, v.source_alpha, v.alpha_operation, v.destination_alpha, v.unk6, v.unk7, v.unk8, v.unk9))
    (fun (source_color, color_operation, destination_color, source_alpha, alpha_operation, destination_alpha, unk6, unk7, unk8, unk9) => ⟨source_color, color_operation, destination_color, source_alpha, alpha_operation, destination_alpha, unk6, unk7, unk8, unk9⟩)

/-- The names of the variants: /repo/ssbh_lib/src/formats/matl.rs:537-541 -/
def Matl.CullMode.names : List String :=
  ["Back", "Front", "Disabled"]

def Matl.CullMode.json : JCodec Matl.CullMode := JCodec.enumNames Matl.CullMode.names [0, 1, 2]

/-- /repo/ssbh_lib/src/formats/matl.rs:546-548 -/
def Matl.RasterizerStateV15.json : JCodec Matl.RasterizerStateV15 :=
  JCodec.struct (.field "cull_mode" Matl.CullMode.json)
    (fun v => (v.cull_mode))
    (fun cull_mode => ⟨cull_mode⟩)

/-- /repo/ssbh_lib/src/formats/matl.rs:100-116 -/
def Matl.ParamV15.json : JCodec Matl.ParamV15 where
  ser
    | .Float v => .obj [("Float", JCodec.f32.ser v)]
    | .Boolean v => .obj [("Boolean", JCodec.u32.ser v)]
    | .Vector4 v => .obj [("Vector4", Vector4.json.ser v)]
    | .Unk7 v => .obj [("Unk7", Color4f.json.ser v)]
    | .String v => .obj [("String", JCodec.ssbhString.ser v)]
    | .Sampler v => .obj [("Sampler", Matl.Sampler.json.ser v)]
    | .UvTransform v => .obj [("UvTransform", Matl.UvTransform.json.ser v)]
    | .BlendState v => .obj [("BlendState", Matl.BlendStateV15.json.ser v)]
    | .RasterizerState v => .obj [("RasterizerState", Matl.RasterizerStateV15.json.ser v)]
  de
    | .obj [(n, j)] =>
      if n = "Float" then (JCodec.f32.de j).map .Float
      else if n = "Boolean" then (JCodec.u32.de j).map .Boolean
      else if n = "Vector4" then (Vector4.json.de j).map .Vector4
      else if n = "Unk7" then (Color4f.json.de j).map .Unk7
      else if n = "String" then (JCodec.ssbhString.de j).map .String
      else if n = "Sampler" then (Matl.Sampler.json.de j).map .Sampler
      else if n = "UvTransform" then (Matl.UvTransform.json.de j).map .UvTransform
      else if n = "BlendState" then (Matl.BlendStateV15.json.de j).map .BlendState
      else if n = "RasterizerState" then (Matl.RasterizerStateV15.json.de j).map .RasterizerState
      else none
    | _ => none
  miss := none

/-- /repo/ssbh_lib/src/formats/matl.rs:64-69 -/
def Matl.AttributeV15.json : JCodec Matl.AttributeV15 :=
  JCodec.struct (.and (.field "param_id" Matl.ParamId.json) (.field "param" (JCodec.enum64 Matl.ParamV15.json)))
    (fun v => (v.param_id, v.param))
    (fun (param_id, param) => ⟨param_id, param⟩)

/-- /repo/ssbh_lib/src/formats/matl.rs:45-57 -/
def Matl.MatlEntryV15.json : JCodec Matl.MatlEntryV15 :=
  JCodec.struct (.and (.field "material_label" JCodec.ssbhString) (.and (.field "attributes" (JCodec.array Matl.AttributeV15.json)) (.field "shader_label" JCodec.ssbhString)))
    (fun v => (v.material_label, v.attributes, v.shader_label))
    (fun (material_label, attributes, shader_label) => ⟨material_label, attributes, shader_label⟩)

/-- /repo/ssbh_lib/src/formats/matl.rs:718-730 -/
def Matl.BlendStateV16.json : JCodec Matl.BlendStateV16 :=
  JCodec.struct (.and (.field "source_color" Matl.BlendFactor.json) (.and (.field "color_operation" Matl.BlendOperation.json) (.and (.field "destination_color" Matl.BlendFactor.json) (.and (.field "source_alpha" Matl.BlendFactor.json) (.and (.field "alpha_operation" Matl.BlendOperation.json) (.and (.field "destination_alpha" Matl.BlendFactor.json) (.and (.field "alpha_sample_to_coverage" JCodec.u32) (.and (.field "unk8" JCodec.u32) (.and (.field "unk9" JCodec.u32) (.field "unk10" JCodec.u32))))))))))
    (fun v => (v.source_color, v.color_operation, v.destination_color, v.source_alpha, v.alpha_operation, v.destination_alpha, v.alpha_sample_to_coverage, v.unk8, v.unk9, v.unk10))
    (fun (source_color, color_operation, destination_color, source_alpha, alpha_operation, destination_alpha, alpha_sample_to_coverage, unk8, unk9, unk10) => ⟨source_color, color_operation, destination_color, source_alpha, alpha_operation, destination_alpha, alpha_sample_to_coverage, unk8, unk9, unk10⟩)

/-- The names of the variants: /repo/ssbh_lib/src/formats/matl.rs:525-528 -/
def Matl.FillMode.names : List String :=
  ["Line", "Solid"]

def Matl.FillMode.json : JCodec Matl.FillMode := JCodec.enumNames Matl.FillMode.names [0, 1]

/-- /repo/ssbh_lib/src/formats/matl.rs:554-561 -/
def Matl.RasterizerStateV16.json : JCodec Matl.RasterizerStateV16 :=
  JCodec.struct (.and (.field "fill_mode" Matl.FillMode.json) (.and (.field "cull_mode" Matl.CullMode.json) (.and (.field "depth_bias" JCodec.f32) (.and (.field "unk4" JCodec.f32) (.and (.field "unk5" JCodec.f32) (.field "unk6" JCodec.u32))))))
    (fun v => (v.fill_mode, v.cull_mode, v.depth_bias, v.unk4, v.unk5, v.unk6))
    (fun (fill_mode, cull_mode, depth_bias, unk4, unk5, unk6) => ⟨fill_mode, cull_mode, depth_bias, unk4, unk5, unk6⟩)

/-- /repo/ssbh_lib/src/formats/matl.rs:118-134 -/
def Matl.ParamV16.json : JCodec Matl.ParamV16 where
  ser
    | .Float v => .obj [("Float", JCodec.f32.ser v)]
    | .Boolean v => .obj [("Boolean", JCodec.u32.ser v)]
    | .Vector4 v => .obj [("Vector4", Vector4.json.ser v)]
    | .Unk7 v => .obj [("Unk7", Color4f.json.ser v)]
    | .String v => .obj [("String", JCodec.ssbhString.ser v)]
    | .Sampler v => .obj [("Sampler", Matl.Sampler.json.ser v)]
    | .UvTransform v => .obj [("UvTransform", Matl.UvTransform.json.ser v)]
    | .BlendState v => .obj [("BlendState", Matl.BlendStateV16.json.ser v)]
    | .RasterizerState v => .obj [("RasterizerState", Matl.RasterizerStateV16.json.ser v)]
  de
    | .obj [(n, j)] =>
      if n = "Float" then (JCodec.f32.de j).map .Float
      else if n = "Boolean" then (JCodec.u32.de j).map .Boolean
      else if n = "Vector4" then (Vector4.json.de j).map .Vector4
      else if n = "Unk7" then (Color4f.json.de j).map .Unk7
      else if n = "String" then (JCodec.ssbhString.de j).map .String
      else if n = "Sampler" then (Matl.Sampler.json.de j).map .Sampler
      else if n = "UvTransform" then (Matl.UvTransform.json.de j).map .UvTransform
      else if n = "BlendState" then (Matl.BlendStateV16.json.de j).map .BlendState
      else if n = "RasterizerState" then (Matl.RasterizerStateV16.json.de j).map .RasterizerState
      else none
    | _ => none
  miss := none

/-- /repo/ssbh_lib/src/formats/matl.rs:93-98 -/
def Matl.AttributeV16.json : JCodec Matl.AttributeV16 :=
  JCodec.struct (.and (.field "param_id" Matl.ParamId.json) (.field "param" (JCodec.enum64 Matl.ParamV16.json)))
    (fun v => (v.param_id, v.param))
    (fun (param_id, param) => ⟨param_id, param⟩)

/-- /repo/ssbh_lib/src/formats/matl.rs:75-87 -/
def Matl.MatlEntryV16.json : JCodec Matl.MatlEntryV16 :=
  JCodec.struct (.and (.field "material_label" JCodec.ssbhString) (.and (.field "attributes" (JCodec.array Matl.AttributeV16.json)) (.field "shader_label" JCodec.ssbhString)))
    (fun v => (v.material_label, v.attributes, v.shader_label))
    (fun (material_label, attributes, shader_label) => ⟨material_label, attributes, shader_label⟩)

/-- The fields of `Matl::V15`, /repo/ssbh_lib/src/formats/matl.rs:25-30 -/
def Matl.V15Data.json : JCodec Matl.V15Data :=
  JCodec.struct (.field "entries" (JCodec.array Matl.MatlEntryV15.json))
    (fun v => (v.entries))
    (fun entries => ⟨entries⟩)

/-- The fields of `Matl::V16`, /repo/ssbh_lib/src/formats/matl.rs:25-30 -/
def Matl.V16Data.json : JCodec Matl.V16Data :=
  JCodec.struct (.field "entries" (JCodec.array Matl.MatlEntryV16.json))
    (fun v => (v.entries))
    (fun entries => ⟨entries⟩)

/-- /repo/ssbh_lib/src/formats/matl.rs:25-30 -/
def Matl.json : JCodec Matl where
  ser
    | .V15 v => .obj [("V15", Matl.V15Data.json.ser v)]
    | .V16 v => .obj [("V16", Matl.V16Data.json.ser v)]
  de
    | .obj [(n, j)] =>
      if n = "V15" then (Matl.V15Data.json.de j).map .V15
      else if n = "V16" then (Matl.V16Data.json.de j).map .V16
      else none
    | _ => none
  miss := none

/-- The names of the variants: /repo/ssbh_lib/src/formats/nrpd.rs:74-87 -/
def Nrpd.UnkFormat.names : List String :=
  ["UnkFormat0", "UnkFormat1", "UnkFormat2", "UnkFormat3", "UnkFormat4", "UnkFormat5", "UnkFormat6", "UnkFormat7",
   "UnkFormat8", "UnkFormat9", "UnkFormat10", "UnkFormat11"]

def Nrpd.UnkFormat.json : JCodec Nrpd.UnkFormat := JCodec.enumNames Nrpd.UnkFormat.names [256, 308, 324, 528, 532, 582, 801, 836, 1024, 1025, 1029, 1088]

/-- /repo/ssbh_lib/src/formats/nrpd.rs:92-99 -/
def Nrpd.Framebuffer0.json : JCodec Nrpd.Framebuffer0 :=
  JCodec.struct (.and (.field "name" JCodec.ssbhString) (.and (.field "width" JCodec.u32) (.and (.field "height" JCodec.u32) (.and (.field "unk1" Nrpd.UnkFormat.json) (.and (.field "unk2" JCodec.u32) (.field "unk3" JCodec.u32))))))
    (fun v => (v.name, v.width, v.height, v.unk1, v.unk2, v.unk3))
    (fun (name, width, height, unk1, unk2, unk3) => ⟨name, width, height, unk1, unk2, unk3⟩)

/-- /repo/ssbh_lib/src/formats/nrpd.rs:104-111 -/
def Nrpd.Framebuffer1.json : JCodec Nrpd.Framebuffer1 :=
  JCodec.struct (.and (.field "name" JCodec.ssbhString) (.and (.field "width" JCodec.u32) (.and (.field "height" JCodec.u32) (.and (.field "unk1" JCodec.u64) (.and (.field "unk2" JCodec.u32) (.field "unk3" JCodec.u32))))))
    (fun v => (v.name, v.width, v.height, v.unk1, v.unk2, v.unk3))
    (fun (name, width, height, unk1, unk2, unk3) => ⟨name, width, height, unk1, unk2, unk3⟩)

/-- /repo/ssbh_lib/src/formats/nrpd.rs:116-121 -/
def Nrpd.UniformBuffer.json : JCodec Nrpd.UniformBuffer :=
  JCodec.struct (.and (.field "name" JCodec.ssbhString) (.and (.field "unk1" JCodec.u32) (.and (.field "unk2" JCodec.u32) (.field "unk3" JCodec.u64))))
    (fun v => (v.name, v.unk1, v.unk2, v.unk3))
    (fun (name, unk1, unk2, unk3) => ⟨name, unk1, unk2, unk3⟩)

/-- /repo/ssbh_lib/src/formats/nrpd.rs:126-134 -/
def Nrpd.Framebuffer3.json : JCodec Nrpd.Framebuffer3 :=
  JCodec.struct (.and (.field "name" JCodec.ssbhString) (.and (.field "width" JCodec.u32) (.and (.field "height" JCodec.u32) (.and (.field "unk1" JCodec.u32) (.and (.field "unk2" JCodec.u32) (.and (.field "unk3" JCodec.u32) (.field "unk4" JCodec.u32)))))))
    (fun v => (v.name, v.width, v.height, v.unk1, v.unk2, v.unk3, v.unk4))
    (fun (name, width, height, unk1, unk2, unk3, unk4) => ⟨name, width, height, unk1, unk2, unk3, unk4⟩)

/-- /repo/ssbh_lib/src/formats/nrpd.rs:139-144 -/
def Nrpd.Framebuffer4.json : JCodec Nrpd.Framebuffer4 :=
  JCodec.struct (.and (.field "name" JCodec.ssbhString) (.and (.field "width" JCodec.u32) (.and (.field "height" JCodec.u32) (.field "unk3" JCodec.u64))))
    (fun v => (v.name, v.width, v.height, v.unk3))
    (fun (name, width, height, unk3) => ⟨name, width, height, unk3⟩)

/-- /repo/ssbh_lib/src/formats/nrpd.rs:57-64 -/
def Nrpd.FrameBuffer.json : JCodec Nrpd.FrameBuffer where
  ser
    | .Framebuffer0 v => .obj [("Framebuffer0", Nrpd.Framebuffer0.json.ser v)]
    | .Framebuffer1 v => .obj [("Framebuffer1", Nrpd.Framebuffer1.json.ser v)]
    | .UniformBuffer v => .obj [("UniformBuffer", Nrpd.UniformBuffer.json.ser v)]
    | .Framebuffer3 v => .obj [("Framebuffer3", Nrpd.Framebuffer3.json.ser v)]
    | .Framebuffer4 v => .obj [("Framebuffer4", Nrpd.Framebuffer4.json.ser v)]
  de
    | .obj [(n, j)] =>
      if n = "Framebuffer0" then (Nrpd.Framebuffer0.json.de j).map .Framebuffer0
      else if n = "Framebuffer1" then (Nrpd.Framebuffer1.json.de j).map .Framebuffer1
      else if n = "UniformBuffer" then (Nrpd.UniformBuffer.json.de j).map .UniformBuffer
      else if n = "Framebuffer3" then (Nrpd.Framebuffer3.json.de j).map .Framebuffer3
      else if n = "Framebuffer4" then (Nrpd.Framebuffer4.json.de j).map .Framebuffer4
      else none
    | _ => none
  miss := none

/-- /repo/ssbh_lib/src/formats/nrpd.rs:149-153 -/
def Nrpd.NrpdSampler.json : JCodec Nrpd.NrpdSampler :=
  JCodec.struct (.and (.field "name" JCodec.ssbhString) (.and (.field "data" Matl.Sampler.json) (.field "unk13" JCodec.u64)))
    (fun v => (v.name, v.data, v.unk13))
    (fun (name, data, unk13) => ⟨name, data, unk13⟩)

/-- /repo/ssbh_lib/src/formats/nrpd.rs:158-167 -/
def Nrpd.NrpdRasterizerState.json : JCodec Nrpd.NrpdRasterizerState :=
  JCodec.struct (.and (.field "name" JCodec.ssbhString) (.and (.field "fill_mode" Matl.FillMode.json) (.and (.field "cull_mode" Matl.CullMode.json) (.and (.field "depth_bias" JCodec.f32) (.and (.field "unk4" JCodec.f32) (.and (.field "unk5" JCodec.f32) (.field "unk6" JCodec.u32)))))))
    (fun v => (v.name, v.fill_mode, v.cull_mode, v.depth_bias, v.unk4, v.unk5, v.unk6))
    (fun (name, fill_mode, cull_mode, depth_bias, unk4, unk5, unk6) => ⟨name, fill_mode, cull_mode, depth_bias, unk4, unk5, unk6⟩)

/-- /repo/ssbh_lib/src/formats/nrpd.rs:192-204 -/
def Nrpd.DepthState.json : JCodec Nrpd.DepthState :=
  JCodec.struct (.and (.field "name" JCodec.ssbhString) (.and (.field "unk2" JCodec.u32) (.and (.field "unk3" JCodec.u32) (.and (.field "unk4" JCodec.u32) (.and (.field "unk5" JCodec.u32) (.and (.field "unk6" JCodec.u32) (.and (.field "unk7" JCodec.u32) (.and (.field "unk8" JCodec.u64) (.and (.field "unk9" JCodec.u64) (.and (.field "unk10" JCodec.u64) (.field "unk11" JCodec.u64)))))))))))
    (fun v => (v.name, v.unk2, v.unk3, v.unk4, v.unk5, v.unk6, v.unk7, v.unk8, v.unk9, v.unk10, v.unk11))
    (fun (name, unk2, unk3, unk4, unk5, unk6, unk7, unk8, unk9, unk10, unk11) => ⟨name, unk2, unk3, unk4, unk5, unk6, unk7, unk8, unk9, unk10, unk11⟩)

/-- /repo/ssbh_lib/src/formats/nrpd.rs:172-186 -/
def Nrpd.NrpdBlendState.json : JCodec Nrpd.NrpdBlendState :=
  JCodec.struct (.and (.field "name" JCodec.ssbhString) (.and (.field "source_color" Matl.BlendFactor.json) (.and (.field "unk2" JCodec.u32) (.and (.field "destination_color" Matl.BlendFactor.json) (.and (.field "unk4" JCodec.u32) (.and (.field "unk5" JCodec.u32) (.and (.field "unk6" JCodec.u32) (.and (.field "alpha_sample_to_coverage" JCodec.u32) (.and (.field "unk8" JCodec.u32) (.and (.field "unk9" JCodec.u32) (.field "unk10" JCodec.u32)))))))))))
    (fun v => (v.name, v.source_color, v.unk2, v.destination_color, v.unk4, v.unk5, v.unk6, v.alpha_sample_to_coverage, v.unk8, v.unk9, v.unk10))
    (fun (name, source_color, unk2, destination_color, unk4, unk5, unk6, alpha_sample_to_coverage, unk8, unk9, unk10) => ⟨name, source_color, unk2, destination_color, unk4, unk5, unk6, alpha_sample_to_coverage, unk8, unk9, unk10⟩)

/-- /repo/ssbh_lib/src/formats/nrpd.rs:206-212 -/
def Nrpd.State.json : JCodec Nrpd.State where
  ser
    | .Sampler v => .obj [("Sampler", Nrpd.NrpdSampler.json.ser v)]
    | .RasterizerState v => .obj [("RasterizerState", Nrpd.NrpdRasterizerState.json.ser v)]
    | .DepthState v => .obj [("DepthState", Nrpd.DepthState.json.ser v)]
    | .BlendState v => .obj [("BlendState", Nrpd.NrpdBlendState.json.ser v)]
  de
    | .obj [(n, j)] =>
      if n = "Sampler" then (Nrpd.NrpdSampler.json.de j).map .Sampler
      else if n = "RasterizerState" then (Nrpd.NrpdRasterizerState.json.de j).map .RasterizerState
      else if n = "DepthState" then (Nrpd.DepthState.json.de j).map .DepthState
      else if n = "BlendState" then (Nrpd.NrpdBlendState.json.de j).map .BlendState
      else none
    | _ => none
  miss := none

/-- /repo/ssbh_lib/src/formats/nrpd.rs:237-241 -/
def Nrpd.RenderPassData0.json : JCodec Nrpd.RenderPassData0 :=
  JCodec.struct (.and (.field "unk1" JCodec.ssbhString) (.and (.field "unk2" JCodec.ssbhString) (.field "unk3" JCodec.u64)))
    (fun v => (v.unk1, v.unk2, v.unk3))
    (fun (unk1, unk2, unk3) => ⟨unk1, unk2, unk3⟩)

/-- /repo/ssbh_lib/src/formats/nrpd.rs:246-249 -/
def Nrpd.RenderPassData1.json : JCodec Nrpd.RenderPassData1 :=
  JCodec.struct (.and (.field "unk1" JCodec.ssbhString) (.field "unk2" JCodec.ssbhString))
    (fun v => (v.unk1, v.unk2))
    (fun (unk1, unk2) => ⟨unk1, unk2⟩)

/-- /repo/ssbh_lib/src/formats/nrpd.rs:254-262 -/
def Nrpd.RenderPassData2.json : JCodec Nrpd.RenderPassData2 :=
  JCodec.struct (.and (.field "unk1" JCodec.ssbhString) (.and (.field "unk2" JCodec.ssbhString) (.and (.field "unk3" (JCodec.relPtr JCodec.u64)) (.and (.field "unk4" JCodec.u64) (.and (.field "unk5" (JCodec.relPtr JCodec.u64)) (.field "unk6" JCodec.u64))))))
    (fun v => (v.unk1, v.unk2, v.unk3, v.unk4, v.unk5, v.unk6))
    (fun (unk1, unk2, unk3, unk4, unk5, unk6) => ⟨unk1, unk2, unk3, unk4, unk5, unk6⟩)

/-- /repo/ssbh_lib/src/formats/nrpd.rs:299-302 -/
def Nrpd.Unk8Data.json : JCodec Nrpd.Unk8Data :=
  JCodec.struct (.and (.field "unk1" JCodec.u32) (.field "unk2" JCodec.u32))
    (fun v => (v.unk1, v.unk2))
    (fun (unk1, unk2) => ⟨unk1, unk2⟩)

/-- /repo/ssbh_lib/src/formats/nrpd.rs:267-274 -/
def Nrpd.RenderPassData3.json : JCodec Nrpd.RenderPassData3 :=
  JCodec.struct (.and (.field "unk1" JCodec.ssbhString) (.and (.field "unk2" JCodec.ssbhString) (.and (.field "unk3" (JCodec.relPtr Nrpd.Unk8Data.json)) (.and (.field "unk4" JCodec.u64) (.and (.field "unk5" (JCodec.relPtr Nrpd.Unk8Data.json)) (.field "unk6" JCodec.u64))))))
    (fun v => (v.unk1, v.unk2, v.unk3, v.unk4, v.unk5, v.unk6))
    (fun (unk1, unk2, unk3, unk4, unk5, unk6) => ⟨unk1, unk2, unk3, unk4, unk5, unk6⟩)

/-- /repo/ssbh_lib/src/formats/nrpd.rs:279-286 -/
def Nrpd.RenderPassData8.json : JCodec Nrpd.RenderPassData8 :=
  JCodec.struct (.and (.field "unk1" JCodec.ssbhString) (.and (.field "unk2" JCodec.ssbhString) (.and (.field "unk3" (JCodec.relPtr JCodec.u64)) (.and (.field "unk4" JCodec.u64) (.and (.field "unk5" (JCodec.relPtr JCodec.u64)) (.field "unk6" JCodec.u64))))))
    (fun v => (v.unk1, v.unk2, v.unk3, v.unk4, v.unk5, v.unk6))
    (fun (unk1, unk2, unk3, unk4, unk5, unk6) => ⟨unk1, unk2, unk3, unk4, unk5, unk6⟩)

/-- /repo/ssbh_lib/src/formats/nrpd.rs:307-311 -/
def Nrpd.ColorClear.json : JCodec Nrpd.ColorClear :=
  JCodec.struct (.and (.field "name" JCodec.ssbhString) (.and (.field "color" Color4f.json) (.field "unk1" JCodec.u64)))
    (fun v => (v.name, v.color, v.unk1))
    (fun (name, color, unk1) => ⟨name, color, unk1⟩)

/-- /repo/ssbh_lib/src/formats/nrpd.rs:316-320 -/
def Nrpd.DepthStencilClear.json : JCodec Nrpd.DepthStencilClear :=
  JCodec.struct (.and (.field "name" JCodec.ssbhString) (.and (.field "depth" JCodec.f32) (.field "stencil" JCodec.u32)))
    (fun v => (v.name, v.depth, v.stencil))
    (fun (name, depth, stencil) => ⟨name, depth, stencil⟩)

/-- /repo/ssbh_lib/src/formats/nrpd.rs:325-333 -/
def Nrpd.Viewport.json : JCodec Nrpd.Viewport :=
  JCodec.struct (.and (.field "name" JCodec.ssbhString) (.and (.field "unk2" JCodec.u64) (.and (.field "width" JCodec.f32) (.and (.field "height" JCodec.f32) (.and (.field "unk_min" JCodec.f32) (.and (.field "unk_max" JCodec.f32) (.field "unk4" JCodec.u64)))))))
    (fun v => (v.name, v.unk2, v.width, v.height, v.unk_min, v.unk_max, v.unk4))
    (fun (name, unk2, width, height, unk_min, unk_max, unk4) => ⟨name, unk2, width, height, unk_min, unk_max, unk4⟩)

/-- /repo/ssbh_lib/src/formats/nrpd.rs:338-346 -/
def Nrpd.RenderPassData13.json : JCodec Nrpd.RenderPassData13 :=
  JCodec.struct (.and (.field "unk1" JCodec.ssbhString) (.and (.field "unk2" JCodec.ssbhString) (.and (.field "unk3" (JCodec.relPtr JCodec.u64)) (.and (.field "unk4" JCodec.u64) (.and (.field "unk5" (JCodec.relPtr JCodec.u64)) (.field "unk6" JCodec.u64))))))
    (fun v => (v.unk1, v.unk2, v.unk3, v.unk4, v.unk5, v.unk6))
    (fun (unk1, unk2, unk3, unk4, unk5, unk6) => ⟨unk1, unk2, unk3, unk4, unk5, unk6⟩)

/-- /repo/ssbh_lib/src/formats/nrpd.rs:382-385 -/
def Nrpd.StringPair.json : JCodec Nrpd.StringPair :=
  JCodec.struct (.and (.field "item1" JCodec.ssbhString) (.field "item2" JCodec.ssbhString))
    (fun v => (v.item1, v.item2))
    (fun (item1, item2) => ⟨item1, item2⟩)

/-- /repo/ssbh_lib/src/formats/nrpd.rs:291-294 -/
def Nrpd.RenderPassData19.json : JCodec Nrpd.RenderPassData19 :=
  JCodec.struct (.and (.field "unk1" JCodec.ssbhString) (.field "unk2" JCodec.u64))
    (fun v => (v.unk1, v.unk2))
    (fun (unk1, unk2) => ⟨unk1, unk2⟩)

/-- /repo/ssbh_lib/src/formats/nrpd.rs:215-232 -/
def Nrpd.RenderPassData.json : JCodec Nrpd.RenderPassData where
  ser
    | .FramebufferRtp v => .obj [("FramebufferRtp", Nrpd.RenderPassData0.json.ser v)]
    | .PassUnk1 v => .obj [("PassUnk1", Nrpd.RenderPassData1.json.ser v)]
    | .UnkTexture1 v => .obj [("UnkTexture1", Nrpd.RenderPassData2.json.ser v)]
    | .UnkLight v => .obj [("UnkLight", Nrpd.RenderPassData3.json.ser v)]
    | .Unk8 v => .obj [("Unk8", Nrpd.RenderPassData8.json.ser v)]
    | .ColorClear v => .obj [("ColorClear", Nrpd.ColorClear.json.ser v)]
    | .DepthStencilClear v => .obj [("DepthStencilClear", Nrpd.DepthStencilClear.json.ser v)]
    | .Viewport v => .obj [("Viewport", Nrpd.Viewport.json.ser v)]
    | .Sampler v => .obj [("Sampler", Nrpd.RenderPassData13.json.ser v)]
    | .BlendState v => .obj [("BlendState", Nrpd.StringPair.json.ser v)]
    | .RasterizerState v => .obj [("RasterizerState", Nrpd.StringPair.json.ser v)]
    | .DepthStencilState v => .obj [("DepthStencilState", Nrpd.StringPair.json.ser v)]
    | .FramebufferRenderTarget v => .obj [("FramebufferRenderTarget", JCodec.ssbhString.ser v)]
    | .FramebufferDepthStencil v => .obj [("FramebufferDepthStencil", JCodec.ssbhString.ser v)]
    | .UnkTexture2 v => .obj [("UnkTexture2", Nrpd.RenderPassData19.json.ser v)]
  de
    | .obj [(n, j)] =>
      if n = "FramebufferRtp" then (Nrpd.RenderPassData0.json.de j).map .FramebufferRtp
      else if n = "PassUnk1" then (Nrpd.RenderPassData1.json.de j).map .PassUnk1
      else if n = "UnkTexture1" then (Nrpd.RenderPassData2.json.de j).map .UnkTexture1
      else if n = "UnkLight" then (Nrpd.RenderPassData3.json.de j).map .UnkLight
      else if n = "Unk8" then (Nrpd.RenderPassData8.json.de j).map .Unk8
      else if n = "ColorClear" then (Nrpd.ColorClear.json.de j).map .ColorClear
      else if n = "DepthStencilClear" then (Nrpd.DepthStencilClear.json.de j).map .DepthStencilClear
      else if n = "Viewport" then (Nrpd.Viewport.json.de j).map .Viewport
      else if n = "Sampler" then (Nrpd.RenderPassData13.json.de j).map .Sampler
      else if n = "BlendState" then (Nrpd.StringPair.json.de j).map .BlendState
      else if n = "RasterizerState" then (Nrpd.StringPair.json.de j).map .RasterizerState
      else if n = "DepthStencilState" then (Nrpd.StringPair.json.de j).map .DepthStencilState
      else if n = "FramebufferRenderTarget" then (JCodec.ssbhString.de j).map .FramebufferRenderTarget
      else if n = "FramebufferDepthStencil" then (JCodec.ssbhString.de j).map .FramebufferDepthStencil
      else if n = "UnkTexture2" then (Nrpd.RenderPassData19.json.de j).map .UnkTexture2
      else none
    | _ => none
  miss := none

/-- /repo/ssbh_lib/src/formats/nrpd.rs:370-377 -/
def Nrpd.Unk3Data.json : JCodec Nrpd.Unk3Data :=
  JCodec.struct (.and (.field "unk1" JCodec.ssbhString) (.and (.field "unk2" JCodec.ssbhString) (.and (.field "unk3" JCodec.f32) (.and (.field "unk4" JCodec.f32) (.and (.field "unk5" JCodec.f32) (.field "unk6" JCodec.f32))))))
    (fun v => (v.unk1, v.unk2, v.unk3, v.unk4, v.unk5, v.unk6))
    (fun (unk1, unk2, unk3, unk4, unk5, unk6) => ⟨unk1, unk2, unk3, unk4, unk5, unk6⟩)

/-- /repo/ssbh_lib/src/formats/nrpd.rs:361-365 -/
def Nrpd.RenderPassUnkData.json : JCodec Nrpd.RenderPassUnkData where
  ser
    | .UnkDataUnk0 v => .obj [("UnkDataUnk0", JCodec.unit.ser v)]
    | .UnkDataUnk3 v => .obj [("UnkDataUnk3", Nrpd.Unk3Data.json.ser v)]
  de
    | .obj [(n, j)] =>
      if n = "UnkDataUnk0" then (JCodec.unit.de j).map .UnkDataUnk0
      else if n = "UnkDataUnk3" then (Nrpd.Unk3Data.json.de j).map .UnkDataUnk3
      else none
    | _ => none
  miss := none

/-- /repo/ssbh_lib/src/formats/nrpd.rs:352-358 -/
def Nrpd.RenderPassContainer.json : JCodec Nrpd.RenderPassContainer :=
  JCodec.struct (.and (.field "name" JCodec.ssbhString) (.and (.field "unk1" (JCodec.array (JCodec.enum64 Nrpd.RenderPassData.json))) (.and (.field "unk2" (JCodec.array (JCodec.enum64 Nrpd.RenderPassData.json))) (.field "unk3" (JCodec.enum64 Nrpd.RenderPassUnkData.json)))))
    (fun v => (v.name, v.unk1, v.unk2, v.unk3))
    (fun (name, unk1, unk2, unk3) => ⟨name, unk1, unk2, unk3⟩)

/-- /repo/ssbh_lib/src/formats/nrpd.rs:398-401 -/
def Nrpd.UnkItem20.json : JCodec Nrpd.UnkItem20 :=
  JCodec.struct (.and (.field "unk1" JCodec.ssbhString) (.field "unk2" JCodec.ssbhString))
    (fun v => (v.unk1, v.unk2))
    (fun (unk1, unk2) => ⟨unk1, unk2⟩)

/-- /repo/ssbh_lib/src/formats/nrpd.rs:406-410 -/
def Nrpd.UnkItem21.json : JCodec Nrpd.UnkItem21 :=
  JCodec.struct (.and (.field "unk1" JCodec.ssbhString) (.and (.field "unk2" JCodec.ssbhString) (.field "unk3" (JCodec.arrayN 2 JCodec.u32))))
    (fun v => (v.unk1, v.unk2, v.unk3))
    (fun (unk1, unk2, unk3) => ⟨unk1, unk2, unk3⟩)

/-- /repo/ssbh_lib/src/formats/nrpd.rs:415-423 -/
def Nrpd.UnkItem22.json : JCodec Nrpd.UnkItem22 :=
  JCodec.struct (.and (.field "unk1" JCodec.ssbhString) (.and (.field "unk2" JCodec.ssbhString) (.and (.field "unk3" JCodec.u32) (.and (.field "unk4" JCodec.u32) (.and (.field "unk5" JCodec.u32) (.and (.field "unk6" Nrpd.UnkFormat.json) (.field "unk8" JCodec.u32)))))))
    (fun v => (v.unk1, v.unk2, v.unk3, v.unk4, v.unk5, v.unk6, v.unk8))
    (fun (unk1, unk2, unk3, unk4, unk5, unk6, unk8) => ⟨unk1, unk2, unk3, unk4, unk5, unk6, unk8⟩)

/-- /repo/ssbh_lib/src/formats/nrpd.rs:428-432 -/
def Nrpd.UnkItem24.json : JCodec Nrpd.UnkItem24 :=
  JCodec.struct (.and (.field "unk1" JCodec.ssbhString) (.and (.field "unk2" JCodec.ssbhString) (.field "unk3" (JCodec.arrayN 6 JCodec.u32))))
    (fun v => (v.unk1, v.unk2, v.unk3))
    (fun (unk1, unk2, unk3) => ⟨unk1, unk2, unk3⟩)

/-- /repo/ssbh_lib/src/formats/nrpd.rs:434-440 -/
def Nrpd.UnkItem2.json : JCodec Nrpd.UnkItem2 where
  ser
    | .UnkItem20 v => .obj [("UnkItem20", Nrpd.UnkItem20.json.ser v)]
    | .UnkItem21 v => .obj [("UnkItem21", Nrpd.UnkItem21.json.ser v)]
    | .UnkItem22 v => .obj [("UnkItem22", Nrpd.UnkItem22.json.ser v)]
    | .UnkItem24 v => .obj [("UnkItem24", Nrpd.UnkItem24.json.ser v)]
  de
    | .obj [(n, j)] =>
      if n = "UnkItem20" then (Nrpd.UnkItem20.json.de j).map .UnkItem20
      else if n = "UnkItem21" then (Nrpd.UnkItem21.json.de j).map .UnkItem21
      else if n = "UnkItem22" then (Nrpd.UnkItem22.json.de j).map .UnkItem22
      else if n = "UnkItem24" then (Nrpd.UnkItem24.json.de j).map .UnkItem24
      else none
    | _ => none
  miss := none

/-- /repo/ssbh_lib/src/formats/nrpd.rs:445-448 -/
def Nrpd.UnkItem3.json : JCodec Nrpd.UnkItem3 :=
  JCodec.struct (.and (.field "name" JCodec.ssbhString) (.field "value" JCodec.ssbhString))
    (fun v => (v.name, v.value))
    (fun (name, value) => ⟨name, value⟩)

/-- /repo/ssbh_lib/src/formats/nrpd.rs:390-393 -/
def Nrpd.UnkItem1.json : JCodec Nrpd.UnkItem1 :=
  JCodec.struct (.and (.field "unk1" JCodec.ssbhString) (.field "unk2" (JCodec.array Nrpd.UnkItem3.json)))
    (fun v => (v.unk1, v.unk2))
    (fun (unk1, unk2) => ⟨unk1, unk2⟩)

/-- The fields of `Nrpd::V16`, /repo/ssbh_lib/src/formats/nrpd.rs:21-44 -/
def Nrpd.V16Data.json : JCodec Nrpd.V16Data :=
  JCodec.struct (.and (.field "frame_buffers" (JCodec.array (JCodec.enum64 Nrpd.FrameBuffer.json))) (.and (.field "state_containers" (JCodec.array (JCodec.enum64 Nrpd.State.json))) (.and (.field "render_passes" (JCodec.array Nrpd.RenderPassContainer.json)) (.and (.field "unk_string_list1" (JCodec.array Nrpd.StringPair.json)) (.and (.field "unk_string_list2" (JCodec.array (JCodec.enum64 Nrpd.UnkItem2.json))) (.and (.field "unk_list" (JCodec.array Nrpd.UnkItem1.json)) (.and (.field "unk_width1" JCodec.u32) (.and (.field "unk_height1" JCodec.u32) (.and (.field "unk3" JCodec.u32) (.and (.field "unk4" JCodec.u32) (.and (.field "unk5" JCodec.u32) (.and (.field "unk6" JCodec.u32) (.and (.field "unk7" JCodec.u32) (.and (.field "unk8" JCodec.u32) (.and (.field "unk9" JCodec.ssbhString) (.and (.field "unk_width2" JCodec.u32) (.and (.field "unk_height2" JCodec.u32) (.field "unk10" JCodec.u64))))))))))))))))))
    (fun v => (v.frame_buffers, v.state_containers, v.render_passes, v.unk_string_list1, v.unk_string_list2, v.unk_list, v.unk_width1, v.unk_height1, v.unk3, v.unk4, v.unk5, v.unk6, v.unk7, v.unk8, v.unk9, v.unk_width2, v.unk_height2, v.unk10))
    (fun (frame_buffers, state_containers, render_passes, unk_string_list1, unk_string_list2, unk_list, unk_width1, unk_height1, unk3, unk4, unk5, unk6, unk7, unk8, unk9, unk_width2, unk_height2, unk10) => ⟨frame_buffers, state_containers, render_passes, unk_string_list1, unk_string_list2, unk_list, unk_width1, unk_height1, unk3, unk4, unk5, unk6, unk7, unk8, unk9, unk_width2, unk_height2, unk10⟩)

/-- /repo/ssbh_lib/src/formats/nrpd.rs:21-44 -/
def Nrpd.json : JCodec Nrpd where
  ser
    | .V16 v => .obj [("V16", Nrpd.V16Data.json.ser v)]
  de
    | .obj [(n, j)] =>
      if n = "V16" then (Nrpd.V16Data.json.de j).map .V16
      else none
    | _ => none
  miss := none

/-- /repo/ssbh_lib/src/formats/meshex.rs:60-63 -/
def MeshEx.AllData.json : JCodec MeshEx.AllData :=
  JCodec.struct (.and (.field "bounding_sphere" Mesh.BoundingSphere.json) (.field "name" (JCodec.ptr (JCodec.newtype JCodec.cstr))))
    (fun v => (v.bounding_sphere, v.name))
    (fun (bounding_sphere, name) => ⟨bounding_sphere, name⟩)

/-- /repo/ssbh_lib/src/formats/meshex.rs:69-76 -/
def MeshEx.MeshObjectGroup.json : JCodec MeshEx.MeshObjectGroup :=
  JCodec.struct (.and (.field "bounding_sphere" Mesh.BoundingSphere.json) (.and (.field "mesh_object_full_name" (JCodec.ptr (JCodec.newtype JCodec.cstr))) (.field "mesh_object_name" (JCodec.ptr (JCodec.newtype JCodec.cstr)))))
    (fun v => (v.bounding_sphere, v.mesh_object_full_name, v.mesh_object_name))
    (fun (bounding_sphere, mesh_object_full_name, mesh_object_name) => ⟨bounding_sphere, mesh_object_full_name, mesh_object_name⟩)

/-- /repo/ssbh_lib/src/formats/meshex.rs:48-54 -/
def MeshEx.MeshEntry.json : JCodec MeshEx.MeshEntry :=
  JCodec.struct (.and (.field "mesh_object_group_index" JCodec.u32) (.field "unk1" Vector3.json))
    (fun v => (v.mesh_object_group_index, v.unk1))
    (fun (mesh_object_group_index, unk1) => ⟨mesh_object_group_index, unk1⟩)

/-- /repo/ssbh_lib/src/formats/meshex.rs:18-41 -/
def MeshEx.json : JCodec MeshEx :=
  JCodec.struct (.and (.field "all_data" (JCodec.ptr MeshEx.AllData.json)) (.and (.field "mesh_object_groups" (JCodec.ptr (JCodec.vec MeshEx.MeshObjectGroup.json))) (.and (.field "entries" (JCodec.ptr (JCodec.vec MeshEx.MeshEntry.json))) (.and (.field "entry_flags" (JCodec.ptr (JCodec.newtype (JCodec.vec JCodec.bitfield16)))) (.field "unk1" JCodec.u32)))))
    (fun v => (v.all_data, v.mesh_object_groups, v.entries, v.entry_flags, v.unk1))
    (fun (all_data, mesh_object_groups, entries, entry_flags, unk1) => ⟨all_data, mesh_object_groups, entries, entry_flags, unk1⟩)

/-- /repo/ssbh_lib/src/formats/adj.rs:49-57 -/
def Adj.AdjEntry.json : JCodec Adj.AdjEntry :=
  JCodec.struct (.and (.field "mesh_object_index" JCodec.u32) (.field "index_buffer_offset" JCodec.u32))
    (fun v => (v.mesh_object_index, v.index_buffer_offset))
    (fun (mesh_object_index, index_buffer_offset) => ⟨mesh_object_index, index_buffer_offset⟩)

/-- /repo/ssbh_lib/src/formats/adj.rs:17-43 -/
def Adj.json : JCodec Adj :=
  JCodec.struct (.and (.field "entries" (JCodec.vec Adj.AdjEntry.json)) (.field "index_buffer" (JCodec.vec JCodec.i16)))
    (fun v => (v.entries, v.index_buffer))
    (fun (entries, index_buffer) => ⟨entries, index_buffer⟩)

/-- /repo/ssbh_lib/src/lib.rs:507-537; `SsbhFile` and `Versioned` are transparent -/
def Ssbh.json : JCodec Ssbh where
  ser
    | .Hlpb v => .obj [("Hlpb", Hlpb.json.ser v)]
    | .Matl v => .obj [("Matl", Matl.json.ser v)]
    | .Modl v => .obj [("Modl", Modl.json.ser v)]
    | .Mesh v => .obj [("Mesh", Mesh.json.ser v)]
    | .Skel v => .obj [("Skel", Skel.json.ser v)]
    | .Anim v => .obj [("Anim", Anim.json.ser v)]
    | .Nlst v => .obj [("Nlst", Nlst.json.ser v)]
    | .Nrpd v => .obj [("Nrpd", Nrpd.json.ser v)]
    | .Nufx v => .obj [("Nufx", Nufx.json.ser v)]
    | .Shdr v => .obj [("Shdr", Shdr.json.ser v)]
  de
    | .obj [(n, j)] =>
      if n = "Hlpb" then (Hlpb.json.de j).map .Hlpb
      else if n = "Matl" then (Matl.json.de j).map .Matl
      else if n = "Modl" then (Modl.json.de j).map .Modl
      else if n = "Mesh" then (Mesh.json.de j).map .Mesh
      else if n = "Skel" then (Skel.json.de j).map .Skel
      else if n = "Anim" then (Anim.json.de j).map .Anim
      else if n = "Nlst" then (Nlst.json.de j).map .Nlst
      else if n = "Nrpd" then (Nrpd.json.de j).map .Nrpd
      else if n = "Nufx" then (Nufx.json.de j).map .Nufx
      else if n = "Shdr" then (Shdr.json.de j).map .Shdr
      else none
    | _ => none
  miss := none

end Verif
