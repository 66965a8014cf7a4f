import Verif.Json.Formats
import Verif.Json.Kept
import Verif.Json.Laws
/-!
# The JSON of the formats keeps what is specified

Written by tools/gen_json.py from the Rust definitions.
-/

namespace Verif

theorem Vector3.json_law : JLaw Vector3.json Vector3.kept :=
  (JLaw.struct ((.and (.field "x" JLaw.f32) (.and (.field "y" JLaw.f32) (.field "z" JLaw.f32)))) (show ["x", "y", "z"].Nodup by decide) (fun _ => rfl)).congr (fun _ => rfl) (fun _ => rfl) (fun _ => rfl)

theorem Matrix3x3.json_law : JLaw Matrix3x3.json Matrix3x3.kept :=
  (JLaw.struct ((.and (.field "col1" Vector3.json_law) (.and (.field "col2" Vector3.json_law) (.field "col3" Vector3.json_law)))) (show ["col1", "col2", "col3"].Nodup by decide) (fun _ => rfl)).congr (fun _ => rfl) (fun _ => rfl) (fun _ => rfl)

theorem Vector4.json_law : JLaw Vector4.json Vector4.kept :=
  (JLaw.struct ((.and (.field "x" JLaw.f32) (.and (.field "y" JLaw.f32) (.and (.field "z" JLaw.f32) (.field "w" JLaw.f32))))) (show ["x", "y", "z", "w"].Nodup by decide) (fun _ => rfl)).congr (fun _ => rfl) (fun _ => rfl) (fun _ => rfl)

theorem Color4f.json_law : JLaw Color4f.json Color4f.kept :=
  (JLaw.struct ((.and (.field "r" JLaw.f32) (.and (.field "g" JLaw.f32) (.and (.field "b" JLaw.f32) (.field "a" JLaw.f32))))) (show ["r", "g", "b", "a"].Nodup by decide) (fun _ => rfl)).congr (fun _ => rfl) (fun _ => rfl) (fun _ => rfl)

theorem Matrix4x4.json_law : JLaw Matrix4x4.json Matrix4x4.kept :=
  (JLaw.struct ((.and (.field "col1" Vector4.json_law) (.and (.field "col2" Vector4.json_law) (.and (.field "col3" Vector4.json_law) (.field "col4" Vector4.json_law))))) (show ["col1", "col2", "col3", "col4"].Nodup by decide) (fun _ => rfl)).congr (fun _ => rfl) (fun _ => rfl) (fun _ => rfl)

theorem Nlst.V10Data.json_law : JLaw Nlst.V10Data.json Nlst.V10Data.kept :=
  (JLaw.struct ((.field "file_names" JLaw.ssbhString.array)) (show ["file_names"].Nodup by decide) (fun _ => rfl)).congr (fun _ => rfl) (fun _ => rfl) (fun _ => rfl)

theorem Nlst.json_law : JLaw Nlst.json Nlst.kept where
  null v := by cases v <;> simp [Nlst.json, Nlst.kept]
  back v := by
    cases v with
    | V10 v =>
      have h := Nlst.V10Data.json_law.back v
      exact back_variant (s := Nlst.V10Data.kept) (t := Nlst.kept) (f := Nlst.V10) h rfl rfl
  same v hv := by
    cases v with
    | V10 v => exact congrArg (fun j => J.obj [("V10", j)]) (Nlst.V10Data.json_law.same v hv)

theorem Shdr.ShaderStage.json_law : JLaw Shdr.ShaderStage.json Shdr.ShaderStage.kept :=
  JLaw.enumNames (by decide +kernel) (by decide) (by decide +kernel)

theorem Shdr.Shader.json_law : JLaw Shdr.Shader.json Shdr.Shader.kept :=
  (JLaw.struct ((.and (.field "name" JLaw.ssbhString) (.and (.field "shader_stage" Shdr.ShaderStage.json_law) (.and (.field "unk3" JLaw.u32) (.and (.field "shader_binary" JLaw.hex) (.field "binary_size" JLaw.u64)))))) (show ["name", "shader_stage", "unk3", "shader_binary", "binary_size"].Nodup by decide) (fun _ => rfl)).congr (fun _ => rfl) (fun _ => rfl) (fun _ => rfl)

theorem Shdr.V12Data.json_law : JLaw Shdr.V12Data.json Shdr.V12Data.kept :=
  (JLaw.struct ((.field "shaders" Shdr.Shader.json_law.array)) (show ["shaders"].Nodup by decide) (fun _ => rfl)).congr (fun _ => rfl) (fun _ => rfl) (fun _ => rfl)

theorem Shdr.json_law : JLaw Shdr.json Shdr.kept where
  null v := by cases v <;> simp [Shdr.json, Shdr.kept]
  back v := by
    cases v with
    | V12 v =>
      have h := Shdr.V12Data.json_law.back v
      exact back_variant (s := Shdr.V12Data.kept) (t := Shdr.kept) (f := Shdr.V12) h rfl rfl
  same v hv := by
    cases v with
    | V12 v => exact congrArg (fun j => J.obj [("V12", j)]) (Shdr.V12Data.json_law.same v hv)

theorem Modl.ModlEntry.json_law : JLaw Modl.ModlEntry.json Modl.ModlEntry.kept :=
  (JLaw.struct ((.and (.field "mesh_object_name" JLaw.ssbhString) (.and (.field "mesh_object_subindex" JLaw.u64) (.field "material_label" JLaw.ssbhString)))) (show ["mesh_object_name", "mesh_object_subindex", "material_label"].Nodup by decide) (fun _ => rfl)).congr (fun _ => rfl) (fun _ => rfl) (fun _ => rfl)

theorem Modl.V17Data.json_law : JLaw Modl.V17Data.json Modl.V17Data.kept :=
  (JLaw.struct ((.and (.field "model_name" JLaw.ssbhString) (.and (.field "skeleton_file_name" JLaw.ssbhString) (.and (.field "material_file_names" JLaw.ssbhString.array) (.and (.field "animation_file_name" JLaw.ssbhString.relPtr) (.and (.field "mesh_file_name" JLaw.ssbhString) (.field "entries" Modl.ModlEntry.json_law.array))))))) (show ["model_name", "skeleton_file_name", "material_file_names", "animation_file_name", "mesh_file_name", "entries"].Nodup by decide) (fun _ => rfl)).congr (fun _ => rfl) (fun _ => rfl) (fun _ => rfl)

theorem Modl.json_law : JLaw Modl.json Modl.kept where
  null v := by cases v <;> simp [Modl.json, Modl.kept]
  back v := by
    cases v with
    | V17 v =>
      have h := Modl.V17Data.json_law.back v
      exact back_variant (s := Modl.V17Data.kept) (t := Modl.kept) (f := Modl.V17) h rfl rfl
  same v hv := by
    cases v with
    | V17 v => exact congrArg (fun j => J.obj [("V17", j)]) (Modl.V17Data.json_law.same v hv)

theorem Skel.BillboardType.json_law : JLaw Skel.BillboardType.json Skel.BillboardType.kept :=
  JLaw.enumNames (by decide +kernel) (by decide) (by decide +kernel)

theorem Skel.SkelEntryFlags.json_law : JLaw Skel.SkelEntryFlags.json Skel.SkelEntryFlags.kept :=
  (JLaw.struct ((.and (.field "unk1" JLaw.u8) (.field "billboard_type" Skel.BillboardType.json_law))) (show ["unk1", "billboard_type"].Nodup by decide) (fun _ => rfl)).congr (fun _ => rfl) (fun _ => rfl) (fun _ => rfl)

theorem Skel.SkelBoneEntry.json_law : JLaw Skel.SkelBoneEntry.json Skel.SkelBoneEntry.kept :=
  (JLaw.struct ((.and (.field "name" JLaw.ssbhString) (.and (.field "index" JLaw.u16) (.and (.field "parent_index" JLaw.i16) (.field "flags" Skel.SkelEntryFlags.json_law))))) (show ["name", "index", "parent_index", "flags"].Nodup by decide) (fun _ => rfl)).congr (fun _ => rfl) (fun _ => rfl) (fun _ => rfl)

theorem Skel.V10Data.json_law : JLaw Skel.V10Data.json Skel.V10Data.kept :=
  (JLaw.struct ((.and (.field "bone_entries" Skel.SkelBoneEntry.json_law.array) (.and (.field "world_transforms" Matrix4x4.json_law.array) (.and (.field "inv_world_transforms" Matrix4x4.json_law.array) (.and (.field "transforms" Matrix4x4.json_law.array) (.field "inv_transforms" Matrix4x4.json_law.array)))))) (show ["bone_entries", "world_transforms", "inv_world_transforms", "transforms", "inv_transforms"].Nodup by decide) (fun _ => rfl)).congr (fun _ => rfl) (fun _ => rfl) (fun _ => rfl)

theorem Skel.json_law : JLaw Skel.json Skel.kept where
  null v := by cases v <;> simp [Skel.json, Skel.kept]
  back v := by
    cases v with
    | V10 v =>
      have h := Skel.V10Data.json_law.back v
      exact back_variant (s := Skel.V10Data.kept) (t := Skel.kept) (f := Skel.V10) h rfl rfl
  same v hv := by
    cases v with
    | V10 v => exact congrArg (fun j => J.obj [("V10", j)]) (Skel.V10Data.json_law.same v hv)

theorem Hlpb.AimConstraint.json_law : JLaw Hlpb.AimConstraint.json Hlpb.AimConstraint.kept :=
  (JLaw.struct ((.and (.field "name" JLaw.ssbhString) (.and (.field "aim_bone_name1" JLaw.ssbhString) (.and (.field "aim_bone_name2" JLaw.ssbhString) (.and (.field "aim_type1" JLaw.ssbhString) (.and (.field "aim_type2" JLaw.ssbhString) (.and (.field "target_bone_name1" JLaw.ssbhString) (.and (.field "target_bone_name2" JLaw.ssbhString) (.and (.field "unk1" JLaw.u32) (.and (.field "unk2" JLaw.u32) (.and (.field "aim" Vector3.json_law) (.and (.field "up" Vector3.json_law) (.and (.field "quat1" Vector4.json_law) (.and (.field "quat2" Vector4.json_law) (.and (.field "unk17" JLaw.f32) (.and (.field "unk18" JLaw.f32) (.and (.field "unk19" JLaw.f32) (.and (.field "unk20" JLaw.f32) (.and (.field "unk21" JLaw.f32) (.field "unk22" JLaw.f32)))))))))))))))))))) (show ["name", "aim_bone_name1", "aim_bone_name2", "aim_type1", "aim_type2", "target_bone_name1", "target_bone_name2", "unk1", "unk2", "aim", "up", "quat1", "quat2", "unk17", "unk18", "unk19", "unk20", "unk21", "unk22"].Nodup by decide) (fun _ => rfl)).congr (fun _ => rfl) (fun _ => rfl) (fun _ => rfl)

theorem Hlpb.OrientConstraint.json_law : JLaw Hlpb.OrientConstraint.json Hlpb.OrientConstraint.kept :=
  (JLaw.struct ((.and (.field "name" JLaw.ssbhString) (.and (.field "parent_bone_name1" JLaw.ssbhString) (.and (.field "parent_bone_name2" JLaw.ssbhString) (.and (.field "source_bone_name" JLaw.ssbhString) (.and (.field "target_bone_name" JLaw.ssbhString) (.and (.field "unk_type" JLaw.u32) (.and (.field "constraint_axes" Vector3.json_law) (.and (.field "quat1" Vector4.json_law) (.and (.field "quat2" Vector4.json_law) (.and (.field "range_min" Vector3.json_law) (.field "range_max" Vector3.json_law)))))))))))) (show ["name", "parent_bone_name1", "parent_bone_name2", "source_bone_name", "target_bone_name", "unk_type", "constraint_axes", "quat1", "quat2", "range_min", "range_max"].Nodup by decide) (fun _ => rfl)).congr (fun _ => rfl) (fun _ => rfl) (fun _ => rfl)

theorem Hlpb.ConstraintType.json_law : JLaw Hlpb.ConstraintType.json Hlpb.ConstraintType.kept :=
  JLaw.enumNames (by decide +kernel) (by decide) (by decide +kernel)

theorem Hlpb.V11Data.json_law : JLaw Hlpb.V11Data.json Hlpb.V11Data.kept :=
  (JLaw.struct ((.and (.field "aim_constraints" Hlpb.AimConstraint.json_law.array) (.and (.field "orient_constraints" Hlpb.OrientConstraint.json_law.array) (.and (.field "constraint_indices" JLaw.u32.array) (.field "constraint_types" Hlpb.ConstraintType.json_law.array))))) (show ["aim_constraints", "orient_constraints", "constraint_indices", "constraint_types"].Nodup by decide) (fun _ => rfl)).congr (fun _ => rfl) (fun _ => rfl) (fun _ => rfl)

theorem Hlpb.json_law : JLaw Hlpb.json Hlpb.kept where
  null v := by cases v <;> simp [Hlpb.json, Hlpb.kept]
  back v := by
    cases v with
    | V11 v =>
      have h := Hlpb.V11Data.json_law.back v
      exact back_variant (s := Hlpb.V11Data.kept) (t := Hlpb.kept) (f := Hlpb.V11) h rfl rfl
  same v hv := by
    cases v with
    | V11 v => exact congrArg (fun j => J.obj [("V11", j)]) (Hlpb.V11Data.json_law.same v hv)

theorem Nufx.ShaderStages.json_law : JLaw Nufx.ShaderStages.json Nufx.ShaderStages.kept :=
  (JLaw.struct ((.and (.field "vertex_shader" JLaw.ssbhString) (.and (.field "unk_shader1" JLaw.ssbhString) (.and (.field "unk_shader2" JLaw.ssbhString) (.and (.field "geometry_shader" JLaw.ssbhString) (.and (.field "pixel_shader" JLaw.ssbhString) (.field "compute_shader" JLaw.ssbhString))))))) (show ["vertex_shader", "unk_shader1", "unk_shader2", "geometry_shader", "pixel_shader", "compute_shader"].Nodup by decide) (fun _ => rfl)).congr (fun _ => rfl) (fun _ => rfl) (fun _ => rfl)

theorem Nufx.MaterialParameter.json_law : JLaw Nufx.MaterialParameter.json Nufx.MaterialParameter.kept :=
  (JLaw.struct ((.and (.field "param_id" JLaw.u64) (.field "parameter_name" JLaw.ssbhString))) (show ["param_id", "parameter_name"].Nodup by decide) (fun _ => rfl)).congr (fun _ => rfl) (fun _ => rfl) (fun _ => rfl)

theorem Nufx.ShaderProgramV0.json_law : JLaw Nufx.ShaderProgramV0.json Nufx.ShaderProgramV0.kept :=
  (JLaw.struct ((.and (.field "name" JLaw.ssbhString) (.and (.field "render_pass" JLaw.ssbhString) (.and (.field "shaders" Nufx.ShaderStages.json_law) (.field "material_parameters" Nufx.MaterialParameter.json_law.array))))) (show ["name", "render_pass", "shaders", "material_parameters"].Nodup by decide) (fun _ => rfl)).congr (fun _ => rfl) (fun _ => rfl) (fun _ => rfl)

theorem Nufx.UnkItem.json_law : JLaw Nufx.UnkItem.json Nufx.UnkItem.kept :=
  (JLaw.struct ((.and (.field "name" JLaw.ssbhString) (.field "unk1" JLaw.ssbhString.array))) (show ["name", "unk1"].Nodup by decide) (fun _ => rfl)).congr (fun _ => rfl) (fun _ => rfl) (fun _ => rfl)

theorem Nufx.NufxV0.json_law : JLaw Nufx.NufxV0.json Nufx.NufxV0.kept :=
  (JLaw.struct ((.and (.field "programs" Nufx.ShaderProgramV0.json_law.array) (.field "unk_string_list" Nufx.UnkItem.json_law.array))) (show ["programs", "unk_string_list"].Nodup by decide) (fun _ => rfl)).congr (fun _ => rfl) (fun _ => rfl) (fun _ => rfl)

theorem Nufx.VertexAttribute.json_law : JLaw Nufx.VertexAttribute.json Nufx.VertexAttribute.kept :=
  (JLaw.struct ((.and (.field "name" JLaw.ssbhString) (.field "attribute_name" JLaw.ssbhString))) (show ["name", "attribute_name"].Nodup by decide) (fun _ => rfl)).congr (fun _ => rfl) (fun _ => rfl) (fun _ => rfl)

theorem Nufx.ShaderProgramV1.json_law : JLaw Nufx.ShaderProgramV1.json Nufx.ShaderProgramV1.kept :=
  (JLaw.struct ((.and (.field "name" JLaw.ssbhString) (.and (.field "render_pass" JLaw.ssbhString) (.and (.field "shaders" Nufx.ShaderStages.json_law) (.and (.field "vertex_attributes" Nufx.VertexAttribute.json_law.array) (.field "material_parameters" Nufx.MaterialParameter.json_law.array)))))) (show ["name", "render_pass", "shaders", "vertex_attributes", "material_parameters"].Nodup by decide) (fun _ => rfl)).congr (fun _ => rfl) (fun _ => rfl) (fun _ => rfl)

theorem Nufx.NufxV1.json_law : JLaw Nufx.NufxV1.json Nufx.NufxV1.kept :=
  (JLaw.struct ((.and (.field "programs" Nufx.ShaderProgramV1.json_law.array) (.field "unk_string_list" Nufx.UnkItem.json_law.array))) (show ["programs", "unk_string_list"].Nodup by decide) (fun _ => rfl)).congr (fun _ => rfl) (fun _ => rfl) (fun _ => rfl)

theorem Nufx.json_law : JLaw Nufx.json Nufx.kept where
  null v := by cases v <;> simp [Nufx.json, Nufx.kept]
  back v := by
    cases v with
    | V0 v =>
      have h := Nufx.NufxV0.json_law.back v
      exact back_variant (s := Nufx.NufxV0.kept) (t := Nufx.kept) (f := Nufx.V0) h rfl rfl
    | V1 v =>
      have h := Nufx.NufxV1.json_law.back v
      exact back_variant (s := Nufx.NufxV1.kept) (t := Nufx.kept) (f := Nufx.V1) h rfl rfl
  same v hv := by
    cases v with
    | V0 v => exact congrArg (fun j => J.obj [("V0", j)]) (Nufx.NufxV0.json_law.same v hv)
    | V1 v => exact congrArg (fun j => J.obj [("V1", j)]) (Nufx.NufxV1.json_law.same v hv)

theorem Anim.TrackTypeV1.json_law : JLaw Anim.TrackTypeV1.json Anim.TrackTypeV1.kept :=
  JLaw.enumNames (by decide +kernel) (by decide) (by decide +kernel)

theorem Anim.Property.json_law : JLaw Anim.Property.json Anim.Property.kept :=
  (JLaw.struct ((.and (.field "name" JLaw.ssbhString) (.field "buffer_index" JLaw.u64))) (show ["name", "buffer_index"].Nodup by decide) (fun _ => rfl)).congr (fun _ => rfl) (fun _ => rfl) (fun _ => rfl)

theorem Anim.TrackV1.json_law : JLaw Anim.TrackV1.json Anim.TrackV1.kept :=
  (JLaw.struct ((.and (.field "name" JLaw.ssbhString) (.and (.field "track_type" Anim.TrackTypeV1.json_law) (.field "properties" Anim.Property.json_law.array)))) (show ["name", "track_type", "properties"].Nodup by decide) (fun _ => rfl)).congr (fun _ => rfl) (fun _ => rfl) (fun _ => rfl)

theorem Anim.GroupType.json_law : JLaw Anim.GroupType.json Anim.GroupType.kept :=
  JLaw.enumNames (by decide +kernel) (by decide) (by decide +kernel)

theorem Anim.TrackTypeV2.json_law : JLaw Anim.TrackTypeV2.json Anim.TrackTypeV2.kept :=
  JLaw.enumNames (by decide +kernel) (by decide) (by decide +kernel)

theorem Anim.CompressionType.json_law : JLaw Anim.CompressionType.json Anim.CompressionType.kept :=
  JLaw.enumNames (by decide +kernel) (by decide) (by decide +kernel)

theorem Anim.TrackFlags.json_law : JLaw Anim.TrackFlags.json Anim.TrackFlags.kept :=
  (JLaw.struct ((.and (.field "track_type" Anim.TrackTypeV2.json_law) (.field "compression_type" Anim.CompressionType.json_law))) (show ["track_type", "compression_type"].Nodup by decide) (fun _ => rfl)).congr (fun _ => rfl) (fun _ => rfl) (fun _ => rfl)

theorem Anim.TransformFlags.json_law : JLaw Anim.TransformFlags.json Anim.TransformFlags.kept := JLaw.bitfield32

theorem Anim.TrackV2.json_law : JLaw Anim.TrackV2.json Anim.TrackV2.kept :=
  (JLaw.struct ((.and (.field "name" JLaw.ssbhString) (.and (.field "flags" Anim.TrackFlags.json_law) (.and (.field "frame_count" JLaw.u32) (.and (.field "transform_flags" Anim.TransformFlags.json_law) (.and (.field "data_offset" JLaw.u32) (.field "data_size" JLaw.u64))))))) (show ["name", "flags", "frame_count", "transform_flags", "data_offset", "data_size"].Nodup by decide) (fun _ => rfl)).congr (fun _ => rfl) (fun _ => rfl) (fun _ => rfl)

theorem Anim.Node.json_law : JLaw Anim.Node.json Anim.Node.kept :=
  (JLaw.struct ((.and (.field "name" JLaw.ssbhString) (.field "tracks" Anim.TrackV2.json_law.array))) (show ["name", "tracks"].Nodup by decide) (fun _ => rfl)).congr (fun _ => rfl) (fun _ => rfl) (fun _ => rfl)

theorem Anim.Group.json_law : JLaw Anim.Group.json Anim.Group.kept :=
  (JLaw.struct ((.and (.field "group_type" Anim.GroupType.json_law) (.field "nodes" Anim.Node.json_law.array))) (show ["group_type", "nodes"].Nodup by decide) (fun _ => rfl)).congr (fun _ => rfl) (fun _ => rfl) (fun _ => rfl)

theorem Anim.UnkSubItem.json_law : JLaw Anim.UnkSubItem.json Anim.UnkSubItem.kept :=
  (JLaw.struct ((.and (.field "unk1" JLaw.u32) (.field "unk2" JLaw.u32))) (show ["unk1", "unk2"].Nodup by decide) (fun _ => rfl)).congr (fun _ => rfl) (fun _ => rfl) (fun _ => rfl)

theorem Anim.UnkItem1.json_law : JLaw Anim.UnkItem1.json Anim.UnkItem1.kept :=
  (JLaw.struct ((.and (.field "unk1" JLaw.u64) (.field "unk2" Anim.UnkSubItem.json_law.array))) (show ["unk1", "unk2"].Nodup by decide) (fun _ => rfl)).congr (fun _ => rfl) (fun _ => rfl) (fun _ => rfl)

theorem Anim.UnkItem2.json_law : JLaw Anim.UnkItem2.json Anim.UnkItem2.kept :=
  (JLaw.struct ((.and (.field "unk1" JLaw.ssbhString) (.field "unk2" Anim.UnkSubItem.json_law.array))) (show ["unk1", "unk2"].Nodup by decide) (fun _ => rfl)).congr (fun _ => rfl) (fun _ => rfl) (fun _ => rfl)

theorem Anim.UnkData.json_law : JLaw Anim.UnkData.json Anim.UnkData.kept :=
  (JLaw.struct ((.and (.field "unk1" Anim.UnkItem1.json_law.array) (.field "unk2" Anim.UnkItem2.json_law.array))) (show ["unk1", "unk2"].Nodup by decide) (fun _ => rfl)).congr (fun _ => rfl) (fun _ => rfl) (fun _ => rfl)

theorem Anim.V12Data.json_law : JLaw Anim.V12Data.json Anim.V12Data.kept :=
  (JLaw.struct ((.and (.field "name" JLaw.ssbhString) (.and (.field "unk1" JLaw.f32) (.and (.field "final_frame_index" JLaw.f32) (.and (.field "unk2" JLaw.f32) (.and (.field "unk3" JLaw.f32) (.and (.field "tracks" Anim.TrackV1.json_law.array) (.field "buffers" JLaw.hex.array)))))))) (show ["name", "unk1", "final_frame_index", "unk2", "unk3", "tracks", "buffers"].Nodup by decide) (fun _ => rfl)).congr (fun _ => rfl) (fun _ => rfl) (fun _ => rfl)

theorem Anim.V20Data.json_law : JLaw Anim.V20Data.json Anim.V20Data.kept :=
  (JLaw.struct ((.and (.field "final_frame_index" JLaw.f32) (.and (.field "unk1" JLaw.u16) (.and (.field "unk2" JLaw.u16) (.and (.field "name" JLaw.ssbhString) (.and (.field "groups" Anim.Group.json_law.array) (.field "buffer" JLaw.hex))))))) (show ["final_frame_index", "unk1", "unk2", "name", "groups", "buffer"].Nodup by decide) (fun _ => rfl)).congr (fun _ => rfl) (fun _ => rfl) (fun _ => rfl)

theorem Anim.V21Data.json_law : JLaw Anim.V21Data.json Anim.V21Data.kept :=
  (JLaw.struct ((.and (.field "final_frame_index" JLaw.f32) (.and (.field "unk1" JLaw.u16) (.and (.field "unk2" JLaw.u16) (.and (.field "name" JLaw.ssbhString) (.and (.field "groups" Anim.Group.json_law.array) (.and (.field "buffer" JLaw.hex) (.field "unk_data" Anim.UnkData.json_law)))))))) (show ["final_frame_index", "unk1", "unk2", "name", "groups", "buffer", "unk_data"].Nodup by decide) (fun _ => rfl)).congr (fun _ => rfl) (fun _ => rfl) (fun _ => rfl)

theorem Anim.json_law : JLaw Anim.json Anim.kept where
  null v := by cases v <;> simp [Anim.json, Anim.kept]
  back v := by
    cases v with
    | V12 v =>
      have h := Anim.V12Data.json_law.back v
      exact back_variant (s := Anim.V12Data.kept) (t := Anim.kept) (f := Anim.V12) h rfl rfl
    | V20 v =>
      have h := Anim.V20Data.json_law.back v
      exact back_variant (s := Anim.V20Data.kept) (t := Anim.kept) (f := Anim.V20) h rfl rfl
    | V21 v =>
      have h := Anim.V21Data.json_law.back v
      exact back_variant (s := Anim.V21Data.kept) (t := Anim.kept) (f := Anim.V21) h rfl rfl
  same v hv := by
    cases v with
    | V12 v => exact congrArg (fun j => J.obj [("V12", j)]) (Anim.V12Data.json_law.same v hv)
    | V20 v => exact congrArg (fun j => J.obj [("V20", j)]) (Anim.V20Data.json_law.same v hv)
    | V21 v => exact congrArg (fun j => J.obj [("V21", j)]) (Anim.V21Data.json_law.same v hv)

theorem Mesh.BoundingSphere.json_law : JLaw Mesh.BoundingSphere.json Mesh.BoundingSphere.kept :=
  (JLaw.struct ((.and (.field "center" Vector3.json_law) (.field "radius" JLaw.f32))) (show ["center", "radius"].Nodup by decide) (fun _ => rfl)).congr (fun _ => rfl) (fun _ => rfl) (fun _ => rfl)

theorem Mesh.BoundingVolume.json_law : JLaw Mesh.BoundingVolume.json Mesh.BoundingVolume.kept :=
  (JLaw.struct ((.and (.field "min" Vector3.json_law) (.field "max" Vector3.json_law))) (show ["min", "max"].Nodup by decide) (fun _ => rfl)).congr (fun _ => rfl) (fun _ => rfl) (fun _ => rfl)

theorem Mesh.OrientedBoundingBox.json_law : JLaw Mesh.OrientedBoundingBox.json Mesh.OrientedBoundingBox.kept :=
  (JLaw.struct ((.and (.field "center" Vector3.json_law) (.and (.field "transform" Matrix3x3.json_law) (.field "size" Vector3.json_law)))) (show ["center", "transform", "size"].Nodup by decide) (fun _ => rfl)).congr (fun _ => rfl) (fun _ => rfl) (fun _ => rfl)

theorem Mesh.BoundingInfo.json_law : JLaw Mesh.BoundingInfo.json Mesh.BoundingInfo.kept :=
  (JLaw.struct ((.and (.field "bounding_sphere" Mesh.BoundingSphere.json_law) (.and (.field "bounding_volume" Mesh.BoundingVolume.json_law) (.field "oriented_bounding_box" Mesh.OrientedBoundingBox.json_law)))) (show ["bounding_sphere", "bounding_volume", "oriented_bounding_box"].Nodup by decide) (fun _ => rfl)).congr (fun _ => rfl) (fun _ => rfl) (fun _ => rfl)

theorem Mesh.DrawElementType.json_law : JLaw Mesh.DrawElementType.json Mesh.DrawElementType.kept :=
  JLaw.enumNames (by decide +kernel) (by decide) (by decide +kernel)

theorem Mesh.DepthFlags.json_law : JLaw Mesh.DepthFlags.json Mesh.DepthFlags.kept :=
  (JLaw.struct ((.and (.field "disable_depth_write" JLaw.u8) (.field "disable_depth_test" JLaw.u8))) (show ["disable_depth_write", "disable_depth_test"].Nodup by decide) (fun _ => rfl)).congr (fun _ => rfl) (fun _ => rfl) (fun _ => rfl)

theorem Mesh.MeshObject.json_law {A : Type} {aJ : JCodec A} {aS : JSpec A} (aL : JLaw aJ aS) : JLaw (Mesh.MeshObject.json aJ) (Mesh.MeshObject.kept aS) :=
  (JLaw.struct ((.and (.field "name" JLaw.ssbhString) (.and (.field "subindex" JLaw.u64) (.and (.field "parent_bone_name" JLaw.ssbhString) (.and (.field "vertex_count" JLaw.u32) (.and (.field "vertex_index_count" JLaw.u32) (.and (.field "unk2" JLaw.u32) (.and (.field "vertex_buffer0_offset" JLaw.u32) (.and (.field "vertex_buffer1_offset" JLaw.u32) (.and (.field "vertex_buffer2_offset" JLaw.u32) (.and (.field "vertex_buffer3_offset" JLaw.u32) (.and (.field "stride0" JLaw.u32) (.and (.field "stride1" JLaw.u32) (.and (.field "stride2" JLaw.u32) (.and (.field "stride3" JLaw.u32) (.and (.field "index_buffer_offset" JLaw.u32) (.and (.field "unk8" JLaw.u32) (.and (.field "draw_element_type" Mesh.DrawElementType.json_law) (.and (.field "use_vertex_skinning" JLaw.u32) (.and (.field "sort_bias" JLaw.i32) (.and (.field "depth_flags" Mesh.DepthFlags.json_law) (.and (.field "bounding_info" Mesh.BoundingInfo.json_law) (.field "attributes" aL.array))))))))))))))))))))))) (show ["name", "subindex", "parent_bone_name", "vertex_count", "vertex_index_count", "unk2", "vertex_buffer0_offset", "vertex_buffer1_offset", "vertex_buffer2_offset", "vertex_buffer3_offset", "stride0", "stride1", "stride2", "stride3", "index_buffer_offset", "unk8", "draw_element_type", "use_vertex_skinning", "sort_bias", "depth_flags", "bounding_info", "attributes"].Nodup by decide) (fun _ => rfl)).congr (fun _ => rfl) (fun _ => rfl) (fun _ => rfl)

theorem Mesh.RiggingFlags.json_law : JLaw Mesh.RiggingFlags.json Mesh.RiggingFlags.kept :=
  (JLaw.struct ((.and (.field "max_influences" JLaw.u8) (.field "unk1" JLaw.u8))) (show ["max_influences", "unk1"].Nodup by decide) (fun _ => rfl)).congr (fun _ => rfl) (fun _ => rfl) (fun _ => rfl)

theorem Mesh.BoneBuffer.json_law {W2 : Type} {w2J : JCodec W2} {w2S : JSpec W2} (w2L : JLaw w2J w2S) : JLaw (Mesh.BoneBuffer.json w2J) (Mesh.BoneBuffer.kept w2S) :=
  (JLaw.struct ((.and (.field "bone_name" JLaw.ssbhString) (.field "data" w2L))) (show ["bone_name", "data"].Nodup by decide) (fun _ => rfl)).congr (fun _ => rfl) (fun _ => rfl) (fun _ => rfl)

theorem Mesh.RiggingGroup.json_law {W3 : Type} {w3J : JCodec W3} {w3S : JSpec W3} (w3L : JLaw w3J w3S) : JLaw (Mesh.RiggingGroup.json w3J) (Mesh.RiggingGroup.kept w3S) :=
  (JLaw.struct ((.and (.field "mesh_object_name" JLaw.ssbhString) (.and (.field "mesh_object_subindex" JLaw.u64) (.and (.field "flags" Mesh.RiggingFlags.json_law) (.field "buffers" (Mesh.BoneBuffer.json_law w3L).array))))) (show ["mesh_object_name", "mesh_object_subindex", "flags", "buffers"].Nodup by decide) (fun _ => rfl)).congr (fun _ => rfl) (fun _ => rfl) (fun _ => rfl)

theorem Mesh.MeshInner.json_law {A : Type} {W1 : Type} {aJ : JCodec A} {aS : JSpec A} {w1J : JCodec W1} {w1S : JSpec W1} (aL : JLaw aJ aS) (w1L : JLaw w1J w1S) : JLaw (Mesh.MeshInner.json aJ w1J) (Mesh.MeshInner.kept aS w1S) :=
  (JLaw.struct ((.and (.field "model_name" JLaw.ssbhString) (.and (.field "bounding_info" Mesh.BoundingInfo.json_law) (.and (.field "unk1" JLaw.u32) (.and (.field "objects" (Mesh.MeshObject.json_law aL).array) (.and (.field "buffer_sizes" JLaw.u32.array) (.and (.field "polygon_index_size" JLaw.u64) (.and (.field "vertex_buffers" JLaw.hex.array) (.and (.field "index_buffer" JLaw.hex) (.field "rigging_buffers" (Mesh.RiggingGroup.json_law w1L).array)))))))))) (show ["model_name", "bounding_info", "unk1", "objects", "buffer_sizes", "polygon_index_size", "vertex_buffers", "index_buffer", "rigging_buffers"].Nodup by decide) (fun _ => rfl)).congr (fun _ => rfl) (fun _ => rfl) (fun _ => rfl)

theorem Mesh.AttributeUsageV8.json_law : JLaw Mesh.AttributeUsageV8.json Mesh.AttributeUsageV8.kept :=
  JLaw.enumNames (by decide +kernel) (by decide) (by decide +kernel)

theorem Mesh.AttributeDataTypeV8.json_law : JLaw Mesh.AttributeDataTypeV8.json Mesh.AttributeDataTypeV8.kept :=
  JLaw.enumNames (by decide +kernel) (by decide) (by decide +kernel)

theorem Mesh.AttributeV8.json_law : JLaw Mesh.AttributeV8.json Mesh.AttributeV8.kept :=
  (JLaw.struct ((.and (.field "usage" Mesh.AttributeUsageV8.json_law) (.and (.field "data_type" Mesh.AttributeDataTypeV8.json_law) (.and (.field "buffer_index" JLaw.u32) (.and (.field "buffer_offset" JLaw.u32) (.field "subindex" JLaw.u32)))))) (show ["usage", "data_type", "buffer_index", "buffer_offset", "subindex"].Nodup by decide) (fun _ => rfl)).congr (fun _ => rfl) (fun _ => rfl) (fun _ => rfl)

theorem Mesh.VertexWeightV8.json_law : JLaw Mesh.VertexWeightV8.json Mesh.VertexWeightV8.kept :=
  (JLaw.struct ((.and (.field "vertex_index" JLaw.u32) (.field "vertex_weight" JLaw.f32))) (show ["vertex_index", "vertex_weight"].Nodup by decide) (fun _ => rfl)).congr (fun _ => rfl) (fun _ => rfl) (fun _ => rfl)

theorem Mesh.AttributeUsageV9.json_law : JLaw Mesh.AttributeUsageV9.json Mesh.AttributeUsageV9.kept :=
  JLaw.enumNames (by decide +kernel) (by decide) (by decide +kernel)

theorem Mesh.AttributeV9.json_law : JLaw Mesh.AttributeV9.json Mesh.AttributeV9.kept :=
  (JLaw.struct ((.and (.field "usage" Mesh.AttributeUsageV9.json_law) (.and (.field "data_type" Mesh.AttributeDataTypeV8.json_law) (.and (.field "buffer_index" JLaw.u32) (.and (.field "buffer_offset" JLaw.u32) (.and (.field "subindex" JLaw.u64) (.and (.field "name" JLaw.ssbhString) (.field "attribute_names" JLaw.ssbhString.array)))))))) (show ["usage", "data_type", "buffer_index", "buffer_offset", "subindex", "name", "attribute_names"].Nodup by decide) (fun _ => rfl)).congr (fun _ => rfl) (fun _ => rfl) (fun _ => rfl)

theorem Mesh.AttributeDataTypeV10.json_law : JLaw Mesh.AttributeDataTypeV10.json Mesh.AttributeDataTypeV10.kept :=
  JLaw.enumNames (by decide +kernel) (by decide) (by decide +kernel)

theorem Mesh.AttributeV10.json_law : JLaw Mesh.AttributeV10.json Mesh.AttributeV10.kept :=
  (JLaw.struct ((.and (.field "usage" Mesh.AttributeUsageV9.json_law) (.and (.field "data_type" Mesh.AttributeDataTypeV10.json_law) (.and (.field "buffer_index" JLaw.u32) (.and (.field "buffer_offset" JLaw.u32) (.and (.field "subindex" JLaw.u64) (.and (.field "name" JLaw.ssbhString) (.field "attribute_names" JLaw.ssbhString.array)))))))) (show ["usage", "data_type", "buffer_index", "buffer_offset", "subindex", "name", "attribute_names"].Nodup by decide) (fun _ => rfl)).congr (fun _ => rfl) (fun _ => rfl) (fun _ => rfl)

theorem Mesh.json_law : JLaw Mesh.json Mesh.kept where
  null v := by cases v <;> simp [Mesh.json, Mesh.kept]
  back v := by
    cases v with
    | V8 v =>
      have h := (Mesh.MeshInner.json_law Mesh.AttributeV8.json_law Mesh.VertexWeightV8.json_law.array).back v
      exact back_variant (s := (Mesh.MeshInner.kept Mesh.AttributeV8.kept (JSpec.list Mesh.VertexWeightV8.kept))) (t := Mesh.kept) (f := Mesh.V8) h rfl rfl
    | V9 v =>
      have h := (Mesh.MeshInner.json_law Mesh.AttributeV9.json_law Mesh.VertexWeightV8.json_law.array).back v
      exact back_variant (s := (Mesh.MeshInner.kept Mesh.AttributeV9.kept (JSpec.list Mesh.VertexWeightV8.kept))) (t := Mesh.kept) (f := Mesh.V9) h rfl rfl
    | V10 v =>
      have h := (Mesh.MeshInner.json_law Mesh.AttributeV10.json_law JLaw.hex).back v
      exact back_variant (s := (Mesh.MeshInner.kept Mesh.AttributeV10.kept JSpec.plain)) (t := Mesh.kept) (f := Mesh.V10) h rfl rfl
  same v hv := by
    cases v with
    | V8 v => exact congrArg (fun j => J.obj [("V8", j)]) ((Mesh.MeshInner.json_law Mesh.AttributeV8.json_law Mesh.VertexWeightV8.json_law.array).same v hv)
    | V9 v => exact congrArg (fun j => J.obj [("V9", j)]) ((Mesh.MeshInner.json_law Mesh.AttributeV9.json_law Mesh.VertexWeightV8.json_law.array).same v hv)
    | V10 v => exact congrArg (fun j => J.obj [("V10", j)]) ((Mesh.MeshInner.json_law Mesh.AttributeV10.json_law JLaw.hex).same v hv)

/-- Short codes of the names, to compare numbers instead of strings. -/
def Matl.ParamId.codes : List Nat :=
   [3324122946, 2227099491, 772508280, 3418669931, 2486869880, 890766426, 2242813804, 1367009122, 1061281979,
    1802983024, 2819715347, 3577903167, 1504351750, 1026288501, 890766427, 2047890587, 651227368, 1535916521,
    643552927, 1315062200, 872639533, 2096259152, 2448085459, 4237052646, 2685950736, 333991896, 2081203276,
    3621576661, 3207913031, 3238484252, 4180784826, 3161192185, 1359474628, 476670821, 3091913049, 2449783492,
    2240549589, 405812037, 772570385, 989984284, 2528339911, 3570576167, 1056586886, 4064197195, 4101308620,
    2474845655, 2883919223, 1572515681, 3909227314, 3046172779, 1224705950, 3209779460, 290460285, 1463675214,
    2830008428, 2374790922, 349586325, 4130560448, 2328460896, 3941020397, 2193426290, 1520593843, 604074750,
    3631954352, 1158902374, 1688566565, 643582209, 1743074621, 3091913050, 3884294197, 126125311, 3884294198,
    3077306604, 3077306605, 3686613857, 3686613858, 3876231856, 3876231857, 1741153300, 1741153301, 2971527868,
    972636084, 972636085, 972636086, 972636087, 972636088, 972636089, 972636090, 972636091, 1395265887, 2293502403,
    3705955436, 3356963477, 3356963478, 3356963479, 3356963480, 3356963481, 3356963482, 3356963483, 3356963484,
    3356963485, 3356963486, 986652762, 986652763, 986652764, 986652765, 986652766, 986652767, 2040210760, 2040210761,
    2040210762, 2040210763, 2040210764, 2040210765, 2040210766, 2040210767, 2040210768, 2040210769, 3116991495,
    3116991496, 3116991497, 3116991498, 3116991499, 3116991500, 2044370719, 2044370720, 2044370721, 2044370722,
    2044370723, 2044370724, 2044370725, 2044370726, 2657684414, 2657684415, 2657684416, 2657684417, 2657684418,
    2657684419, 2657684420, 2657684421, 2657684422, 2657684423, 783838289, 783838290, 783838291, 783838292,
    783838293, 783838294, 783838295, 783838296, 783838297, 783838298, 2154164860, 2154164861, 2154164862, 2154164863,
    2154164864, 2154164865, 2154164866, 2154164867, 2154164868, 2154164869, 2354601299, 2354601300, 2354601301,
    2354601302, 2354601303, 2354601304, 2354601305, 2354601306, 2354601307, 2354601308, 89223198, 89223199, 89223200,
    89223201, 89223202, 89223203, 89223204, 89223205, 89223206, 89223207, 2765919217, 2765919218, 2765919219,
    2765919220, 2765919221, 2765919222, 2765919223, 2765919224, 2765919225, 2765919226, 172416069, 172416070,
    172416071, 172416072, 172416073, 172416074, 172416075, 172416076, 172416077, 172416078, 1049930922, 1049930923,
    1049930924, 1049930925, 1049930926, 1049930927, 1049930928, 1049930929, 1049930930, 1049930931, 1043095907,
    1043095908, 1043095909, 1043095910, 1043095911, 1043095912, 1043095913, 1043095914, 1043095915, 1043095916,
    2271202124, 2271202125, 2271202126, 2271202127, 2271202128, 2271202129, 2271202130, 2271202131, 2271202132,
    2271202133, 2479084473, 2479084474, 2479084475, 2479084476, 2479084477, 2479084478, 2479084479, 2479084480,
    2479084481, 2479084482, 3837174710, 3837174711, 3837174712, 3837174713, 3837174714, 3837174715, 3837174716,
    3837174717, 3837174718, 3837174719, 1061628901, 1061628902, 1061628903, 1061628904, 1061628905, 1061628906,
    1061628907, 1061628908, 1061628909, 1061628910, 2845724938, 2845724939, 2845724940, 2845724941, 2845724942,
    2845724943, 633761832, 633761833, 3727099593, 3727099594, 118653549, 118653550, 574633257, 2752628328,
    4021700164, 2197133008, 1510513057, 3381302205, 3520381264, 3520381265, 3520381266, 3520381267, 3520381268,
    3520381269, 3520381270, 3520381271, 3520381272, 3520381273, 1757636863, 655806042, 655806043, 655806044,
    655806045, 655806046, 655806047, 655806048, 655806049, 655806050, 655806051, 3150118197, 78127619, 176311493,
    176311494, 495077844, 1262907267, 986652768, 986652769, 986652770, 986652771, 3116991501, 3116991502, 3116991503,
    3116991504, 2354601330, 2354601331, 2354601332, 2354601333, 2354601334, 2354601335, 2354601336, 2354601337,
    2354601338, 2354601339, 2354601361, 2354601362, 2354601363, 2354601364, 2354601365, 2354601366, 2354601367,
    2354601368, 2354601369, 2354601370, 2354601392, 2354601393, 2354601394, 2354601395, 2354601396, 2354601397,
    2354601398, 2354601399, 2354601400, 2354601401, 2354601423, 2354601424, 2354601425, 2354601426, 2354601427,
    2354601428, 2354601429, 2354601430, 2354601431, 2354601432, 2354601454, 2354601455, 2354601456, 2354601457,
    3875432433, 4044358358, 2161179914, 3315420842, 3296323229, 2540142077, 4070733039]

theorem Matl.ParamId.names_nodup : Matl.ParamId.names.Nodup := by
  have h : Matl.ParamId.names.map nameCode = Matl.ParamId.codes := by decide +kernel
  exact nodup_of_map (f := nameCode) (by rw [h]; decide +kernel)

theorem Matl.ParamId.json_law : JLaw Matl.ParamId.json Matl.ParamId.kept :=
  JLaw.enumNames Matl.ParamId.names_nodup List.nodup_range (by decide +kernel)

theorem Matl.WrapMode.json_law : JLaw Matl.WrapMode.json Matl.WrapMode.kept :=
  JLaw.enumNames (by decide +kernel) (by decide) (by decide +kernel)

theorem Matl.MinFilter.json_law : JLaw Matl.MinFilter.json Matl.MinFilter.kept :=
  JLaw.enumNames (by decide +kernel) (by decide) (by decide +kernel)

theorem Matl.MagFilter.json_law : JLaw Matl.MagFilter.json Matl.MagFilter.kept :=
  JLaw.enumNames (by decide +kernel) (by decide) (by decide +kernel)

theorem Matl.FilteringType.json_law : JLaw Matl.FilteringType.json Matl.FilteringType.kept :=
  JLaw.enumNames (by decide +kernel) (by decide) (by decide +kernel)

theorem Matl.MaxAnisotropy.json_law : JLaw Matl.MaxAnisotropy.json Matl.MaxAnisotropy.kept :=
  JLaw.enumNames (by decide +kernel) (by decide) (by decide +kernel)

theorem Matl.Sampler.json_law : JLaw Matl.Sampler.json Matl.Sampler.kept :=
  (JLaw.struct ((.and (.field "wraps" Matl.WrapMode.json_law) (.and (.field "wrapt" Matl.WrapMode.json_law) (.and (.field "wrapr" Matl.WrapMode.json_law) (.and (.field "min_filter" Matl.MinFilter.json_law) (.and (.field "mag_filter" Matl.MagFilter.json_law) (.and (.field "texture_filtering_type" Matl.FilteringType.json_law) (.and (.field "border_color" Color4f.json_law) (.and (.field "unk11" JLaw.u32) (.and (.field "unk12" JLaw.u32) (.and (.field "lod_bias" JLaw.f32) (.field "max_anisotropy" Matl.MaxAnisotropy.json_law)))))))))))) (show ["wraps", "wrapt", "wrapr", "min_filter", "mag_filter", "texture_filtering_type", "border_color", "unk11", "unk12", "lod_bias", "max_anisotropy"].Nodup by decide) (fun _ => rfl)).congr (fun _ => rfl) (fun _ => rfl) (fun _ => rfl)

theorem Matl.UvTransform.json_law : JLaw Matl.UvTransform.json Matl.UvTransform.kept :=
  (JLaw.struct ((.and (.field "scale_u" JLaw.f32) (.and (.field "scale_v" JLaw.f32) (.and (.field "rotation" JLaw.f32) (.and (.field "translate_u" JLaw.f32) (.field "translate_v" JLaw.f32)))))) (show ["scale_u", "scale_v", "rotation", "translate_u", "translate_v"].Nodup by decide) (fun _ => rfl)).congr (fun _ => rfl) (fun _ => rfl) (fun _ => rfl)

theorem Matl.BlendFactor.json_law : JLaw Matl.BlendFactor.json Matl.BlendFactor.kept :=
  JLaw.enumNames (by decide +kernel) (by decide) (by decide +kernel)

theorem Matl.BlendOperation.json_law : JLaw Matl.BlendOperation.json Matl.BlendOperation.kept :=
  JLaw.enumNames (by decide +kernel) (by decide) (by decide +kernel)

theorem Matl.BlendStateV15.json_law : JLaw Matl.BlendStateV15.json Matl.BlendStateV15.kept :=
  (JLaw.struct ((.and (.field "source_color" Matl.BlendFactor.json_law) (.and (.field "color_operation" Matl.BlendOperation.json_law) (.and (.field "destination_color" Matl.BlendFactor.json_law) (.and (.field "source_alpha" Matl.BlendFactor.json_law) (.and (.field "alpha_operation" Matl.BlendOperation.json_law) (.and (.field "destination_alpha" Matl.BlendFactor.json_law) (.and (.field "unk6" JLaw.u64) (.and (.field "unk7" JLaw.u32) (.and (.field "unk8" JLaw.u32) (.field "unk9" JLaw.u32))))))))))) (show ["source_color", "color_operation", "destination_color", "source_alpha", "alpha_operation", "destination_alpha", "unk6", "unk7", "unk8", "unk9"].Nodup by decide) (fun _ => rfl)).congr (fun _ => rfl) (fun _ => rfl) (fun _ => rfl)

theorem Matl.CullMode.json_law : JLaw Matl.CullMode.json Matl.CullMode.kept :=
  JLaw.enumNames (by decide +kernel) (by decide) (by decide +kernel)

theorem Matl.RasterizerStateV15.json_law : JLaw Matl.RasterizerStateV15.json Matl.RasterizerStateV15.kept :=
  (JLaw.struct ((.field "cull_mode" Matl.CullMode.json_law)) (show ["cull_mode"].Nodup by decide) (fun _ => rfl)).congr (fun _ => rfl) (fun _ => rfl) (fun _ => rfl)

theorem Matl.ParamV15.json_law : JLaw Matl.ParamV15.json Matl.ParamV15.kept where
  null v := by cases v <;> simp [Matl.ParamV15.json, Matl.ParamV15.kept]
  back v := by
    cases v with
    | Float v =>
      have h := JLaw.f32.back v
      exact back_variant (s := JSpec.float) (t := Matl.ParamV15.kept) (f := Matl.ParamV15.Float) h rfl rfl
    | Boolean v =>
      have h := JLaw.u32.back v
      exact back_variant (s := JSpec.plain) (t := Matl.ParamV15.kept) (f := Matl.ParamV15.Boolean) h rfl rfl
    | Vector4 v =>
      have h := Vector4.json_law.back v
      exact back_variant (s := Vector4.kept) (t := Matl.ParamV15.kept) (f := Matl.ParamV15.Vector4) h rfl rfl
    | Unk7 v =>
      have h := Color4f.json_law.back v
      exact back_variant (s := Color4f.kept) (t := Matl.ParamV15.kept) (f := Matl.ParamV15.Unk7) h rfl rfl
    | String v =>
      have h := JLaw.ssbhString.back v
      exact back_variant (s := (JSpec.pointer JSpec.text)) (t := Matl.ParamV15.kept) (f := Matl.ParamV15.String) h rfl rfl
    | Sampler v =>
      have h := Matl.Sampler.json_law.back v
      exact back_variant (s := Matl.Sampler.kept) (t := Matl.ParamV15.kept) (f := Matl.ParamV15.Sampler) h rfl rfl
    | UvTransform v =>
      have h := Matl.UvTransform.json_law.back v
      exact back_variant (s := Matl.UvTransform.kept) (t := Matl.ParamV15.kept) (f := Matl.ParamV15.UvTransform) h rfl rfl
    | BlendState v =>
      have h := Matl.BlendStateV15.json_law.back v
      exact back_variant (s := Matl.BlendStateV15.kept) (t := Matl.ParamV15.kept) (f := Matl.ParamV15.BlendState) h rfl rfl
    | RasterizerState v =>
      have h := Matl.RasterizerStateV15.json_law.back v
      exact back_variant (s := Matl.RasterizerStateV15.kept) (t := Matl.ParamV15.kept) (f := Matl.ParamV15.RasterizerState) h rfl rfl
  same v hv := by
    cases v with
    | Float v => exact congrArg (fun j => J.obj [("Float", j)]) (JLaw.f32.same v hv)
    | Boolean v => exact congrArg (fun j => J.obj [("Boolean", j)]) (JLaw.u32.same v hv)
    | Vector4 v => exact congrArg (fun j => J.obj [("Vector4", j)]) (Vector4.json_law.same v hv)
    | Unk7 v => exact congrArg (fun j => J.obj [("Unk7", j)]) (Color4f.json_law.same v hv)
    | String v => exact congrArg (fun j => J.obj [("String", j)]) (JLaw.ssbhString.same v hv)
    | Sampler v => exact congrArg (fun j => J.obj [("Sampler", j)]) (Matl.Sampler.json_law.same v hv)
    | UvTransform v => exact congrArg (fun j => J.obj [("UvTransform", j)]) (Matl.UvTransform.json_law.same v hv)
    | BlendState v => exact congrArg (fun j => J.obj [("BlendState", j)]) (Matl.BlendStateV15.json_law.same v hv)
    | RasterizerState v => exact congrArg (fun j => J.obj [("RasterizerState", j)]) (Matl.RasterizerStateV15.json_law.same v hv)

theorem Matl.AttributeV15.json_law : JLaw Matl.AttributeV15.json Matl.AttributeV15.kept :=
  (JLaw.struct ((.and (.field "param_id" Matl.ParamId.json_law) (.field "param" Matl.ParamV15.json_law.enum64))) (show ["param_id", "param"].Nodup by decide) (fun _ => rfl)).congr (fun _ => rfl) (fun _ => rfl) (fun _ => rfl)

theorem Matl.MatlEntryV15.json_law : JLaw Matl.MatlEntryV15.json Matl.MatlEntryV15.kept :=
  (JLaw.struct ((.and (.field "material_label" JLaw.ssbhString) (.and (.field "attributes" Matl.AttributeV15.json_law.array) (.field "shader_label" JLaw.ssbhString)))) (show ["material_label", "attributes", "shader_label"].Nodup by decide) (fun _ => rfl)).congr (fun _ => rfl) (fun _ => rfl) (fun _ => rfl)

theorem Matl.BlendStateV16.json_law : JLaw Matl.BlendStateV16.json Matl.BlendStateV16.kept :=
  (JLaw.struct ((.and (.field "source_color" Matl.BlendFactor.json_law) (.and (.field "color_operation" Matl.BlendOperation.json_law) (.and (.field "destination_color" Matl.BlendFactor.json_law) (.and (.field "source_alpha" Matl.BlendFactor.json_law) (.and (.field "alpha_operation" Matl.BlendOperation.json_law) (.and (.field "destination_alpha" Matl.BlendFactor.json_law) (.and (.field "alpha_sample_to_coverage" JLaw.u32) (.and (.field "unk8" JLaw.u32) (.and (.field "unk9" JLaw.u32) (.field "unk10" JLaw.u32))))))))))) (show ["source_color", "color_operation", "destination_color", "source_alpha", "alpha_operation", "destination_alpha", "alpha_sample_to_coverage", "unk8", "unk9", "unk10"].Nodup by decide) (fun _ => rfl)).congr (fun _ => rfl) (fun _ => rfl) (fun _ => rfl)

theorem Matl.FillMode.json_law : JLaw Matl.FillMode.json Matl.FillMode.kept :=
  JLaw.enumNames (by decide +kernel) (by decide) (by decide +kernel)

theorem Matl.RasterizerStateV16.json_law : JLaw Matl.RasterizerStateV16.json Matl.RasterizerStateV16.kept :=
  (JLaw.struct ((.and (.field "fill_mode" Matl.FillMode.json_law) (.and (.field "cull_mode" Matl.CullMode.json_law) (.and (.field "depth_bias" JLaw.f32) (.and (.field "unk4" JLaw.f32) (.and (.field "unk5" JLaw.f32) (.field "unk6" JLaw.u32))))))) (show ["fill_mode", "cull_mode", "depth_bias", "unk4", "unk5", "unk6"].Nodup by decide) (fun _ => rfl)).congr (fun _ => rfl) (fun _ => rfl) (fun _ => rfl)

theorem Matl.ParamV16.json_law : JLaw Matl.ParamV16.json Matl.ParamV16.kept where
  null v := by cases v <;> simp [Matl.ParamV16.json, Matl.ParamV16.kept]
  back v := by
    cases v with
    | Float v =>
      have h := JLaw.f32.back v
      exact back_variant (s := JSpec.float) (t := Matl.ParamV16.kept) (f := Matl.ParamV16.Float) h rfl rfl
    | Boolean v =>
      have h := JLaw.u32.back v
      exact back_variant (s := JSpec.plain) (t := Matl.ParamV16.kept) (f := Matl.ParamV16.Boolean) h rfl rfl
    | Vector4 v =>
      have h := Vector4.json_law.back v
      exact back_variant (s := Vector4.kept) (t := Matl.ParamV16.kept) (f := Matl.ParamV16.Vector4) h rfl rfl
    | Unk7 v =>
      have h := Color4f.json_law.back v
      exact back_variant (s := Color4f.kept) (t := Matl.ParamV16.kept) (f := Matl.ParamV16.Unk7) h rfl rfl
    | String v =>
      have h := JLaw.ssbhString.back v
      exact back_variant (s := (JSpec.pointer JSpec.text)) (t := Matl.ParamV16.kept) (f := Matl.ParamV16.String) h rfl rfl
    | Sampler v =>
      have h := Matl.Sampler.json_law.back v
      exact back_variant (s := Matl.Sampler.kept) (t := Matl.ParamV16.kept) (f := Matl.ParamV16.Sampler) h rfl rfl
    | UvTransform v =>
      have h := Matl.UvTransform.json_law.back v
      exact back_variant (s := Matl.UvTransform.kept) (t := Matl.ParamV16.kept) (f := Matl.ParamV16.UvTransform) h rfl rfl
    | BlendState v =>
      have h := Matl.BlendStateV16.json_law.back v
      exact back_variant (s := Matl.BlendStateV16.kept) (t := Matl.ParamV16.kept) (f := Matl.ParamV16.BlendState) h rfl rfl
    | RasterizerState v =>
      have h := Matl.RasterizerStateV16.json_law.back v
      exact back_variant (s := Matl.RasterizerStateV16.kept) (t := Matl.ParamV16.kept) (f := Matl.ParamV16.RasterizerState) h rfl rfl
  same v hv := by
    cases v with
    | Float v => exact congrArg (fun j => J.obj [("Float", j)]) (JLaw.f32.same v hv)
    | Boolean v => exact congrArg (fun j => J.obj [("Boolean", j)]) (JLaw.u32.same v hv)
    | Vector4 v => exact congrArg (fun j => J.obj [("Vector4", j)]) (Vector4.json_law.same v hv)
    | Unk7 v => exact congrArg (fun j => J.obj [("Unk7", j)]) (Color4f.json_law.same v hv)
    | String v => exact congrArg (fun j => J.obj [("String", j)]) (JLaw.ssbhString.same v hv)
    | Sampler v => exact congrArg (fun j => J.obj [("Sampler", j)]) (Matl.Sampler.json_law.same v hv)
    | UvTransform v => exact congrArg (fun j => J.obj [("UvTransform", j)]) (Matl.UvTransform.json_law.same v hv)
    | BlendState v => exact congrArg (fun j => J.obj [("BlendState", j)]) (Matl.BlendStateV16.json_law.same v hv)
    | RasterizerState v => exact congrArg (fun j => J.obj [("RasterizerState", j)]) (Matl.RasterizerStateV16.json_law.same v hv)

theorem Matl.AttributeV16.json_law : JLaw Matl.AttributeV16.json Matl.AttributeV16.kept :=
  (JLaw.struct ((.and (.field "param_id" Matl.ParamId.json_law) (.field "param" Matl.ParamV16.json_law.enum64))) (show ["param_id", "param"].Nodup by decide) (fun _ => rfl)).congr (fun _ => rfl) (fun _ => rfl) (fun _ => rfl)

theorem Matl.MatlEntryV16.json_law : JLaw Matl.MatlEntryV16.json Matl.MatlEntryV16.kept :=
  (JLaw.struct ((.and (.field "material_label" JLaw.ssbhString) (.and (.field "attributes" Matl.AttributeV16.json_law.array) (.field "shader_label" JLaw.ssbhString)))) (show ["material_label", "attributes", "shader_label"].Nodup by decide) (fun _ => rfl)).congr (fun _ => rfl) (fun _ => rfl) (fun _ => rfl)

theorem Matl.V15Data.json_law : JLaw Matl.V15Data.json Matl.V15Data.kept :=
  (JLaw.struct ((.field "entries" Matl.MatlEntryV15.json_law.array)) (show ["entries"].Nodup by decide) (fun _ => rfl)).congr (fun _ => rfl) (fun _ => rfl) (fun _ => rfl)

theorem Matl.V16Data.json_law : JLaw Matl.V16Data.json Matl.V16Data.kept :=
  (JLaw.struct ((.field "entries" Matl.MatlEntryV16.json_law.array)) (show ["entries"].Nodup by decide) (fun _ => rfl)).congr (fun _ => rfl) (fun _ => rfl) (fun _ => rfl)

theorem Matl.json_law : JLaw Matl.json Matl.kept where
  null v := by cases v <;> simp [Matl.json, Matl.kept]
  back v := by
    cases v with
    | V15 v =>
      have h := Matl.V15Data.json_law.back v
      exact back_variant (s := Matl.V15Data.kept) (t := Matl.kept) (f := Matl.V15) h rfl rfl
    | V16 v =>
      have h := Matl.V16Data.json_law.back v
      exact back_variant (s := Matl.V16Data.kept) (t := Matl.kept) (f := Matl.V16) h rfl rfl
  same v hv := by
    cases v with
    | V15 v => exact congrArg (fun j => J.obj [("V15", j)]) (Matl.V15Data.json_law.same v hv)
    | V16 v => exact congrArg (fun j => J.obj [("V16", j)]) (Matl.V16Data.json_law.same v hv)

theorem Nrpd.UnkFormat.json_law : JLaw Nrpd.UnkFormat.json Nrpd.UnkFormat.kept :=
  JLaw.enumNames (by decide +kernel) (by decide) (by decide +kernel)

theorem Nrpd.Framebuffer0.json_law : JLaw Nrpd.Framebuffer0.json Nrpd.Framebuffer0.kept :=
  (JLaw.struct ((.and (.field "name" JLaw.ssbhString) (.and (.field "width" JLaw.u32) (.and (.field "height" JLaw.u32) (.and (.field "unk1" Nrpd.UnkFormat.json_law) (.and (.field "unk2" JLaw.u32) (.field "unk3" JLaw.u32))))))) (show ["name", "width", "height", "unk1", "unk2", "unk3"].Nodup by decide) (fun _ => rfl)).congr (fun _ => rfl) (fun _ => rfl) (fun _ => rfl)

theorem Nrpd.Framebuffer1.json_law : JLaw Nrpd.Framebuffer1.json Nrpd.Framebuffer1.kept :=
  (JLaw.struct ((.and (.field "name" JLaw.ssbhString) (.and (.field "width" JLaw.u32) (.and (.field "height" JLaw.u32) (.and (.field "unk1" JLaw.u64) (.and (.field "unk2" JLaw.u32) (.field "unk3" JLaw.u32))))))) (show ["name", "width", "height", "unk1", "unk2", "unk3"].Nodup by decide) (fun _ => rfl)).congr (fun _ => rfl) (fun _ => rfl) (fun _ => rfl)

theorem Nrpd.UniformBuffer.json_law : JLaw Nrpd.UniformBuffer.json Nrpd.UniformBuffer.kept :=
  (JLaw.struct ((.and (.field "name" JLaw.ssbhString) (.and (.field "unk1" JLaw.u32) (.and (.field "unk2" JLaw.u32) (.field "unk3" JLaw.u64))))) (show ["name", "unk1", "unk2", "unk3"].Nodup by decide) (fun _ => rfl)).congr (fun _ => rfl) (fun _ => rfl) (fun _ => rfl)

theorem Nrpd.Framebuffer3.json_law : JLaw Nrpd.Framebuffer3.json Nrpd.Framebuffer3.kept :=
  (JLaw.struct ((.and (.field "name" JLaw.ssbhString) (.and (.field "width" JLaw.u32) (.and (.field "height" JLaw.u32) (.and (.field "unk1" JLaw.u32) (.and (.field "unk2" JLaw.u32) (.and (.field "unk3" JLaw.u32) (.field "unk4" JLaw.u32)))))))) (show ["name", "width", "height", "unk1", "unk2", "unk3", "unk4"].Nodup by decide) (fun _ => rfl)).congr (fun _ => rfl) (fun _ => rfl) (fun _ => rfl)

theorem Nrpd.Framebuffer4.json_law : JLaw Nrpd.Framebuffer4.json Nrpd.Framebuffer4.kept :=
  (JLaw.struct ((.and (.field "name" JLaw.ssbhString) (.and (.field "width" JLaw.u32) (.and (.field "height" JLaw.u32) (.field "unk3" JLaw.u64))))) (show ["name", "width", "height", "unk3"].Nodup by decide) (fun _ => rfl)).congr (fun _ => rfl) (fun _ => rfl) (fun _ => rfl)

theorem Nrpd.FrameBuffer.json_law : JLaw Nrpd.FrameBuffer.json Nrpd.FrameBuffer.kept where
  null v := by cases v <;> simp [Nrpd.FrameBuffer.json, Nrpd.FrameBuffer.kept]
  back v := by
    cases v with
    | Framebuffer0 v =>
      have h := Nrpd.Framebuffer0.json_law.back v
      exact back_variant (s := Nrpd.Framebuffer0.kept) (t := Nrpd.FrameBuffer.kept) (f := Nrpd.FrameBuffer.Framebuffer0) h rfl rfl
    | Framebuffer1 v =>
      have h := Nrpd.Framebuffer1.json_law.back v
      exact back_variant (s := Nrpd.Framebuffer1.kept) (t := Nrpd.FrameBuffer.kept) (f := Nrpd.FrameBuffer.Framebuffer1) h rfl rfl
    | UniformBuffer v =>
      have h := Nrpd.UniformBuffer.json_law.back v
      exact back_variant (s := Nrpd.UniformBuffer.kept) (t := Nrpd.FrameBuffer.kept) (f := Nrpd.FrameBuffer.UniformBuffer) h rfl rfl
    | Framebuffer3 v =>
      have h := Nrpd.Framebuffer3.json_law.back v
      exact back_variant (s := Nrpd.Framebuffer3.kept) (t := Nrpd.FrameBuffer.kept) (f := Nrpd.FrameBuffer.Framebuffer3) h rfl rfl
    | Framebuffer4 v =>
      have h := Nrpd.Framebuffer4.json_law.back v
      exact back_variant (s := Nrpd.Framebuffer4.kept) (t := Nrpd.FrameBuffer.kept) (f := Nrpd.FrameBuffer.Framebuffer4) h rfl rfl
  same v hv := by
    cases v with
    | Framebuffer0 v => exact congrArg (fun j => J.obj [("Framebuffer0", j)]) (Nrpd.Framebuffer0.json_law.same v hv)
    | Framebuffer1 v => exact congrArg (fun j => J.obj [("Framebuffer1", j)]) (Nrpd.Framebuffer1.json_law.same v hv)
    | UniformBuffer v => exact congrArg (fun j => J.obj [("UniformBuffer", j)]) (Nrpd.UniformBuffer.json_law.same v hv)
    | Framebuffer3 v => exact congrArg (fun j => J.obj [("Framebuffer3", j)]) (Nrpd.Framebuffer3.json_law.same v hv)
    | Framebuffer4 v => exact congrArg (fun j => J.obj [("Framebuffer4", j)]) (Nrpd.Framebuffer4.json_law.same v hv)

theorem Nrpd.NrpdSampler.json_law : JLaw Nrpd.NrpdSampler.json Nrpd.NrpdSampler.kept :=
  (JLaw.struct ((.and (.field "name" JLaw.ssbhString) (.and (.field "data" Matl.Sampler.json_law) (.field "unk13" JLaw.u64)))) (show ["name", "data", "unk13"].Nodup by decide) (fun _ => rfl)).congr (fun _ => rfl) (fun _ => rfl) (fun _ => rfl)

theorem Nrpd.NrpdRasterizerState.json_law : JLaw Nrpd.NrpdRasterizerState.json Nrpd.NrpdRasterizerState.kept :=
  (JLaw.struct ((.and (.field "name" JLaw.ssbhString) (.and (.field "fill_mode" Matl.FillMode.json_law) (.and (.field "cull_mode" Matl.CullMode.json_law) (.and (.field "depth_bias" JLaw.f32) (.and (.field "unk4" JLaw.f32) (.and (.field "unk5" JLaw.f32) (.field "unk6" JLaw.u32)))))))) (show ["name", "fill_mode", "cull_mode", "depth_bias", "unk4", "unk5", "unk6"].Nodup by decide) (fun _ => rfl)).congr (fun _ => rfl) (fun _ => rfl) (fun _ => rfl)

theorem Nrpd.DepthState.json_law : JLaw Nrpd.DepthState.json Nrpd.DepthState.kept :=
  (JLaw.struct ((.and (.field "name" JLaw.ssbhString) (.and (.field "unk2" JLaw.u32) (.and (.field "unk3" JLaw.u32) (.and (.field "unk4" JLaw.u32) (.and (.field "unk5" JLaw.u32) (.and (.field "unk6" JLaw.u32) (.and (.field "unk7" JLaw.u32) (.and (.field "unk8" JLaw.u64) (.and (.field "unk9" JLaw.u64) (.and (.field "unk10" JLaw.u64) (.field "unk11" JLaw.u64)))))))))))) (show ["name", "unk2", "unk3", "unk4", "unk5", "unk6", "unk7", "unk8", "unk9", "unk10", "unk11"].Nodup by decide) (fun _ => rfl)).congr (fun _ => rfl) (fun _ => rfl) (fun _ => rfl)

theorem Nrpd.NrpdBlendState.json_law : JLaw Nrpd.NrpdBlendState.json Nrpd.NrpdBlendState.kept :=
  (JLaw.struct ((.and (.field "name" JLaw.ssbhString) (.and (.field "source_color" Matl.BlendFactor.json_law) (.and (.field "unk2" JLaw.u32) (.and (.field "destination_color" Matl.BlendFactor.json_law) (.and (.field "unk4" JLaw.u32) (.and (.field "unk5" JLaw.u32) (.and (.field "unk6" JLaw.u32) (.and (.field "alpha_sample_to_coverage" JLaw.u32) (.and (.field "unk8" JLaw.u32) (.and (.field "unk9" JLaw.u32) (.field "unk10" JLaw.u32)))))))))))) (show ["name", "source_color", "unk2", "destination_color", "unk4", "unk5", "unk6", "alpha_sample_to_coverage", "unk8", "unk9", "unk10"].Nodup by decide) (fun _ => rfl)).congr (fun _ => rfl) (fun _ => rfl) (fun _ => rfl)

theorem Nrpd.State.json_law : JLaw Nrpd.State.json Nrpd.State.kept where
  null v := by cases v <;> simp [Nrpd.State.json, Nrpd.State.kept]
  back v := by
    cases v with
    | Sampler v =>
      have h := Nrpd.NrpdSampler.json_law.back v
      exact back_variant (s := Nrpd.NrpdSampler.kept) (t := Nrpd.State.kept) (f := Nrpd.State.Sampler) h rfl rfl
    | RasterizerState v =>
      have h := Nrpd.NrpdRasterizerState.json_law.back v
      exact back_variant (s := Nrpd.NrpdRasterizerState.kept) (t := Nrpd.State.kept) (f := Nrpd.State.RasterizerState) h rfl rfl
    | DepthState v =>
      have h := Nrpd.DepthState.json_law.back v
      exact back_variant (s := Nrpd.DepthState.kept) (t := Nrpd.State.kept) (f := Nrpd.State.DepthState) h rfl rfl
    | BlendState v =>
      have h := Nrpd.NrpdBlendState.json_law.back v
      exact back_variant (s := Nrpd.NrpdBlendState.kept) (t := Nrpd.State.kept) (f := Nrpd.State.BlendState) h rfl rfl
  same v hv := by
    cases v with
    | Sampler v => exact congrArg (fun j => J.obj [("Sampler", j)]) (Nrpd.NrpdSampler.json_law.same v hv)
    | RasterizerState v => exact congrArg (fun j => J.obj [("RasterizerState", j)]) (Nrpd.NrpdRasterizerState.json_law.same v hv)
    | DepthState v => exact congrArg (fun j => J.obj [("DepthState", j)]) (Nrpd.DepthState.json_law.same v hv)
    | BlendState v => exact congrArg (fun j => J.obj [("BlendState", j)]) (Nrpd.NrpdBlendState.json_law.same v hv)

theorem Nrpd.RenderPassData0.json_law : JLaw Nrpd.RenderPassData0.json Nrpd.RenderPassData0.kept :=
  (JLaw.struct ((.and (.field "unk1" JLaw.ssbhString) (.and (.field "unk2" JLaw.ssbhString) (.field "unk3" JLaw.u64)))) (show ["unk1", "unk2", "unk3"].Nodup by decide) (fun _ => rfl)).congr (fun _ => rfl) (fun _ => rfl) (fun _ => rfl)

theorem Nrpd.RenderPassData1.json_law : JLaw Nrpd.RenderPassData1.json Nrpd.RenderPassData1.kept :=
  (JLaw.struct ((.and (.field "unk1" JLaw.ssbhString) (.field "unk2" JLaw.ssbhString))) (show ["unk1", "unk2"].Nodup by decide) (fun _ => rfl)).congr (fun _ => rfl) (fun _ => rfl) (fun _ => rfl)

theorem Nrpd.RenderPassData2.json_law : JLaw Nrpd.RenderPassData2.json Nrpd.RenderPassData2.kept :=
  (JLaw.struct ((.and (.field "unk1" JLaw.ssbhString) (.and (.field "unk2" JLaw.ssbhString) (.and (.field "unk3" JLaw.u64.relPtr) (.and (.field "unk4" JLaw.u64) (.and (.field "unk5" JLaw.u64.relPtr) (.field "unk6" JLaw.u64))))))) (show ["unk1", "unk2", "unk3", "unk4", "unk5", "unk6"].Nodup by decide) (fun _ => rfl)).congr (fun _ => rfl) (fun _ => rfl) (fun _ => rfl)

theorem Nrpd.Unk8Data.json_law : JLaw Nrpd.Unk8Data.json Nrpd.Unk8Data.kept :=
  (JLaw.struct ((.and (.field "unk1" JLaw.u32) (.field "unk2" JLaw.u32))) (show ["unk1", "unk2"].Nodup by decide) (fun _ => rfl)).congr (fun _ => rfl) (fun _ => rfl) (fun _ => rfl)

theorem Nrpd.RenderPassData3.json_law : JLaw Nrpd.RenderPassData3.json Nrpd.RenderPassData3.kept :=
  (JLaw.struct ((.and (.field "unk1" JLaw.ssbhString) (.and (.field "unk2" JLaw.ssbhString) (.and (.field "unk3" Nrpd.Unk8Data.json_law.relPtr) (.and (.field "unk4" JLaw.u64) (.and (.field "unk5" Nrpd.Unk8Data.json_law.relPtr) (.field "unk6" JLaw.u64))))))) (show ["unk1", "unk2", "unk3", "unk4", "unk5", "unk6"].Nodup by decide) (fun _ => rfl)).congr (fun _ => rfl) (fun _ => rfl) (fun _ => rfl)

theorem Nrpd.RenderPassData8.json_law : JLaw Nrpd.RenderPassData8.json Nrpd.RenderPassData8.kept :=
  (JLaw.struct ((.and (.field "unk1" JLaw.ssbhString) (.and (.field "unk2" JLaw.ssbhString) (.and (.field "unk3" JLaw.u64.relPtr) (.and (.field "unk4" JLaw.u64) (.and (.field "unk5" JLaw.u64.relPtr) (.field "unk6" JLaw.u64))))))) (show ["unk1", "unk2", "unk3", "unk4", "unk5", "unk6"].Nodup by decide) (fun _ => rfl)).congr (fun _ => rfl) (fun _ => rfl) (fun _ => rfl)

theorem Nrpd.ColorClear.json_law : JLaw Nrpd.ColorClear.json Nrpd.ColorClear.kept :=
  (JLaw.struct ((.and (.field "name" JLaw.ssbhString) (.and (.field "color" Color4f.json_law) (.field "unk1" JLaw.u64)))) (show ["name", "color", "unk1"].Nodup by decide) (fun _ => rfl)).congr (fun _ => rfl) (fun _ => rfl) (fun _ => rfl)

theorem Nrpd.DepthStencilClear.json_law : JLaw Nrpd.DepthStencilClear.json Nrpd.DepthStencilClear.kept :=
  (JLaw.struct ((.and (.field "name" JLaw.ssbhString) (.and (.field "depth" JLaw.f32) (.field "stencil" JLaw.u32)))) (show ["name", "depth", "stencil"].Nodup by decide) (fun _ => rfl)).congr (fun _ => rfl) (fun _ => rfl) (fun _ => rfl)

theorem Nrpd.Viewport.json_law : JLaw Nrpd.Viewport.json Nrpd.Viewport.kept :=
  (JLaw.struct ((.and (.field "name" JLaw.ssbhString) (.and (.field "unk2" JLaw.u64) (.and (.field "width" JLaw.f32) (.and (.field "height" JLaw.f32) (.and (.field "unk_min" JLaw.f32) (.and (.field "unk_max" JLaw.f32) (.field "unk4" JLaw.u64)))))))) (show ["name", "unk2", "width", "height", "unk_min", "unk_max", "unk4"].Nodup by decide) (fun _ => rfl)).congr (fun _ => rfl) (fun _ => rfl) (fun _ => rfl)

theorem Nrpd.RenderPassData13.json_law : JLaw Nrpd.RenderPassData13.json Nrpd.RenderPassData13.kept :=
  (JLaw.struct ((.and (.field "unk1" JLaw.ssbhString) (.and (.field "unk2" JLaw.ssbhString) (.and (.field "unk3" JLaw.u64.relPtr) (.and (.field "unk4" JLaw.u64) (.and (.field "unk5" JLaw.u64.relPtr) (.field "unk6" JLaw.u64))))))) (show ["unk1", "unk2", "unk3", "unk4", "unk5", "unk6"].Nodup by decide) (fun _ => rfl)).congr (fun _ => rfl) (fun _ => rfl) (fun _ => rfl)

theorem Nrpd.StringPair.json_law : JLaw Nrpd.StringPair.json Nrpd.StringPair.kept :=
  (JLaw.struct ((.and (.field "item1" JLaw.ssbhString) (.field "item2" JLaw.ssbhString))) (show ["item1", "item2"].Nodup by decide) (fun _ => rfl)).congr (fun _ => rfl) (fun _ => rfl) (fun _ => rfl)

theorem Nrpd.RenderPassData19.json_law : JLaw Nrpd.RenderPassData19.json Nrpd.RenderPassData19.kept :=
  (JLaw.struct ((.and (.field "unk1" JLaw.ssbhString) (.field "unk2" JLaw.u64))) (show ["unk1", "unk2"].Nodup by decide) (fun _ => rfl)).congr (fun _ => rfl) (fun _ => rfl) (fun _ => rfl)

theorem Nrpd.RenderPassData.json_law : JLaw Nrpd.RenderPassData.json Nrpd.RenderPassData.kept where
  null v := by cases v <;> simp [Nrpd.RenderPassData.json, Nrpd.RenderPassData.kept]
  back v := by
    cases v with
    | FramebufferRtp v =>
      have h := Nrpd.RenderPassData0.json_law.back v
      exact back_variant (s := Nrpd.RenderPassData0.kept) (t := Nrpd.RenderPassData.kept) (f := Nrpd.RenderPassData.FramebufferRtp) h rfl rfl
    | PassUnk1 v =>
      have h := Nrpd.RenderPassData1.json_law.back v
      exact back_variant (s := Nrpd.RenderPassData1.kept) (t := Nrpd.RenderPassData.kept) (f := Nrpd.RenderPassData.PassUnk1) h rfl rfl
    | UnkTexture1 v =>
      have h := Nrpd.RenderPassData2.json_law.back v
      exact back_variant (s := Nrpd.RenderPassData2.kept) (t := Nrpd.RenderPassData.kept) (f := Nrpd.RenderPassData.UnkTexture1) h rfl rfl
    | UnkLight v =>
      have h := Nrpd.RenderPassData3.json_law.back v
      exact back_variant (s := Nrpd.RenderPassData3.kept) (t := Nrpd.RenderPassData.kept) (f := Nrpd.RenderPassData.UnkLight) h rfl rfl
    | Unk8 v =>
      have h := Nrpd.RenderPassData8.json_law.back v
      exact back_variant (s := Nrpd.RenderPassData8.kept) (t := Nrpd.RenderPassData.kept) (f := Nrpd.RenderPassData.Unk8) h rfl rfl
    | ColorClear v =>
      have h := Nrpd.ColorClear.json_law.back v
      exact back_variant (s := Nrpd.ColorClear.kept) (t := Nrpd.RenderPassData.kept) (f := Nrpd.RenderPassData.ColorClear) h rfl rfl
    | DepthStencilClear v =>
      have h := Nrpd.DepthStencilClear.json_law.back v
      exact back_variant (s := Nrpd.DepthStencilClear.kept) (t := Nrpd.RenderPassData.kept) (f := Nrpd.RenderPassData.DepthStencilClear) h rfl rfl
    | Viewport v =>
      have h := Nrpd.Viewport.json_law.back v
      exact back_variant (s := Nrpd.Viewport.kept) (t := Nrpd.RenderPassData.kept) (f := Nrpd.RenderPassData.Viewport) h rfl rfl
    | Sampler v =>
      have h := Nrpd.RenderPassData13.json_law.back v
      exact back_variant (s := Nrpd.RenderPassData13.kept) (t := Nrpd.RenderPassData.kept) (f := Nrpd.RenderPassData.Sampler) h rfl rfl
    | BlendState v =>
      have h := Nrpd.StringPair.json_law.back v
      exact back_variant (s := Nrpd.StringPair.kept) (t := Nrpd.RenderPassData.kept) (f := Nrpd.RenderPassData.BlendState) h rfl rfl
    | RasterizerState v =>
      have h := Nrpd.StringPair.json_law.back v
      exact back_variant (s := Nrpd.StringPair.kept) (t := Nrpd.RenderPassData.kept) (f := Nrpd.RenderPassData.RasterizerState) h rfl rfl
    | DepthStencilState v =>
      have h := Nrpd.StringPair.json_law.back v
      exact back_variant (s := Nrpd.StringPair.kept) (t := Nrpd.RenderPassData.kept) (f := Nrpd.RenderPassData.DepthStencilState) h rfl rfl
    | FramebufferRenderTarget v =>
      have h := JLaw.ssbhString.back v
      exact back_variant (s := (JSpec.pointer JSpec.text)) (t := Nrpd.RenderPassData.kept) (f := Nrpd.RenderPassData.FramebufferRenderTarget) h rfl rfl
    | FramebufferDepthStencil v =>
      have h := JLaw.ssbhString.back v
      exact back_variant (s := (JSpec.pointer JSpec.text)) (t := Nrpd.RenderPassData.kept) (f := Nrpd.RenderPassData.FramebufferDepthStencil) h rfl rfl
    | UnkTexture2 v =>
      have h := Nrpd.RenderPassData19.json_law.back v
      exact back_variant (s := Nrpd.RenderPassData19.kept) (t := Nrpd.RenderPassData.kept) (f := Nrpd.RenderPassData.UnkTexture2) h rfl rfl
  same v hv := by
    cases v with
    | FramebufferRtp v => exact congrArg (fun j => J.obj [("FramebufferRtp", j)]) (Nrpd.RenderPassData0.json_law.same v hv)
    | PassUnk1 v => exact congrArg (fun j => J.obj [("PassUnk1", j)]) (Nrpd.RenderPassData1.json_law.same v hv)
    | UnkTexture1 v => exact congrArg (fun j => J.obj [("UnkTexture1", j)]) (Nrpd.RenderPassData2.json_law.same v hv)
    | UnkLight v => exact congrArg (fun j => J.obj [("UnkLight", j)]) (Nrpd.RenderPassData3.json_law.same v hv)
    | Unk8 v => exact congrArg (fun j => J.obj [("Unk8", j)]) (Nrpd.RenderPassData8.json_law.same v hv)
    | ColorClear v => exact congrArg (fun j => J.obj [("ColorClear", j)]) (Nrpd.ColorClear.json_law.same v hv)
    | DepthStencilClear v => exact congrArg (fun j => J.obj [("DepthStencilClear", j)]) (Nrpd.DepthStencilClear.json_law.same v hv)
    | Viewport v => exact congrArg (fun j => J.obj [("Viewport", j)]) (Nrpd.Viewport.json_law.same v hv)
    | Sampler v => exact congrArg (fun j => J.obj [("Sampler", j)]) (Nrpd.RenderPassData13.json_law.same v hv)
    | BlendState v => exact congrArg (fun j => J.obj [("BlendState", j)]) (Nrpd.StringPair.json_law.same v hv)
    | RasterizerState v => exact congrArg (fun j => J.obj [("RasterizerState", j)]) (Nrpd.StringPair.json_law.same v hv)
    | DepthStencilState v => exact congrArg (fun j => J.obj [("DepthStencilState", j)]) (Nrpd.StringPair.json_law.same v hv)
    | FramebufferRenderTarget v => exact congrArg (fun j => J.obj [("FramebufferRenderTarget", j)]) (JLaw.ssbhString.same v hv)
    | FramebufferDepthStencil v => exact congrArg (fun j => J.obj [("FramebufferDepthStencil", j)]) (JLaw.ssbhString.same v hv)
    | UnkTexture2 v => exact congrArg (fun j => J.obj [("UnkTexture2", j)]) (Nrpd.RenderPassData19.json_law.same v hv)

theorem Nrpd.Unk3Data.json_law : JLaw Nrpd.Unk3Data.json Nrpd.Unk3Data.kept :=
  (JLaw.struct ((.and (.field "unk1" JLaw.ssbhString) (.and (.field "unk2" JLaw.ssbhString) (.and (.field "unk3" JLaw.f32) (.and (.field "unk4" JLaw.f32) (.and (.field "unk5" JLaw.f32) (.field "unk6" JLaw.f32))))))) (show ["unk1", "unk2", "unk3", "unk4", "unk5", "unk6"].Nodup by decide) (fun _ => rfl)).congr (fun _ => rfl) (fun _ => rfl) (fun _ => rfl)

theorem Nrpd.RenderPassUnkData.json_law : JLaw Nrpd.RenderPassUnkData.json Nrpd.RenderPassUnkData.kept where
  null v := by cases v <;> simp [Nrpd.RenderPassUnkData.json, Nrpd.RenderPassUnkData.kept]
  back v := by
    cases v with
    | UnkDataUnk0 v =>
      have h := JLaw.unit.back v
      exact back_variant (s := JSpec.unit) (t := Nrpd.RenderPassUnkData.kept) (f := Nrpd.RenderPassUnkData.UnkDataUnk0) h rfl rfl
    | UnkDataUnk3 v =>
      have h := Nrpd.Unk3Data.json_law.back v
      exact back_variant (s := Nrpd.Unk3Data.kept) (t := Nrpd.RenderPassUnkData.kept) (f := Nrpd.RenderPassUnkData.UnkDataUnk3) h rfl rfl
  same v hv := by
    cases v with
    | UnkDataUnk0 v => exact congrArg (fun j => J.obj [("UnkDataUnk0", j)]) (JLaw.unit.same v hv)
    | UnkDataUnk3 v => exact congrArg (fun j => J.obj [("UnkDataUnk3", j)]) (Nrpd.Unk3Data.json_law.same v hv)

theorem Nrpd.RenderPassContainer.json_law : JLaw Nrpd.RenderPassContainer.json Nrpd.RenderPassContainer.kept :=
  (JLaw.struct ((.and (.field "name" JLaw.ssbhString) (.and (.field "unk1" Nrpd.RenderPassData.json_law.enum64.array) (.and (.field "unk2" Nrpd.RenderPassData.json_law.enum64.array) (.field "unk3" Nrpd.RenderPassUnkData.json_law.enum64))))) (show ["name", "unk1", "unk2", "unk3"].Nodup by decide) (fun _ => rfl)).congr (fun _ => rfl) (fun _ => rfl) (fun _ => rfl)

theorem Nrpd.UnkItem20.json_law : JLaw Nrpd.UnkItem20.json Nrpd.UnkItem20.kept :=
  (JLaw.struct ((.and (.field "unk1" JLaw.ssbhString) (.field "unk2" JLaw.ssbhString))) (show ["unk1", "unk2"].Nodup by decide) (fun _ => rfl)).congr (fun _ => rfl) (fun _ => rfl) (fun _ => rfl)

theorem Nrpd.UnkItem21.json_law : JLaw Nrpd.UnkItem21.json Nrpd.UnkItem21.kept :=
  (JLaw.struct ((.and (.field "unk1" JLaw.ssbhString) (.and (.field "unk2" JLaw.ssbhString) (.field "unk3" JLaw.u32.arrayN)))) (show ["unk1", "unk2", "unk3"].Nodup by decide) (fun _ => rfl)).congr (fun _ => rfl) (fun _ => rfl) (fun _ => rfl)

theorem Nrpd.UnkItem22.json_law : JLaw Nrpd.UnkItem22.json Nrpd.UnkItem22.kept :=
  (JLaw.struct ((.and (.field "unk1" JLaw.ssbhString) (.and (.field "unk2" JLaw.ssbhString) (.and (.field "unk3" JLaw.u32) (.and (.field "unk4" JLaw.u32) (.and (.field "unk5" JLaw.u32) (.and (.field "unk6" Nrpd.UnkFormat.json_law) (.field "unk8" JLaw.u32)))))))) (show ["unk1", "unk2", "unk3", "unk4", "unk5", "unk6", "unk8"].Nodup by decide) (fun _ => rfl)).congr (fun _ => rfl) (fun _ => rfl) (fun _ => rfl)

theorem Nrpd.UnkItem24.json_law : JLaw Nrpd.UnkItem24.json Nrpd.UnkItem24.kept :=
  (JLaw.struct ((.and (.field "unk1" JLaw.ssbhString) (.and (.field "unk2" JLaw.ssbhString) (.field "unk3" JLaw.u32.arrayN)))) (show ["unk1", "unk2", "unk3"].Nodup by decide) (fun _ => rfl)).congr (fun _ => rfl) (fun _ => rfl) (fun _ => rfl)

theorem Nrpd.UnkItem2.json_law : JLaw Nrpd.UnkItem2.json Nrpd.UnkItem2.kept where
  null v := by cases v <;> simp [Nrpd.UnkItem2.json, Nrpd.UnkItem2.kept]
  back v := by
    cases v with
    | UnkItem20 v =>
      have h := Nrpd.UnkItem20.json_law.back v
      exact back_variant (s := Nrpd.UnkItem20.kept) (t := Nrpd.UnkItem2.kept) (f := Nrpd.UnkItem2.UnkItem20) h rfl rfl
    | UnkItem21 v =>
      have h := Nrpd.UnkItem21.json_law.back v
      exact back_variant (s := Nrpd.UnkItem21.kept) (t := Nrpd.UnkItem2.kept) (f := Nrpd.UnkItem2.UnkItem21) h rfl rfl
    | UnkItem22 v =>
      have h := Nrpd.UnkItem22.json_law.back v
      exact back_variant (s := Nrpd.UnkItem22.kept) (t := Nrpd.UnkItem2.kept) (f := Nrpd.UnkItem2.UnkItem22) h rfl rfl
    | UnkItem24 v =>
      have h := Nrpd.UnkItem24.json_law.back v
      exact back_variant (s := Nrpd.UnkItem24.kept) (t := Nrpd.UnkItem2.kept) (f := Nrpd.UnkItem2.UnkItem24) h rfl rfl
  same v hv := by
    cases v with
    | UnkItem20 v => exact congrArg (fun j => J.obj [("UnkItem20", j)]) (Nrpd.UnkItem20.json_law.same v hv)
    | UnkItem21 v => exact congrArg (fun j => J.obj [("UnkItem21", j)]) (Nrpd.UnkItem21.json_law.same v hv)
    | UnkItem22 v => exact congrArg (fun j => J.obj [("UnkItem22", j)]) (Nrpd.UnkItem22.json_law.same v hv)
    | UnkItem24 v => exact congrArg (fun j => J.obj [("UnkItem24", j)]) (Nrpd.UnkItem24.json_law.same v hv)

theorem Nrpd.UnkItem3.json_law : JLaw Nrpd.UnkItem3.json Nrpd.UnkItem3.kept :=
  (JLaw.struct ((.and (.field "name" JLaw.ssbhString) (.field "value" JLaw.ssbhString))) (show ["name", "value"].Nodup by decide) (fun _ => rfl)).congr (fun _ => rfl) (fun _ => rfl) (fun _ => rfl)

theorem Nrpd.UnkItem1.json_law : JLaw Nrpd.UnkItem1.json Nrpd.UnkItem1.kept :=
  (JLaw.struct ((.and (.field "unk1" JLaw.ssbhString) (.field "unk2" Nrpd.UnkItem3.json_law.array))) (show ["unk1", "unk2"].Nodup by decide) (fun _ => rfl)).congr (fun _ => rfl) (fun _ => rfl) (fun _ => rfl)

theorem Nrpd.V16Data.json_law : JLaw Nrpd.V16Data.json Nrpd.V16Data.kept :=
  (JLaw.struct ((.and (.field "frame_buffers" Nrpd.FrameBuffer.json_law.enum64.array) (.and (.field "state_containers" Nrpd.State.json_law.enum64.array) (.and (.field "render_passes" Nrpd.RenderPassContainer.json_law.array) (.and (.field "unk_string_list1" Nrpd.StringPair.json_law.array) (.and (.field "unk_string_list2" Nrpd.UnkItem2.json_law.enum64.array) (.and (.field "unk_list" Nrpd.UnkItem1.json_law.array) (.and (.field "unk_width1" JLaw.u32) (.and (.field "unk_height1" JLaw.u32) (.and (.field "unk3" JLaw.u32) (.and (.field "unk4" JLaw.u32) (.and (.field "unk5" JLaw.u32) (.and (.field "unk6" JLaw.u32) (.and (.field "unk7" JLaw.u32) (.and (.field "unk8" JLaw.u32) (.and (.field "unk9" JLaw.ssbhString) (.and (.field "unk_width2" JLaw.u32) (.and (.field "unk_height2" JLaw.u32) (.field "unk10" JLaw.u64))))))))))))))))))) (show ["frame_buffers", "state_containers", "render_passes", "unk_string_list1", "unk_string_list2", "unk_list", "unk_width1", "unk_height1", "unk3", "unk4", "unk5", "unk6", "unk7", "unk8", "unk9", "unk_width2", "unk_height2", "unk10"].Nodup by decide) (fun _ => rfl)).congr (fun _ => rfl) (fun _ => rfl) (fun _ => rfl)

theorem Nrpd.json_law : JLaw Nrpd.json Nrpd.kept where
  null v := by cases v <;> simp [Nrpd.json, Nrpd.kept]
  back v := by
    cases v with
    | V16 v =>
      have h := Nrpd.V16Data.json_law.back v
      exact back_variant (s := Nrpd.V16Data.kept) (t := Nrpd.kept) (f := Nrpd.V16) h rfl rfl
  same v hv := by
    cases v with
    | V16 v => exact congrArg (fun j => J.obj [("V16", j)]) (Nrpd.V16Data.json_law.same v hv)

theorem MeshEx.AllData.json_law : JLaw MeshEx.AllData.json MeshEx.AllData.kept :=
  (JLaw.struct ((.and (.field "bounding_sphere" Mesh.BoundingSphere.json_law) (.field "name" JLaw.cstr.newtype.ptr))) (show ["bounding_sphere", "name"].Nodup by decide) (fun _ => rfl)).congr (fun _ => rfl) (fun _ => rfl) (fun _ => rfl)

theorem MeshEx.MeshObjectGroup.json_law : JLaw MeshEx.MeshObjectGroup.json MeshEx.MeshObjectGroup.kept :=
  (JLaw.struct ((.and (.field "bounding_sphere" Mesh.BoundingSphere.json_law) (.and (.field "mesh_object_full_name" JLaw.cstr.newtype.ptr) (.field "mesh_object_name" JLaw.cstr.newtype.ptr)))) (show ["bounding_sphere", "mesh_object_full_name", "mesh_object_name"].Nodup by decide) (fun _ => rfl)).congr (fun _ => rfl) (fun _ => rfl) (fun _ => rfl)

theorem MeshEx.MeshEntry.json_law : JLaw MeshEx.MeshEntry.json MeshEx.MeshEntry.kept :=
  (JLaw.struct ((.and (.field "mesh_object_group_index" JLaw.u32) (.field "unk1" Vector3.json_law))) (show ["mesh_object_group_index", "unk1"].Nodup by decide) (fun _ => rfl)).congr (fun _ => rfl) (fun _ => rfl) (fun _ => rfl)

theorem MeshEx.json_law : JLaw MeshEx.json MeshEx.kept :=
  (JLaw.struct ((.and (.field "all_data" MeshEx.AllData.json_law.ptr) (.and (.field "mesh_object_groups" MeshEx.MeshObjectGroup.json_law.vec.ptr) (.and (.field "entries" MeshEx.MeshEntry.json_law.vec.ptr) (.and (.field "entry_flags" JLaw.bitfield16.vec.newtype.ptr) (.field "unk1" JLaw.u32)))))) (show ["all_data", "mesh_object_groups", "entries", "entry_flags", "unk1"].Nodup by decide) (fun _ => rfl)).congr (fun _ => rfl) (fun _ => rfl) (fun _ => rfl)

theorem Adj.AdjEntry.json_law : JLaw Adj.AdjEntry.json Adj.AdjEntry.kept :=
  (JLaw.struct ((.and (.field "mesh_object_index" JLaw.u32) (.field "index_buffer_offset" JLaw.u32))) (show ["mesh_object_index", "index_buffer_offset"].Nodup by decide) (fun _ => rfl)).congr (fun _ => rfl) (fun _ => rfl) (fun _ => rfl)

theorem Adj.json_law : JLaw Adj.json Adj.kept :=
  (JLaw.struct ((.and (.field "entries" Adj.AdjEntry.json_law.vec) (.field "index_buffer" JLaw.i16.vec))) (show ["entries", "index_buffer"].Nodup by decide) (fun _ => rfl)).congr (fun _ => rfl) (fun _ => rfl) (fun _ => rfl)

theorem Ssbh.json_law : JLaw Ssbh.json Ssbh.kept where
  null v := by cases v <;> simp [Ssbh.json, Ssbh.kept]
  back v := by
    cases v with
    | Hlpb v =>
      have h := Hlpb.json_law.back v
      exact back_variant (s := Hlpb.kept) (t := Ssbh.kept) (f := Ssbh.Hlpb) h rfl rfl
    | Matl v =>
      have h := Matl.json_law.back v
      exact back_variant (s := Matl.kept) (t := Ssbh.kept) (f := Ssbh.Matl) h rfl rfl
    | Modl v =>
      have h := Modl.json_law.back v
      exact back_variant (s := Modl.kept) (t := Ssbh.kept) (f := Ssbh.Modl) h rfl rfl
    | Mesh v =>
      have h := Mesh.json_law.back v
      exact back_variant (s := Mesh.kept) (t := Ssbh.kept) (f := Ssbh.Mesh) h rfl rfl
    | Skel v =>
      have h := Skel.json_law.back v
      exact back_variant (s := Skel.kept) (t := Ssbh.kept) (f := Ssbh.Skel) h rfl rfl
    | Anim v =>
      have h := Anim.json_law.back v
      exact back_variant (s := Anim.kept) (t := Ssbh.kept) (f := Ssbh.Anim) h rfl rfl
    | Nlst v =>
      have h := Nlst.json_law.back v
      exact back_variant (s := Nlst.kept) (t := Ssbh.kept) (f := Ssbh.Nlst) h rfl rfl
    | Nrpd v =>
      have h := Nrpd.json_law.back v
      exact back_variant (s := Nrpd.kept) (t := Ssbh.kept) (f := Ssbh.Nrpd) h rfl rfl
    | Nufx v =>
      have h := Nufx.json_law.back v
      exact back_variant (s := Nufx.kept) (t := Ssbh.kept) (f := Ssbh.Nufx) h rfl rfl
    | Shdr v =>
      have h := Shdr.json_law.back v
      exact back_variant (s := Shdr.kept) (t := Ssbh.kept) (f := Ssbh.Shdr) h rfl rfl
  same v hv := by
    cases v with
    | Hlpb v => exact congrArg (fun j => J.obj [("Hlpb", j)]) (Hlpb.json_law.same v hv)
    | Matl v => exact congrArg (fun j => J.obj [("Matl", j)]) (Matl.json_law.same v hv)
    | Modl v => exact congrArg (fun j => J.obj [("Modl", j)]) (Modl.json_law.same v hv)
    | Mesh v => exact congrArg (fun j => J.obj [("Mesh", j)]) (Mesh.json_law.same v hv)
    | Skel v => exact congrArg (fun j => J.obj [("Skel", j)]) (Skel.json_law.same v hv)
    | Anim v => exact congrArg (fun j => J.obj [("Anim", j)]) (Anim.json_law.same v hv)
    | Nlst v => exact congrArg (fun j => J.obj [("Nlst", j)]) (Nlst.json_law.same v hv)
    | Nrpd v => exact congrArg (fun j => J.obj [("Nrpd", j)]) (Nrpd.json_law.same v hv)
    | Nufx v => exact congrArg (fun j => J.obj [("Nufx", j)]) (Nufx.json_law.same v hv)
    | Shdr v => exact congrArg (fun j => J.obj [("Shdr", j)]) (Shdr.json_law.same v hv)

end Verif
