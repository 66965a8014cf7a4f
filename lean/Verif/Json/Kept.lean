import Verif.Json.Spec
import Verif.Formats.Ssbh
import Verif.Formats.MeshEx
import Verif.Formats.Adj
/-!
# What JSON keeps of the formats

Specification, see `Verif.Json.Spec`.
Written by tools/gen_json.py from the Rust definitions.
-/

namespace Verif

def Vector3.kept : JSpec Vector3 where
  isNull _ := false
  fin v := JSpec.float.fin v.x && (JSpec.float.fin v.y && (JSpec.float.fin v.z))
  norm v := ⟨JSpec.float.norm v.x, JSpec.float.norm v.y, JSpec.float.norm v.z⟩

def Matrix3x3.kept : JSpec Matrix3x3 where
  isNull _ := false
  fin v := Vector3.kept.fin v.col1 && (Vector3.kept.fin v.col2 && (Vector3.kept.fin v.col3))
  norm v := ⟨Vector3.kept.norm v.col1, Vector3.kept.norm v.col2, Vector3.kept.norm v.col3⟩

def Vector4.kept : JSpec Vector4 where
  isNull _ := false
  fin v := JSpec.float.fin v.x && (JSpec.float.fin v.y && (JSpec.float.fin v.z && (JSpec.float.fin v.w)))
  norm v := ⟨JSpec.float.norm v.x, JSpec.float.norm v.y, JSpec.float.norm v.z, JSpec.float.norm v.w⟩

def Color4f.kept : JSpec Color4f where
  isNull _ := false
  fin v := JSpec.float.fin v.r && (JSpec.float.fin v.g && (JSpec.float.fin v.b && (JSpec.float.fin v.a)))
  norm v := ⟨JSpec.float.norm v.r, JSpec.float.norm v.g, JSpec.float.norm v.b, JSpec.float.norm v.a⟩

def Matrix4x4.kept : JSpec Matrix4x4 where
  isNull _ := false
  fin v := Vector4.kept.fin v.col1 && (Vector4.kept.fin v.col2 && (Vector4.kept.fin v.col3 && (Vector4.kept.fin v.col4)))
  norm v := ⟨Vector4.kept.norm v.col1, Vector4.kept.norm v.col2, Vector4.kept.norm v.col3, Vector4.kept.norm v.col4⟩

def Nlst.V10Data.kept : JSpec Nlst.V10Data where
  isNull _ := false
  fin v := (JSpec.list (JSpec.pointer JSpec.text)).fin v.file_names
  norm v := ⟨(JSpec.list (JSpec.pointer JSpec.text)).norm v.file_names⟩

def Nlst.kept : JSpec Nlst where
  isNull _ := false
  fin
    | .V10 v => Nlst.V10Data.kept.fin v
  norm
    | .V10 v => .V10 (Nlst.V10Data.kept.norm v)

def Shdr.ShaderStage.kept : JSpec Shdr.ShaderStage := .plain

def Shdr.Shader.kept : JSpec Shdr.Shader where
  isNull _ := false
  fin v := (JSpec.pointer JSpec.text).fin v.name && (Shdr.ShaderStage.kept.fin v.shader_stage && (JSpec.plain.fin v.unk3 && (JSpec.plain.fin v.shader_binary && (JSpec.plain.fin v.binary_size))))
  norm v := ⟨(JSpec.pointer JSpec.text).norm v.name, Shdr.ShaderStage.kept.norm v.shader_stage, JSpec.plain.norm v.unk3, JSpec.plain.norm v.shader_binary, JSpec.plain.norm v.binary_size⟩

def Shdr.V12Data.kept : JSpec Shdr.V12Data where
  isNull _ := false
  fin v := (JSpec.list Shdr.Shader.kept).fin v.shaders
  norm v := ⟨(JSpec.list Shdr.Shader.kept).norm v.shaders⟩

def Shdr.kept : JSpec Shdr where
  isNull _ := false
  fin
    | .V12 v => Shdr.V12Data.kept.fin v
  norm
    | .V12 v => .V12 (Shdr.V12Data.kept.norm v)

def Modl.ModlEntry.kept : JSpec Modl.ModlEntry where
  isNull _ := false
  fin v := (JSpec.pointer JSpec.text).fin v.mesh_object_name && (JSpec.plain.fin v.mesh_object_subindex && ((JSpec.pointer JSpec.text).fin v.material_label))
  norm v := ⟨(JSpec.pointer JSpec.text).norm v.mesh_object_name, JSpec.plain.norm v.mesh_object_subindex, (JSpec.pointer JSpec.text).norm v.material_label⟩

def Modl.V17Data.kept : JSpec Modl.V17Data where
  isNull _ := false
  fin v := (JSpec.pointer JSpec.text).fin v.model_name && ((JSpec.pointer JSpec.text).fin v.skeleton_file_name && ((JSpec.list (JSpec.pointer JSpec.text)).fin v.material_file_names && ((JSpec.pointer (JSpec.pointer JSpec.text)).fin v.animation_file_name && ((JSpec.pointer JSpec.text).fin v.mesh_file_name && ((JSpec.list Modl.ModlEntry.kept).fin v.entries)))))
  norm v := ⟨(JSpec.pointer JSpec.text).norm v.model_name, (JSpec.pointer JSpec.text).norm v.skeleton_file_name, (JSpec.list (JSpec.pointer JSpec.text)).norm v.material_file_names, (JSpec.pointer (JSpec.pointer JSpec.text)).norm v.animation_file_name, (JSpec.pointer JSpec.text).norm v.mesh_file_name, (JSpec.list Modl.ModlEntry.kept).norm v.entries⟩

def Modl.kept : JSpec Modl where
  isNull _ := false
  fin
    | .V17 v => Modl.V17Data.kept.fin v
  norm
    | .V17 v => .V17 (Modl.V17Data.kept.norm v)

def Skel.BillboardType.kept : JSpec Skel.BillboardType := .plain

def Skel.SkelEntryFlags.kept : JSpec Skel.SkelEntryFlags where
  isNull _ := false
  fin v := JSpec.plain.fin v.unk1 && (Skel.BillboardType.kept.fin v.billboard_type)
  norm v := ⟨JSpec.plain.norm v.unk1, Skel.BillboardType.kept.norm v.billboard_type⟩

def Skel.SkelBoneEntry.kept : JSpec Skel.SkelBoneEntry where
  isNull _ := false
  fin v := (JSpec.pointer JSpec.text).fin v.name && (JSpec.plain.fin v.index && (JSpec.plain.fin v.parent_index && (Skel.SkelEntryFlags.kept.fin v.flags)))
  norm v := ⟨(JSpec.pointer JSpec.text).norm v.name, JSpec.plain.norm v.index, JSpec.plain.norm v.parent_index, Skel.SkelEntryFlags.kept.norm v.flags⟩

def Skel.V10Data.kept : JSpec Skel.V10Data where
  isNull _ := false
  fin v := (JSpec.list Skel.SkelBoneEntry.kept).fin v.bone_entries && ((JSpec.list Matrix4x4.kept).fin v.world_transforms && ((JSpec.list Matrix4x4.kept).fin v.inv_world_transforms && ((JSpec.list Matrix4x4.kept).fin v.transforms && ((JSpec.list Matrix4x4.kept).fin v.inv_transforms))))
  norm v := ⟨(JSpec.list Skel.SkelBoneEntry.kept).norm v.bone_entries, (JSpec.list Matrix4x4.kept).norm v.world_transforms, (JSpec.list Matrix4x4.kept).norm v.inv_world_transforms, (JSpec.list Matrix4x4.kept).norm v.transforms, (JSpec.list Matrix4x4.kept).norm v.inv_transforms⟩

def Skel.kept : JSpec Skel where
  isNull _ := false
  fin
    | .V10 v => Skel.V10Data.kept.fin v
  norm
    | .V10 v => .V10 (Skel.V10Data.kept.norm v)

def Hlpb.AimConstraint.kept : JSpec Hlpb.AimConstraint where
  isNull _ := false
  fin v := (JSpec.pointer JSpec.text).fin v.name && ((JSpec.pointer JSpec.text).fin v.aim_bone_name1 && ((JSpec.pointer JSpec.text).fin v.aim_bone_name2 && ((JSpec.pointer JSpec.text).fin v.aim_type1 && ((JSpec.pointer JSpec.text).fin v.aim_type2 && ((JSpec.pointer JSpec.text).fin v.target_bone_name1 && ((JSpec.pointer JSpec.text).fin v.target_bone_name2 && (JSpec.plain.fin v.unk1 && (JSpec.plain.fin v.unk2 && (Vector3.kept.fin v.aim && (Vector3.kept.fin v.up && (Vector4.kept.fin v.quat1 && (Vector4.kept.fin v.quat2 && (JSpec.float.fin v.unk17 && (JSpec.float.fin v.unk18 && (JSpec.float.fin v.unk19 && (JSpec.float.fin v.unk20 && (JSpec.float.fin v.unk21 && (JSpec.float.fin v.unk22))))))))))))))))))
  norm v := ⟨(JSpec.pointer JSpec.text).norm v.name, (JSpec.pointer JSpec.text).norm v.aim_bone_name1, (JSpec.pointer JSpec.text).norm v.aim_bone_name2, (JSpec.pointer JSpec.text).norm v.aim_type1, (JSpec.pointer JSpec.text).norm v.aim_type2, (JSpec.pointer JSpec.text).norm v.target_bone_name1, (JSpec.pointer JSpec.text).norm v.target_bone_name2, JSpec.plain.norm v.unk1, JSpec.plain.norm v.unk2, Vector3.kept.norm v.aim, Vector3.kept.norm v.up, Vector4.kept.norm v.quat1, Vector4.kept.norm v.quat2, JSpec.float.norm v.unk17, JSpec.float.norm v.unk18, JSpec.float.norm v.unk19, JSpec.float.norm v.unk20, JSpec.float.norm v.unk21, JSpec.float.norm v.unk22⟩

def Hlpb.OrientConstraint.kept : JSpec Hlpb.OrientConstraint where
  isNull _ := false
  fin v := (JSpec.pointer JSpec.text).fin v.name && ((JSpec.pointer JSpec.text).fin v.parent_bone_name1 && ((JSpec.pointer JSpec.text).fin v.parent_bone_name2 && ((JSpec.pointer JSpec.text).fin v.source_bone_name && ((JSpec.pointer JSpec.text).fin v.target_bone_name && (JSpec.plain.fin v.unk_type && (Vector3.kept.fin v.constraint_axes && (Vector4.kept.fin v.quat1 && (Vector4.kept.fin v.quat2 && (Vector3.kept.fin v.range_min && (Vector3.kept.fin v.range_max))))))))))
  norm v := ⟨(JSpec.pointer JSpec.text).norm v.name, (JSpec.pointer JSpec.text).norm v.parent_bone_name1, (JSpec.pointer JSpec.text).norm v.parent_bone_name2, (JSpec.pointer JSpec.text).norm v.source_bone_name, (JSpec.pointer JSpec.text).norm v.target_bone_name, JSpec.plain.norm v.unk_type, Vector3.kept.norm v.constraint_axes, Vector4.kept.norm v.quat1, Vector4.kept.norm v.quat2, Vector3.kept.norm v.range_min, Vector3.kept.norm v.range_max⟩

def Hlpb.ConstraintType.kept : JSpec Hlpb.ConstraintType := .plain

def Hlpb.V11Data.kept : JSpec Hlpb.V11Data where
  isNull _ := false
  fin v := (JSpec.list Hlpb.AimConstraint.kept).fin v.aim_constraints && ((JSpec.list Hlpb.OrientConstraint.kept).fin v.orient_constraints && ((JSpec.list JSpec.plain).fin v.constraint_indices && ((JSpec.list Hlpb.ConstraintType.kept).fin v.constraint_types)))
  norm v := ⟨(JSpec.list Hlpb.AimConstraint.kept).norm v.aim_constraints, (JSpec.list Hlpb.OrientConstraint.kept).norm v.orient_constraints, (JSpec.list JSpec.plain).norm v.constraint_indices, (JSpec.list Hlpb.ConstraintType.kept).norm v.constraint_types⟩

def Hlpb.kept : JSpec Hlpb where
  isNull _ := false
  fin
    | .V11 v => Hlpb.V11Data.kept.fin v
  norm
    | .V11 v => .V11 (Hlpb.V11Data.kept.norm v)

def Nufx.ShaderStages.kept : JSpec Nufx.ShaderStages where
  isNull _ := false
  fin v := (JSpec.pointer JSpec.text).fin v.vertex_shader && ((JSpec.pointer JSpec.text).fin v.unk_shader1 && ((JSpec.pointer JSpec.text).fin v.unk_shader2 && ((JSpec.pointer JSpec.text).fin v.geometry_shader && ((JSpec.pointer JSpec.text).fin v.pixel_shader && ((JSpec.pointer JSpec.text).fin v.compute_shader)))))
  norm v := ⟨(JSpec.pointer JSpec.text).norm v.vertex_shader, (JSpec.pointer JSpec.text).norm v.unk_shader1, (JSpec.pointer JSpec.text).norm v.unk_shader2, (JSpec.pointer JSpec.text).norm v.geometry_shader, (JSpec.pointer JSpec.text).norm v.pixel_shader, (JSpec.pointer JSpec.text).norm v.compute_shader⟩

def Nufx.MaterialParameter.kept : JSpec Nufx.MaterialParameter where
  isNull _ := false
  fin v := JSpec.plain.fin v.param_id && ((JSpec.pointer JSpec.text).fin v.parameter_name)
  norm v := ⟨JSpec.plain.norm v.param_id, (JSpec.pointer JSpec.text).norm v.parameter_name⟩

def Nufx.ShaderProgramV0.kept : JSpec Nufx.ShaderProgramV0 where
  isNull _ := false
  fin v := (JSpec.pointer JSpec.text).fin v.name && ((JSpec.pointer JSpec.text).fin v.render_pass && (Nufx.ShaderStages.kept.fin v.shaders && ((JSpec.list Nufx.MaterialParameter.kept).fin v.material_parameters)))
  norm v := ⟨(JSpec.pointer JSpec.text).norm v.name, (JSpec.pointer JSpec.text).norm v.render_pass, Nufx.ShaderStages.kept.norm v.shaders, (JSpec.list Nufx.MaterialParameter.kept).norm v.material_parameters⟩

def Nufx.UnkItem.kept : JSpec Nufx.UnkItem where
  isNull _ := false
  fin v := (JSpec.pointer JSpec.text).fin v.name && ((JSpec.list (JSpec.pointer JSpec.text)).fin v.unk1)
  norm v := ⟨(JSpec.pointer JSpec.text).norm v.name, (JSpec.list (JSpec.pointer JSpec.text)).norm v.unk1⟩

def Nufx.NufxV0.kept : JSpec Nufx.NufxV0 where
  isNull _ := false
  fin v := (JSpec.list Nufx.ShaderProgramV0.kept).fin v.programs && ((JSpec.list Nufx.UnkItem.kept).fin v.unk_string_list)
  norm v := ⟨(JSpec.list Nufx.ShaderProgramV0.kept).norm v.programs, (JSpec.list Nufx.UnkItem.kept).norm v.unk_string_list⟩

def Nufx.VertexAttribute.kept : JSpec Nufx.VertexAttribute where
  isNull _ := false
  fin v := (JSpec.pointer JSpec.text).fin v.name && ((JSpec.pointer JSpec.text).fin v.attribute_name)
  norm v := ⟨(JSpec.pointer JSpec.text).norm v.name, (JSpec.pointer JSpec.text).norm v.attribute_name⟩

def Nufx.ShaderProgramV1.kept : JSpec Nufx.ShaderProgramV1 where
  isNull _ := false
  fin v := (JSpec.pointer JSpec.text).fin v.name && ((JSpec.pointer JSpec.text).fin v.render_pass && (Nufx.ShaderStages.kept.fin v.shaders && ((JSpec.list Nufx.VertexAttribute.kept).fin v.vertex_attributes && ((JSpec.list Nufx.MaterialParameter.kept).fin v.material_parameters))))
  norm v := ⟨(JSpec.pointer JSpec.text).norm v.name, (JSpec.pointer JSpec.text).norm v.render_pass, Nufx.ShaderStages.kept.norm v.shaders, (JSpec.list Nufx.VertexAttribute.kept).norm v.vertex_attributes, (JSpec.list Nufx.MaterialParameter.kept).norm v.material_parameters⟩

def Nufx.NufxV1.kept : JSpec Nufx.NufxV1 where
  isNull _ := false
  fin v := (JSpec.list Nufx.ShaderProgramV1.kept).fin v.programs && ((JSpec.list Nufx.UnkItem.kept).fin v.unk_string_list)
  norm v := ⟨(JSpec.list Nufx.ShaderProgramV1.kept).norm v.programs, (JSpec.list Nufx.UnkItem.kept).norm v.unk_string_list⟩

def Nufx.kept : JSpec Nufx where
  isNull _ := false
  fin
    | .V0 v => Nufx.NufxV0.kept.fin v
    | .V1 v => Nufx.NufxV1.kept.fin v
  norm
    | .V0 v => .V0 (Nufx.NufxV0.kept.norm v)
    | .V1 v => .V1 (Nufx.NufxV1.kept.norm v)

def Anim.TrackTypeV1.kept : JSpec Anim.TrackTypeV1 := .plain

def Anim.Property.kept : JSpec Anim.Property where
  isNull _ := false
  fin v := (JSpec.pointer JSpec.text).fin v.name && (JSpec.plain.fin v.buffer_index)
  norm v := ⟨(JSpec.pointer JSpec.text).norm v.name, JSpec.plain.norm v.buffer_index⟩

def Anim.TrackV1.kept : JSpec Anim.TrackV1 where
  isNull _ := false
  fin v := (JSpec.pointer JSpec.text).fin v.name && (Anim.TrackTypeV1.kept.fin v.track_type && ((JSpec.list Anim.Property.kept).fin v.properties))
  norm v := ⟨(JSpec.pointer JSpec.text).norm v.name, Anim.TrackTypeV1.kept.norm v.track_type, (JSpec.list Anim.Property.kept).norm v.properties⟩

def Anim.GroupType.kept : JSpec Anim.GroupType := .plain

def Anim.TrackTypeV2.kept : JSpec Anim.TrackTypeV2 := .plain

def Anim.CompressionType.kept : JSpec Anim.CompressionType := .plain

def Anim.TrackFlags.kept : JSpec Anim.TrackFlags where
  isNull _ := false
  fin v := Anim.TrackTypeV2.kept.fin v.track_type && (Anim.CompressionType.kept.fin v.compression_type)
  norm v := ⟨Anim.TrackTypeV2.kept.norm v.track_type, Anim.CompressionType.kept.norm v.compression_type⟩

def Anim.TransformFlags.kept : JSpec Anim.TransformFlags := .plain

def Anim.TrackV2.kept : JSpec Anim.TrackV2 where
  isNull _ := false
  fin v := (JSpec.pointer JSpec.text).fin v.name && (Anim.TrackFlags.kept.fin v.flags && (JSpec.plain.fin v.frame_count && (Anim.TransformFlags.kept.fin v.transform_flags && (JSpec.plain.fin v.data_offset && (JSpec.plain.fin v.data_size)))))
  norm v := ⟨(JSpec.pointer JSpec.text).norm v.name, Anim.TrackFlags.kept.norm v.flags, JSpec.plain.norm v.frame_count, Anim.TransformFlags.kept.norm v.transform_flags, JSpec.plain.norm v.data_offset, JSpec.plain.norm v.data_size⟩

def Anim.Node.kept : JSpec Anim.Node where
  isNull _ := false
  fin v := (JSpec.pointer JSpec.text).fin v.name && ((JSpec.list Anim.TrackV2.kept).fin v.tracks)
  norm v := ⟨(JSpec.pointer JSpec.text).norm v.name, (JSpec.list Anim.TrackV2.kept).norm v.tracks⟩

def Anim.Group.kept : JSpec Anim.Group where
  isNull _ := false
  fin v := Anim.GroupType.kept.fin v.group_type && ((JSpec.list Anim.Node.kept).fin v.nodes)
  norm v := ⟨Anim.GroupType.kept.norm v.group_type, (JSpec.list Anim.Node.kept).norm v.nodes⟩

def Anim.UnkSubItem.kept : JSpec Anim.UnkSubItem where
  isNull _ := false
  fin v := JSpec.plain.fin v.unk1 && (JSpec.plain.fin v.unk2)
  norm v := ⟨JSpec.plain.norm v.unk1, JSpec.plain.norm v.unk2⟩

def Anim.UnkItem1.kept : JSpec Anim.UnkItem1 where
  isNull _ := false
  fin v := JSpec.plain.fin v.unk1 && ((JSpec.list Anim.UnkSubItem.kept).fin v.unk2)
  norm v := ⟨JSpec.plain.norm v.unk1, (JSpec.list Anim.UnkSubItem.kept).norm v.unk2⟩

def Anim.UnkItem2.kept : JSpec Anim.UnkItem2 where
  isNull _ := false
  fin v := (JSpec.pointer JSpec.text).fin v.unk1 && ((JSpec.list Anim.UnkSubItem.kept).fin v.unk2)
  norm v := ⟨(JSpec.pointer JSpec.text).norm v.unk1, (JSpec.list Anim.UnkSubItem.kept).norm v.unk2⟩

def Anim.UnkData.kept : JSpec Anim.UnkData where
  isNull _ := false
  fin v := (JSpec.list Anim.UnkItem1.kept).fin v.unk1 && ((JSpec.list Anim.UnkItem2.kept).fin v.unk2)
  norm v := ⟨(JSpec.list Anim.UnkItem1.kept).norm v.unk1, (JSpec.list Anim.UnkItem2.kept).norm v.unk2⟩

def Anim.V12Data.kept : JSpec Anim.V12Data where
  isNull _ := false
  fin v := (JSpec.pointer JSpec.text).fin v.name && (JSpec.float.fin v.unk1 && (JSpec.float.fin v.final_frame_index && (JSpec.float.fin v.unk2 && (JSpec.float.fin v.unk3 && ((JSpec.list Anim.TrackV1.kept).fin v.tracks && ((JSpec.list JSpec.plain).fin v.buffers))))))
  norm v := ⟨(JSpec.pointer JSpec.text).norm v.name, JSpec.float.norm v.unk1, JSpec.float.norm v.final_frame_index, JSpec.float.norm v.unk2, JSpec.float.norm v.unk3, (JSpec.list Anim.TrackV1.kept).norm v.tracks, (JSpec.list JSpec.plain).norm v.buffers⟩

def Anim.V20Data.kept : JSpec Anim.V20Data where
  isNull _ := false
  fin v := JSpec.float.fin v.final_frame_index && (JSpec.plain.fin v.unk1 && (JSpec.plain.fin v.unk2 && ((JSpec.pointer JSpec.text).fin v.name && ((JSpec.list Anim.Group.kept).fin v.groups && (JSpec.plain.fin v.buffer)))))
  norm v := ⟨JSpec.float.norm v.final_frame_index, JSpec.plain.norm v.unk1, JSpec.plain.norm v.unk2, (JSpec.pointer JSpec.text).norm v.name, (JSpec.list Anim.Group.kept).norm v.groups, JSpec.plain.norm v.buffer⟩

def Anim.V21Data.kept : JSpec Anim.V21Data where
  isNull _ := false
  fin v := JSpec.float.fin v.final_frame_index && (JSpec.plain.fin v.unk1 && (JSpec.plain.fin v.unk2 && ((JSpec.pointer JSpec.text).fin v.name && ((JSpec.list Anim.Group.kept).fin v.groups && (JSpec.plain.fin v.buffer && (Anim.UnkData.kept.fin v.unk_data))))))
  norm v := ⟨JSpec.float.norm v.final_frame_index, JSpec.plain.norm v.unk1, JSpec.plain.norm v.unk2, (JSpec.pointer JSpec.text).norm v.name, (JSpec.list Anim.Group.kept).norm v.groups, JSpec.plain.norm v.buffer, Anim.UnkData.kept.norm v.unk_data⟩

def Anim.kept : JSpec Anim where
  isNull _ := false
  fin
    | .V12 v => Anim.V12Data.kept.fin v
    | .V20 v => Anim.V20Data.kept.fin v
    | .V21 v => Anim.V21Data.kept.fin v
  norm
    | .V12 v => .V12 (Anim.V12Data.kept.norm v)
    | .V20 v => .V20 (Anim.V20Data.kept.norm v)
    | .V21 v => .V21 (Anim.V21Data.kept.norm v)

def Mesh.BoundingSphere.kept : JSpec Mesh.BoundingSphere where
  isNull _ := false
  fin v := Vector3.kept.fin v.center && (JSpec.float.fin v.radius)
  norm v := ⟨Vector3.kept.norm v.center, JSpec.float.norm v.radius⟩

def Mesh.BoundingVolume.kept : JSpec Mesh.BoundingVolume where
  isNull _ := false
  fin v := Vector3.kept.fin v.min && (Vector3.kept.fin v.max)
  norm v := ⟨Vector3.kept.norm v.min, Vector3.kept.norm v.max⟩

def Mesh.OrientedBoundingBox.kept : JSpec Mesh.OrientedBoundingBox where
  isNull _ := false
  fin v := Vector3.kept.fin v.center && (Matrix3x3.kept.fin v.transform && (Vector3.kept.fin v.size))
  norm v := ⟨Vector3.kept.norm v.center, Matrix3x3.kept.norm v.transform, Vector3.kept.norm v.size⟩

def Mesh.BoundingInfo.kept : JSpec Mesh.BoundingInfo where
  isNull _ := false
  fin v := Mesh.BoundingSphere.kept.fin v.bounding_sphere && (Mesh.BoundingVolume.kept.fin v.bounding_volume && (Mesh.OrientedBoundingBox.kept.fin v.oriented_bounding_box))
  norm v := ⟨Mesh.BoundingSphere.kept.norm v.bounding_sphere, Mesh.BoundingVolume.kept.norm v.bounding_volume, Mesh.OrientedBoundingBox.kept.norm v.oriented_bounding_box⟩

def Mesh.DrawElementType.kept : JSpec Mesh.DrawElementType := .plain

def Mesh.DepthFlags.kept : JSpec Mesh.DepthFlags where
  isNull _ := false
  fin v := JSpec.plain.fin v.disable_depth_write && (JSpec.plain.fin v.disable_depth_test)
  norm v := ⟨JSpec.plain.norm v.disable_depth_write, JSpec.plain.norm v.disable_depth_test⟩

def Mesh.MeshObject.kept {A : Type} (aS : JSpec A) : JSpec (Mesh.MeshObject A) where
  isNull _ := false
  fin v := (JSpec.pointer JSpec.text).fin v.name && (JSpec.plain.fin v.subindex && ((JSpec.pointer JSpec.text).fin v.parent_bone_name && (JSpec.plain.fin v.vertex_count && (JSpec.plain.fin v.vertex_index_count && (JSpec.plain.fin v.unk2 && (JSpec.plain.fin v.vertex_buffer0_offset && (JSpec.plain.fin v.vertex_buffer1_offset && (JSpec.plain.fin v.vertex_buffer2_offset && (JSpec.plain.fin v.vertex_buffer3_offset && (JSpec.plain.fin v.stride0 && (JSpec.plain.fin v.stride1 && (JSpec.plain.fin v.stride2 && (JSpec.plain.fin v.stride3 && (JSpec.plain.fin v.index_buffer_offset && (JSpec.plain.fin v.unk8 && (Mesh.DrawElementType.kept.fin v.draw_element_type && (JSpec.plain.fin v.use_vertex_skinning && (JSpec.plain.fin v.sort_bias && (Mesh.DepthFlags.kept.fin v.depth_flags && (Mesh.BoundingInfo.kept.fin v.bounding_info && ((JSpec.list aS).fin v.attributes)))))))))))))))))))))
  norm v := ⟨(JSpec.pointer JSpec.text).norm v.name, JSpec.plain.norm v.subindex, (JSpec.pointer JSpec.text).norm v.parent_bone_name, JSpec.plain.norm v.vertex_count, JSpec.plain.norm v.vertex_index_count, JSpec.plain.norm v.unk2, JSpec.plain.norm v.vertex_buffer0_offset, JSpec.plain.norm v.vertex_buffer1_offset, JSpec.plain.norm v.vertex_buffer2_offset, JSpec.plain.norm v.vertex_buffer3_offset, JSpec.plain.norm v.stride0, JSpec.plain.norm v.stride1, JSpec.plain.norm v.stride2, JSpec.plain.norm v.stride3, JSpec.plain.norm v.index_buffer_offset, JSpec.plain.norm v.unk8, Mesh.DrawElementType.kept.norm v.draw_element_type, JSpec.plain.norm v.use_vertex_skinning, JSpec.plain.norm v.sort_bias, Mesh.DepthFlags.kept.norm v.depth_flags, Mesh.BoundingInfo.kept.norm v.bounding_info, (JSpec.list aS).norm v.attributes⟩

def Mesh.RiggingFlags.kept : JSpec Mesh.RiggingFlags where
  isNull _ := false
  fin v := JSpec.plain.fin v.max_influences && (JSpec.plain.fin v.unk1)
  norm v := ⟨JSpec.plain.norm v.max_influences, JSpec.plain.norm v.unk1⟩

def Mesh.BoneBuffer.kept {W2 : Type} (w2S : JSpec W2) : JSpec (Mesh.BoneBuffer W2) where
  isNull _ := false
  fin v := (JSpec.pointer JSpec.text).fin v.bone_name && (w2S.fin v.data)
  norm v := ⟨(JSpec.pointer JSpec.text).norm v.bone_name, w2S.norm v.data⟩

def Mesh.RiggingGroup.kept {W3 : Type} (w3S : JSpec W3) : JSpec (Mesh.RiggingGroup W3) where
  isNull _ := false
  fin v := (JSpec.pointer JSpec.text).fin v.mesh_object_name && (JSpec.plain.fin v.mesh_object_subindex && (Mesh.RiggingFlags.kept.fin v.flags && ((JSpec.list (Mesh.BoneBuffer.kept w3S)).fin v.buffers)))
  norm v := ⟨(JSpec.pointer JSpec.text).norm v.mesh_object_name, JSpec.plain.norm v.mesh_object_subindex, Mesh.RiggingFlags.kept.norm v.flags, (JSpec.list (Mesh.BoneBuffer.kept w3S)).norm v.buffers⟩

def Mesh.MeshInner.kept {A : Type} {W1 : Type} (aS : JSpec A) (w1S : JSpec W1) : JSpec (Mesh.MeshInner A W1) where
  isNull _ := false
  fin v := (JSpec.pointer JSpec.text).fin v.model_name && (Mesh.BoundingInfo.kept.fin v.bounding_info && (JSpec.plain.fin v.unk1 && ((JSpec.list (Mesh.MeshObject.kept aS)).fin v.objects && ((JSpec.list JSpec.plain).fin v.buffer_sizes && (JSpec.plain.fin v.polygon_index_size && ((JSpec.list JSpec.plain).fin v.vertex_buffers && (JSpec.plain.fin v.index_buffer && ((JSpec.list (Mesh.RiggingGroup.kept w1S)).fin v.rigging_buffers))))))))
  norm v := ⟨(JSpec.pointer JSpec.text).norm v.model_name, Mesh.BoundingInfo.kept.norm v.bounding_info, JSpec.plain.norm v.unk1, (JSpec.list (Mesh.MeshObject.kept aS)).norm v.objects, (JSpec.list JSpec.plain).norm v.buffer_sizes, JSpec.plain.norm v.polygon_index_size, (JSpec.list JSpec.plain).norm v.vertex_buffers, JSpec.plain.norm v.index_buffer, (JSpec.list (Mesh.RiggingGroup.kept w1S)).norm v.rigging_buffers⟩

def Mesh.AttributeUsageV8.kept : JSpec Mesh.AttributeUsageV8 := .plain

def Mesh.AttributeDataTypeV8.kept : JSpec Mesh.AttributeDataTypeV8 := .plain

def Mesh.AttributeV8.kept : JSpec Mesh.AttributeV8 where
  isNull _ := false
  fin v := Mesh.AttributeUsageV8.kept.fin v.usage && (Mesh.AttributeDataTypeV8.kept.fin v.data_type && (JSpec.plain.fin v.buffer_index && (JSpec.plain.fin v.buffer_offset && (JSpec.plain.fin v.subindex))))
  norm v := ⟨Mesh.AttributeUsageV8.kept.norm v.usage, Mesh.AttributeDataTypeV8.kept.norm v.data_type, JSpec.plain.norm v.buffer_index, JSpec.plain.norm v.buffer_offset, JSpec.plain.norm v.subindex⟩

def Mesh.VertexWeightV8.kept : JSpec Mesh.VertexWeightV8 where
  isNull _ := false
  fin v := JSpec.plain.fin v.vertex_index && (JSpec.float.fin v.vertex_weight)
  norm v := ⟨JSpec.plain.norm v.vertex_index, JSpec.float.norm v.vertex_weight⟩

def Mesh.AttributeUsageV9.kept : JSpec Mesh.AttributeUsageV9 := .plain

def Mesh.AttributeV9.kept : JSpec Mesh.AttributeV9 where
  isNull _ := false
  fin v := Mesh.AttributeUsageV9.kept.fin v.usage && (Mesh.AttributeDataTypeV8.kept.fin v.data_type && (JSpec.plain.fin v.buffer_index && (JSpec.plain.fin v.buffer_offset && (JSpec.plain.fin v.subindex && ((JSpec.pointer JSpec.text).fin v.name && ((JSpec.list (JSpec.pointer JSpec.text)).fin v.attribute_names))))))
  norm v := ⟨Mesh.AttributeUsageV9.kept.norm v.usage, Mesh.AttributeDataTypeV8.kept.norm v.data_type, JSpec.plain.norm v.buffer_index, JSpec.plain.norm v.buffer_offset, JSpec.plain.norm v.subindex, (JSpec.pointer JSpec.text).norm v.name, (JSpec.list (JSpec.pointer JSpec.text)).norm v.attribute_names⟩

def Mesh.AttributeDataTypeV10.kept : JSpec Mesh.AttributeDataTypeV10 := .plain

def Mesh.AttributeV10.kept : JSpec Mesh.AttributeV10 where
  isNull _ := false
  fin v := Mesh.AttributeUsageV9.kept.fin v.usage && (Mesh.AttributeDataTypeV10.kept.fin v.data_type && (JSpec.plain.fin v.buffer_index && (JSpec.plain.fin v.buffer_offset && (JSpec.plain.fin v.subindex && ((JSpec.pointer JSpec.text).fin v.name && ((JSpec.list (JSpec.pointer JSpec.text)).fin v.attribute_names))))))
  norm v := ⟨Mesh.AttributeUsageV9.kept.norm v.usage, Mesh.AttributeDataTypeV10.kept.norm v.data_type, JSpec.plain.norm v.buffer_index, JSpec.plain.norm v.buffer_offset, JSpec.plain.norm v.subindex, (JSpec.pointer JSpec.text).norm v.name, (JSpec.list (JSpec.pointer JSpec.text)).norm v.attribute_names⟩

def Mesh.kept : JSpec Mesh where
  isNull _ := false
  fin
    | .V8 v => (Mesh.MeshInner.kept Mesh.AttributeV8.kept (JSpec.list Mesh.VertexWeightV8.kept)).fin v
    | .V9 v => (Mesh.MeshInner.kept Mesh.AttributeV9.kept (JSpec.list Mesh.VertexWeightV8.kept)).fin v
    | .V10 v => (Mesh.MeshInner.kept Mesh.AttributeV10.kept JSpec.plain).fin v
  norm
    | .V8 v => .V8 ((Mesh.MeshInner.kept Mesh.AttributeV8.kept (JSpec.list Mesh.VertexWeightV8.kept)).norm v)
    | .V9 v => .V9 ((Mesh.MeshInner.kept Mesh.AttributeV9.kept (JSpec.list Mesh.VertexWeightV8.kept)).norm v)
    | .V10 v => .V10 ((Mesh.MeshInner.kept Mesh.AttributeV10.kept JSpec.plain).norm v)

def Matl.ParamId.kept : JSpec Matl.ParamId := .plain

def Matl.WrapMode.kept : JSpec Matl.WrapMode := .plain

def Matl.MinFilter.kept : JSpec Matl.MinFilter := .plain

def Matl.MagFilter.kept : JSpec Matl.MagFilter := .plain

def Matl.FilteringType.kept : JSpec Matl.FilteringType := .plain

def Matl.MaxAnisotropy.kept : JSpec Matl.MaxAnisotropy := .plain

def Matl.Sampler.kept : JSpec Matl.Sampler where
  isNull _ := false
  fin v := Matl.WrapMode.kept.fin v.wraps && (Matl.WrapMode.kept.fin v.wrapt && (Matl.WrapMode.kept.fin v.wrapr && (Matl.MinFilter.kept.fin v.min_filter && (Matl.MagFilter.kept.fin v.mag_filter && (Matl.FilteringType.kept.fin v.texture_filtering_type && (Color4f.kept.fin v.border_color && (JSpec.plain.fin v.unk11 && (JSpec.plain.fin v.unk12 && (JSpec.float.fin v.lod_bias && (Matl.MaxAnisotropy.kept.fin v.max_anisotropy))))))))))
  norm v := ⟨Matl.WrapMode.kept.norm v.wraps, Matl.WrapMode.kept.norm v.wrapt, Matl.WrapMode.kept.norm v.wrapr, Matl.MinFilter.kept.norm v.min_filter, Matl.MagFilter.kept.norm v.mag_filter, Matl.FilteringType.kept.norm v.texture_filtering_type, Color4f.kept.norm v.border_color, JSpec.plain.norm v.unk11, JSpec.plain.norm v.unk12, JSpec.float.norm v.lod_bias, Matl.MaxAnisotropy.kept.norm v.max_anisotropy⟩

def Matl.UvTransform.kept : JSpec Matl.UvTransform where
  isNull _ := false
  fin v := JSpec.float.fin v.scale_u && (JSpec.float.fin v.scale_v && (JSpec.float.fin v.rotation && (JSpec.float.fin v.translate_u && (JSpec.float.fin v.translate_v))))
  norm v := ⟨JSpec.float.norm v.scale_u, JSpec.float.norm v.scale_v, JSpec.float.norm v.rotation, JSpec.float.norm v.translate_u, JSpec.float.norm v.translate_v⟩

def Matl.BlendFactor.kept : JSpec Matl.BlendFactor := .plain

def Matl.BlendOperation.kept : JSpec Matl.BlendOperation := .plain

def Matl.BlendStateV15.kept : JSpec Matl.BlendStateV15 where
  isNull _ := false
  fin v := Matl.BlendFactor.kept.fin v.source_color && (Matl.BlendOperation.kept.fin v.color_operation && (Matl.BlendFactor.kept.fin v.destination_color && (Matl.BlendFactor.kept.fin v.source_alpha && (Matl.BlendOperation.kept.fin v.alpha_operation && (Matl.BlendFactor.kept.fin v.destination_alpha && (JSpec.plain.fin v.unk6 && (JSpec.plain.fin v.unk7 && (JSpec.plain.fin v.unk8 && (JSpec.plain.fin v.unk9)))))))))
  norm v := ⟨Matl.BlendFactor.kept.norm v.source_color, Matl.BlendOperation.kept.norm v.color_operation, Matl.BlendFactor.kept.norm v.destination_color, Matl.BlendFactor.kept.norm v.source_alpha, Matl.BlendOperation.kept.norm v.alpha_operation, Matl.BlendFactor.kept.norm v.destination_alpha, JSpec.plain.norm v.unk6, JSpec.plain.norm v.unk7, JSpec.plain.norm v.unk8, JSpec.plain.norm v.unk9⟩

def Matl.CullMode.kept : JSpec Matl.CullMode := .plain

def Matl.RasterizerStateV15.kept : JSpec Matl.RasterizerStateV15 where
  isNull _ := false
  fin v := Matl.CullMode.kept.fin v.cull_mode
  norm v := ⟨Matl.CullMode.kept.norm v.cull_mode⟩

def Matl.ParamV15.kept : JSpec Matl.ParamV15 where
  isNull _ := false
  fin
    | .Float v => JSpec.float.fin v
    | .Boolean v => JSpec.plain.fin v
    | .Vector4 v => Vector4.kept.fin v
    | .Unk7 v => Color4f.kept.fin v
    | .String v => (JSpec.pointer JSpec.text).fin v
    | .Sampler v => Matl.Sampler.kept.fin v
    | .UvTransform v => Matl.UvTransform.kept.fin v
    | .BlendState v => Matl.BlendStateV15.kept.fin v
    | .RasterizerState v => Matl.RasterizerStateV15.kept.fin v
  norm
    | .Float v => .Float (JSpec.float.norm v)
    | .Boolean v => .Boolean (JSpec.plain.norm v)
    | .Vector4 v => .Vector4 (Vector4.kept.norm v)
    | .Unk7 v => .Unk7 (Color4f.kept.norm v)
    | .String v => .String ((JSpec.pointer JSpec.text).norm v)
    | .Sampler v => .Sampler (Matl.Sampler.kept.norm v)
    | .UvTransform v => .UvTransform (Matl.UvTransform.kept.norm v)
    | .BlendState v => .BlendState (Matl.BlendStateV15.kept.norm v)
    | .RasterizerState v => .RasterizerState (Matl.RasterizerStateV15.kept.norm v)

def Matl.AttributeV15.kept : JSpec Matl.AttributeV15 where
  isNull _ := false
  fin v := Matl.ParamId.kept.fin v.param_id && ((JSpec.tagged Matl.ParamV15.kept).fin v.param)
  norm v := ⟨Matl.ParamId.kept.norm v.param_id, (JSpec.tagged Matl.ParamV15.kept).norm v.param⟩

def Matl.MatlEntryV15.kept : JSpec Matl.MatlEntryV15 where
  isNull _ := false
  fin v := (JSpec.pointer JSpec.text).fin v.material_label && ((JSpec.list Matl.AttributeV15.kept).fin v.attributes && ((JSpec.pointer JSpec.text).fin v.shader_label))
  norm v := ⟨(JSpec.pointer JSpec.text).norm v.material_label, (JSpec.list Matl.AttributeV15.kept).norm v.attributes, (JSpec.pointer JSpec.text).norm v.shader_label⟩

def Matl.BlendStateV16.kept : JSpec Matl.BlendStateV16 where
  isNull _ := false
  fin v := Matl.BlendFactor.kept.fin v.source_color && (Matl.BlendOperation.kept.fin v.color_operation && (Matl.BlendFactor.kept.fin v.destination_color && (Matl.BlendFactor.kept.fin v.source_alpha && (Matl.BlendOperation.kept.fin v.alpha_operation && (Matl.BlendFactor.kept.fin v.destination_alpha && (JSpec.plain.fin v.alpha_sample_to_coverage && (JSpec.plain.fin v.unk8 && (JSpec.plain.fin v.unk9 && (JSpec.plain.fin v.unk10)))))))))
  norm v := ⟨Matl.BlendFactor.kept.norm v.source_color, Matl.BlendOperation.kept.norm v.color_operation, Matl.BlendFactor.kept.norm v.destination_color, Matl.BlendFactor.kept.norm v.source_alpha, Matl.BlendOperation.kept.norm v.alpha_operation, Matl.BlendFactor.kept.norm v.destination_alpha, JSpec.plain.norm v.alpha_sample_to_coverage, JSpec.plain.norm v.unk8, JSpec.plain.norm v.unk9, JSpec.plain.norm v.unk10⟩

def Matl.FillMode.kept : JSpec Matl.FillMode := .plain

def Matl.RasterizerStateV16.kept : JSpec Matl.RasterizerStateV16 where
  isNull _ := false
  fin v := Matl.FillMode.kept.fin v.fill_mode && (Matl.CullMode.kept.fin v.cull_mode && (JSpec.float.fin v.depth_bias && (JSpec.float.fin v.unk4 && (JSpec.float.fin v.unk5 && (JSpec.plain.fin v.unk6)))))
  norm v := ⟨Matl.FillMode.kept.norm v.fill_mode, Matl.CullMode.kept.norm v.cull_mode, JSpec.float.norm v.depth_bias, JSpec.float.norm v.unk4, JSpec.float.norm v.unk5, JSpec.plain.norm v.unk6⟩

def Matl.ParamV16.kept : JSpec Matl.ParamV16 where
  isNull _ := false
  fin
    | .Float v => JSpec.float.fin v
    | .Boolean v => JSpec.plain.fin v
    | .Vector4 v => Vector4.kept.fin v
    | .Unk7 v => Color4f.kept.fin v
    | .String v => (JSpec.pointer JSpec.text).fin v
    | .Sampler v => Matl.Sampler.kept.fin v
    | .UvTransform v => Matl.UvTransform.kept.fin v
    | .BlendState v => Matl.BlendStateV16.kept.fin v
    | .RasterizerState v => Matl.RasterizerStateV16.kept.fin v
  norm
    | .Float v => .Float (JSpec.float.norm v)
    | .Boolean v => .Boolean (JSpec.plain.norm v)
    | .Vector4 v => .Vector4 (Vector4.kept.norm v)
    | .Unk7 v => .Unk7 (Color4f.kept.norm v)
    | .String v => .String ((JSpec.pointer JSpec.text).norm v)
    | .Sampler v => .Sampler (Matl.Sampler.kept.norm v)
    | .UvTransform v => .UvTransform (Matl.UvTransform.kept.norm v)
    | .BlendState v => .BlendState (Matl.BlendStateV16.kept.norm v)
    | .RasterizerState v => .RasterizerState (Matl.RasterizerStateV16.kept.norm v)

def Matl.AttributeV16.kept : JSpec Matl.AttributeV16 where
  isNull _ := false
  fin v := Matl.ParamId.kept.fin v.param_id && ((JSpec.tagged Matl.ParamV16.kept).fin v.param)
  norm v := ⟨Matl.ParamId.kept.norm v.param_id, (JSpec.tagged Matl.ParamV16.kept).norm v.param⟩

def Matl.MatlEntryV16.kept : JSpec Matl.MatlEntryV16 where
  isNull _ := false
  fin v := (JSpec.pointer JSpec.text).fin v.material_label && ((JSpec.list Matl.AttributeV16.kept).fin v.attributes && ((JSpec.pointer JSpec.text).fin v.shader_label))
  norm v := ⟨(JSpec.pointer JSpec.text).norm v.material_label, (JSpec.list Matl.AttributeV16.kept).norm v.attributes, (JSpec.pointer JSpec.text).norm v.shader_label⟩

def Matl.V15Data.kept : JSpec Matl.V15Data where
  isNull _ := false
  fin v := (JSpec.list Matl.MatlEntryV15.kept).fin v.entries
  norm v := ⟨(JSpec.list Matl.MatlEntryV15.kept).norm v.entries⟩

def Matl.V16Data.kept : JSpec Matl.V16Data where
  isNull _ := false
  fin v := (JSpec.list Matl.MatlEntryV16.kept).fin v.entries
  norm v := ⟨(JSpec.list Matl.MatlEntryV16.kept).norm v.entries⟩

def Matl.kept : JSpec Matl where
  isNull _ := false
  fin
    | .V15 v => Matl.V15Data.kept.fin v
    | .V16 v => Matl.V16Data.kept.fin v
  norm
    | .V15 v => .V15 (Matl.V15Data.kept.norm v)
    | .V16 v => .V16 (Matl.V16Data.kept.norm v)

def Nrpd.UnkFormat.kept : JSpec Nrpd.UnkFormat := .plain

def Nrpd.Framebuffer0.kept : JSpec Nrpd.Framebuffer0 where
  isNull _ := false
  fin v := (JSpec.pointer JSpec.text).fin v.name && (JSpec.plain.fin v.width && (JSpec.plain.fin v.height && (Nrpd.UnkFormat.kept.fin v.unk1 && (JSpec.plain.fin v.unk2 && (JSpec.plain.fin v.unk3)))))
  norm v := ⟨(JSpec.pointer JSpec.text).norm v.name, JSpec.plain.norm v.width, JSpec.plain.norm v.height, Nrpd.UnkFormat.kept.norm v.unk1, JSpec.plain.norm v.unk2, JSpec.plain.norm v.unk3⟩

def Nrpd.Framebuffer1.kept : JSpec Nrpd.Framebuffer1 where
  isNull _ := false
  fin v := (JSpec.pointer JSpec.text).fin v.name && (JSpec.plain.fin v.width && (JSpec.plain.fin v.height && (JSpec.plain.fin v.unk1 && (JSpec.plain.fin v.unk2 && (JSpec.plain.fin v.unk3)))))
  norm v := ⟨(JSpec.pointer JSpec.text).norm v.name, JSpec.plain.norm v.width, JSpec.plain.norm v.height, JSpec.plain.norm v.unk1, JSpec.plain.norm v.unk2, JSpec.plain.norm v.unk3⟩

def Nrpd.UniformBuffer.kept : JSpec Nrpd.UniformBuffer where
  isNull _ := false
  fin v := (JSpec.pointer JSpec.text).fin v.name && (JSpec.plain.fin v.unk1 && (JSpec.plain.fin v.unk2 && (JSpec.plain.fin v.unk3)))
  norm v := ⟨(JSpec.pointer JSpec.text).norm v.name, JSpec.plain.norm v.unk1, JSpec.plain.norm v.unk2, JSpec.plain.norm v.unk3⟩

def Nrpd.Framebuffer3.kept : JSpec Nrpd.Framebuffer3 where
  isNull _ := false
  fin v := (JSpec.pointer JSpec.text).fin v.name && (JSpec.plain.fin v.width && (JSpec.plain.fin v.height && (JSpec.plain.fin v.unk1 && (JSpec.plain.fin v.unk2 && (JSpec.plain.fin v.unk3 && (JSpec.plain.fin v.unk4))))))
  norm v := ⟨(JSpec.pointer JSpec.text).norm v.name, JSpec.plain.norm v.width, JSpec.plain.norm v.height, JSpec.plain.norm v.unk1, JSpec.plain.norm v.unk2, JSpec.plain.norm v.unk3, JSpec.plain.norm v.unk4⟩

def Nrpd.Framebuffer4.kept : JSpec Nrpd.Framebuffer4 where
  isNull _ := false
  fin v := (JSpec.pointer JSpec.text).fin v.name && (JSpec.plain.fin v.width && (JSpec.plain.fin v.height && (JSpec.plain.fin v.unk3)))
  norm v := ⟨(JSpec.pointer JSpec.text).norm v.name, JSpec.plain.norm v.width, JSpec.plain.norm v.height, JSpec.plain.norm v.unk3⟩

def Nrpd.FrameBuffer.kept : JSpec Nrpd.FrameBuffer where
  isNull _ := false
  fin
    | .Framebuffer0 v => Nrpd.Framebuffer0.kept.fin v
    | .Framebuffer1 v => Nrpd.Framebuffer1.kept.fin v
    | .UniformBuffer v => Nrpd.UniformBuffer.kept.fin v
    | .Framebuffer3 v => Nrpd.Framebuffer3.kept.fin v
    | .Framebuffer4 v => Nrpd.Framebuffer4.kept.fin v
  norm
    | .Framebuffer0 v => .Framebuffer0 (Nrpd.Framebuffer0.kept.norm v)
    | .Framebuffer1 v => .Framebuffer1 (Nrpd.Framebuffer1.kept.norm v)
    | .UniformBuffer v => .UniformBuffer (Nrpd.UniformBuffer.kept.norm v)
    | .Framebuffer3 v => .Framebuffer3 (Nrpd.Framebuffer3.kept.norm v)
    | .Framebuffer4 v => .Framebuffer4 (Nrpd.Framebuffer4.kept.norm v)

def Nrpd.NrpdSampler.kept : JSpec Nrpd.NrpdSampler where
  isNull _ := false
  fin v := (JSpec.pointer JSpec.text).fin v.name && (Matl.Sampler.kept.fin v.data && (JSpec.plain.fin v.unk13))
  norm v := ⟨(JSpec.pointer JSpec.text).norm v.name, Matl.Sampler.kept.norm v.data, JSpec.plain.norm v.unk13⟩

def Nrpd.NrpdRasterizerState.kept : JSpec Nrpd.NrpdRasterizerState where
  isNull _ := false
  fin v := (JSpec.pointer JSpec.text).fin v.name && (Matl.FillMode.kept.fin v.fill_mode && (Matl.CullMode.kept.fin v.cull_mode && (JSpec.float.fin v.depth_bias && (JSpec.float.fin v.unk4 && (JSpec.float.fin v.unk5 && (JSpec.plain.fin v.unk6))))))
  norm v := ⟨(JSpec.pointer JSpec.text).norm v.name, Matl.FillMode.kept.norm v.fill_mode, Matl.CullMode.kept.norm v.cull_mode, JSpec.float.norm v.depth_bias, JSpec.float.norm v.unk4, JSpec.float.norm v.unk5, JSpec.plain.norm v.unk6⟩

def Nrpd.DepthState.kept : JSpec Nrpd.DepthState where
  isNull _ := false
  fin v := (JSpec.pointer JSpec.text).fin v.name && (JSpec.plain.fin v.unk2 && (JSpec.plain.fin v.unk3 && (JSpec.plain.fin v.unk4 && (JSpec.plain.fin v.unk5 && (JSpec.plain.fin v.unk6 && (JSpec.plain.fin v.unk7 && (JSpec.plain.fin v.unk8 && (JSpec.plain.fin v.unk9 && (JSpec.plain.fin v.unk10 && (JSpec.plain.fin v.unk11))))))))))
  norm v := ⟨(JSpec.pointer JSpec.text).norm v.name, JSpec.plain.norm v.unk2, JSpec.plain.norm v.unk3, JSpec.plain.norm v.unk4, JSpec.plain.norm v.unk5, JSpec.plain.norm v.unk6, JSpec.plain.norm v.unk7, JSpec.plain.norm v.unk8, JSpec.plain.norm v.unk9, JSpec.plain.norm v.unk10, JSpec.plain.norm v.unk11⟩

def Nrpd.NrpdBlendState.kept : JSpec Nrpd.NrpdBlendState where
  isNull _ := false
  fin v := (JSpec.pointer JSpec.text).fin v.name && (Matl.BlendFactor.kept.fin v.source_color && (JSpec.plain.fin v.unk2 && (Matl.BlendFactor.kept.fin v.destination_color && (JSpec.plain.fin v.unk4 && (JSpec.plain.fin v.unk5 && (JSpec.plain.fin v.unk6 && (JSpec.plain.fin v.alpha_sample_to_coverage && (JSpec.plain.fin v.unk8 && (JSpec.plain.fin v.unk9 && (JSpec.plain.fin v.unk10))))))))))
  norm v := ⟨(JSpec.pointer JSpec.text).norm v.name, Matl.BlendFactor.kept.norm v.source_color, JSpec.plain.norm v.unk2, Matl.BlendFactor.kept.norm v.destination_color, JSpec.plain.norm v.unk4, JSpec.plain.norm v.unk5, JSpec.plain.norm v.unk6, JSpec.plain.norm v.alpha_sample_to_coverage, JSpec.plain.norm v.unk8, JSpec.plain.norm v.unk9, JSpec.plain.norm v.unk10⟩

def Nrpd.State.kept : JSpec Nrpd.State where
  isNull _ := false
  fin
    | .Sampler v => Nrpd.NrpdSampler.kept.fin v
    | .RasterizerState v => Nrpd.NrpdRasterizerState.kept.fin v
    | .DepthState v => Nrpd.DepthState.kept.fin v
    | .BlendState v => Nrpd.NrpdBlendState.kept.fin v
  norm
    | .Sampler v => .Sampler (Nrpd.NrpdSampler.kept.norm v)
    | .RasterizerState v => .RasterizerState (Nrpd.NrpdRasterizerState.kept.norm v)
    | .DepthState v => .DepthState (Nrpd.DepthState.kept.norm v)
    | .BlendState v => .BlendState (Nrpd.NrpdBlendState.kept.norm v)

def Nrpd.RenderPassData0.kept : JSpec Nrpd.RenderPassData0 where
  isNull _ := false
  fin v := (JSpec.pointer JSpec.text).fin v.unk1 && ((JSpec.pointer JSpec.text).fin v.unk2 && (JSpec.plain.fin v.unk3))
  norm v := ⟨(JSpec.pointer JSpec.text).norm v.unk1, (JSpec.pointer JSpec.text).norm v.unk2, JSpec.plain.norm v.unk3⟩

def Nrpd.RenderPassData1.kept : JSpec Nrpd.RenderPassData1 where
  isNull _ := false
  fin v := (JSpec.pointer JSpec.text).fin v.unk1 && ((JSpec.pointer JSpec.text).fin v.unk2)
  norm v := ⟨(JSpec.pointer JSpec.text).norm v.unk1, (JSpec.pointer JSpec.text).norm v.unk2⟩

def Nrpd.RenderPassData2.kept : JSpec Nrpd.RenderPassData2 where
  isNull _ := false
  fin v := (JSpec.pointer JSpec.text).fin v.unk1 && ((JSpec.pointer JSpec.text).fin v.unk2 && ((JSpec.pointer JSpec.plain).fin v.unk3 && (JSpec.plain.fin v.unk4 && ((JSpec.pointer JSpec.plain).fin v.unk5 && (JSpec.plain.fin v.unk6)))))
  norm v := ⟨(JSpec.pointer JSpec.text).norm v.unk1, (JSpec.pointer JSpec.text).norm v.unk2, (JSpec.pointer JSpec.plain).norm v.unk3, JSpec.plain.norm v.unk4, (JSpec.pointer JSpec.plain).norm v.unk5, JSpec.plain.norm v.unk6⟩

def Nrpd.Unk8Data.kept : JSpec Nrpd.Unk8Data where
  isNull _ := false
  fin v := JSpec.plain.fin v.unk1 && (JSpec.plain.fin v.unk2)
  norm v := ⟨JSpec.plain.norm v.unk1, JSpec.plain.norm v.unk2⟩

def Nrpd.RenderPassData3.kept : JSpec Nrpd.RenderPassData3 where
  isNull _ := false
  fin v := (JSpec.pointer JSpec.text).fin v.unk1 && ((JSpec.pointer JSpec.text).fin v.unk2 && ((JSpec.pointer Nrpd.Unk8Data.kept).fin v.unk3 && (JSpec.plain.fin v.unk4 && ((JSpec.pointer Nrpd.Unk8Data.kept).fin v.unk5 && (JSpec.plain.fin v.unk6)))))
  norm v := ⟨(JSpec.pointer JSpec.text).norm v.unk1, (JSpec.pointer JSpec.text).norm v.unk2, (JSpec.pointer Nrpd.Unk8Data.kept).norm v.unk3, JSpec.plain.norm v.unk4, (JSpec.pointer Nrpd.Unk8Data.kept).norm v.unk5, JSpec.plain.norm v.unk6⟩

def Nrpd.RenderPassData8.kept : JSpec Nrpd.RenderPassData8 where
  isNull _ := false
  fin v := (JSpec.pointer JSpec.text).fin v.unk1 && ((JSpec.pointer JSpec.text).fin v.unk2 && ((JSpec.pointer JSpec.plain).fin v.unk3 && (JSpec.plain.fin v.unk4 && ((JSpec.pointer JSpec.plain).fin v.unk5 && (JSpec.plain.fin v.unk6)))))
  norm v := ⟨(JSpec.pointer JSpec.text).norm v.unk1, (JSpec.pointer JSpec.text).norm v.unk2, (JSpec.pointer JSpec.plain).norm v.unk3, JSpec.plain.norm v.unk4, (JSpec.pointer JSpec.plain).norm v.unk5, JSpec.plain.norm v.unk6⟩

def Nrpd.ColorClear.kept : JSpec Nrpd.ColorClear where
  isNull _ := false
  fin v := (JSpec.pointer JSpec.text).fin v.name && (Color4f.kept.fin v.color && (JSpec.plain.fin v.unk1))
  norm v := ⟨(JSpec.pointer JSpec.text).norm v.name, Color4f.kept.norm v.color, JSpec.plain.norm v.unk1⟩

def Nrpd.DepthStencilClear.kept : JSpec Nrpd.DepthStencilClear where
  isNull _ := false
  fin v := (JSpec.pointer JSpec.text).fin v.name && (JSpec.float.fin v.depth && (JSpec.plain.fin v.stencil))
  norm v := ⟨(JSpec.pointer JSpec.text).norm v.name, JSpec.float.norm v.depth, JSpec.plain.norm v.stencil⟩

def Nrpd.Viewport.kept : JSpec Nrpd.Viewport where
  isNull _ := false
  fin v := (JSpec.pointer JSpec.text).fin v.name && (JSpec.plain.fin v.unk2 && (JSpec.float.fin v.width && (JSpec.float.fin v.height && (JSpec.float.fin v.unk_min && (JSpec.float.fin v.unk_max && (JSpec.plain.fin v.unk4))))))
  norm v := ⟨(JSpec.pointer JSpec.text).norm v.name, JSpec.plain.norm v.unk2, JSpec.float.norm v.width, JSpec.float.norm v.height, JSpec.float.norm v.unk_min, JSpec.float.norm v.unk_max, JSpec.plain.norm v.unk4⟩

def Nrpd.RenderPassData13.kept : JSpec Nrpd.RenderPassData13 where
  isNull _ := false
  fin v := (JSpec.pointer JSpec.text).fin v.unk1 && ((JSpec.pointer JSpec.text).fin v.unk2 && ((JSpec.pointer JSpec.plain).fin v.unk3 && (JSpec.plain.fin v.unk4 && ((JSpec.pointer JSpec.plain).fin v.unk5 && (JSpec.plain.fin v.unk6)))))
  norm v := ⟨(JSpec.pointer JSpec.text).norm v.unk1, (JSpec.pointer JSpec.text).norm v.unk2, (JSpec.pointer JSpec.plain).norm v.unk3, JSpec.plain.norm v.unk4, (JSpec.pointer JSpec.plain).norm v.unk5, JSpec.plain.norm v.unk6⟩

def Nrpd.StringPair.kept : JSpec Nrpd.StringPair where
  isNull _ := false
  fin v := (JSpec.pointer JSpec.text).fin v.item1 && ((JSpec.pointer JSpec.text).fin v.item2)
  norm v := ⟨(JSpec.pointer JSpec.text).norm v.item1, (JSpec.pointer JSpec.text).norm v.item2⟩

def Nrpd.RenderPassData19.kept : JSpec Nrpd.RenderPassData19 where
  isNull _ := false
  fin v := (JSpec.pointer JSpec.text).fin v.unk1 && (JSpec.plain.fin v.unk2)
  norm v := ⟨(JSpec.pointer JSpec.text).norm v.unk1, JSpec.plain.norm v.unk2⟩

def Nrpd.RenderPassData.kept : JSpec Nrpd.RenderPassData where
  isNull _ := false
  fin
    | .FramebufferRtp v => Nrpd.RenderPassData0.kept.fin v
    | .PassUnk1 v => Nrpd.RenderPassData1.kept.fin v
    | .UnkTexture1 v => Nrpd.RenderPassData2.kept.fin v
    | .UnkLight v => Nrpd.RenderPassData3.kept.fin v
    | .Unk8 v => Nrpd.RenderPassData8.kept.fin v
    | .ColorClear v => Nrpd.ColorClear.kept.fin v
    | .DepthStencilClear v => Nrpd.DepthStencilClear.kept.fin v
    | .Viewport v => Nrpd.Viewport.kept.fin v
    | .Sampler v => Nrpd.RenderPassData13.kept.fin v
    | .BlendState v => Nrpd.StringPair.kept.fin v
    | .RasterizerState v => Nrpd.StringPair.kept.fin v
    | .DepthStencilState v => Nrpd.StringPair.kept.fin v
    | .FramebufferRenderTarget v => (JSpec.pointer JSpec.text).fin v
    | .FramebufferDepthStencil v => (JSpec.pointer JSpec.text).fin v
    | .UnkTexture2 v => Nrpd.RenderPassData19.kept.fin v
  norm
    | .FramebufferRtp v => .FramebufferRtp (Nrpd.RenderPassData0.kept.norm v)
    | .PassUnk1 v => .PassUnk1 (Nrpd.RenderPassData1.kept.norm v)
    | .UnkTexture1 v => .UnkTexture1 (Nrpd.RenderPassData2.kept.norm v)
    | .UnkLight v => .UnkLight (Nrpd.RenderPassData3.kept.norm v)
    | .Unk8 v => .Unk8 (Nrpd.RenderPassData8.kept.norm v)
    | .ColorClear v => .ColorClear (Nrpd.ColorClear.kept.norm v)
    | .DepthStencilClear v => .DepthStencilClear (Nrpd.DepthStencilClear.kept.norm v)
    | .Viewport v => .Viewport (Nrpd.Viewport.kept.norm v)
    | .Sampler v => .Sampler (Nrpd.RenderPassData13.kept.norm v)
    | .BlendState v => .BlendState (Nrpd.StringPair.kept.norm v)
    | .RasterizerState v => .RasterizerState (Nrpd.StringPair.kept.norm v)
    | .DepthStencilState v => .DepthStencilState (Nrpd.StringPair.kept.norm v)
    | .FramebufferRenderTarget v => .FramebufferRenderTarget ((JSpec.pointer JSpec.text).norm v)
    | .FramebufferDepthStencil v => .FramebufferDepthStencil ((JSpec.pointer JSpec.text).norm v)
    | .UnkTexture2 v => .UnkTexture2 (Nrpd.RenderPassData19.kept.norm v)

def Nrpd.Unk3Data.kept : JSpec Nrpd.Unk3Data where
  isNull _ := false
  fin v := (JSpec.pointer JSpec.text).fin v.unk1 && ((JSpec.pointer JSpec.text).fin v.unk2 && (JSpec.float.fin v.unk3 && (JSpec.float.fin v.unk4 && (JSpec.float.fin v.unk5 && (JSpec.float.fin v.unk6)))))
  norm v := ⟨(JSpec.pointer JSpec.text).norm v.unk1, (JSpec.pointer JSpec.text).norm v.unk2, JSpec.float.norm v.unk3, JSpec.float.norm v.unk4, JSpec.float.norm v.unk5, JSpec.float.norm v.unk6⟩

def Nrpd.RenderPassUnkData.kept : JSpec Nrpd.RenderPassUnkData where
  isNull _ := false
  fin
    | .UnkDataUnk0 v => JSpec.unit.fin v
    | .UnkDataUnk3 v => Nrpd.Unk3Data.kept.fin v
  norm
    | .UnkDataUnk0 v => .UnkDataUnk0 (JSpec.unit.norm v)
    | .UnkDataUnk3 v => .UnkDataUnk3 (Nrpd.Unk3Data.kept.norm v)

def Nrpd.RenderPassContainer.kept : JSpec Nrpd.RenderPassContainer where
  isNull _ := false
  fin v := (JSpec.pointer JSpec.text).fin v.name && ((JSpec.list (JSpec.tagged Nrpd.RenderPassData.kept)).fin v.unk1 && ((JSpec.list (JSpec.tagged Nrpd.RenderPassData.kept)).fin v.unk2 && ((JSpec.tagged Nrpd.RenderPassUnkData.kept).fin v.unk3)))
  norm v := ⟨(JSpec.pointer JSpec.text).norm v.name, (JSpec.list (JSpec.tagged Nrpd.RenderPassData.kept)).norm v.unk1, (JSpec.list (JSpec.tagged Nrpd.RenderPassData.kept)).norm v.unk2, (JSpec.tagged Nrpd.RenderPassUnkData.kept).norm v.unk3⟩

def Nrpd.UnkItem20.kept : JSpec Nrpd.UnkItem20 where
  isNull _ := false
  fin v := (JSpec.pointer JSpec.text).fin v.unk1 && ((JSpec.pointer JSpec.text).fin v.unk2)
  norm v := ⟨(JSpec.pointer JSpec.text).norm v.unk1, (JSpec.pointer JSpec.text).norm v.unk2⟩

def Nrpd.UnkItem21.kept : JSpec Nrpd.UnkItem21 where
  isNull _ := false
  fin v := (JSpec.pointer JSpec.text).fin v.unk1 && ((JSpec.pointer JSpec.text).fin v.unk2 && ((JSpec.vector JSpec.plain).fin v.unk3))
  norm v := ⟨(JSpec.pointer JSpec.text).norm v.unk1, (JSpec.pointer JSpec.text).norm v.unk2, (JSpec.vector JSpec.plain).norm v.unk3⟩

def Nrpd.UnkItem22.kept : JSpec Nrpd.UnkItem22 where
  isNull _ := false
  fin v := (JSpec.pointer JSpec.text).fin v.unk1 && ((JSpec.pointer JSpec.text).fin v.unk2 && (JSpec.plain.fin v.unk3 && (JSpec.plain.fin v.unk4 && (JSpec.plain.fin v.unk5 && (Nrpd.UnkFormat.kept.fin v.unk6 && (JSpec.plain.fin v.unk8))))))
  norm v := ⟨(JSpec.pointer JSpec.text).norm v.unk1, (JSpec.pointer JSpec.text).norm v.unk2, JSpec.plain.norm v.unk3, JSpec.plain.norm v.unk4, JSpec.plain.norm v.unk5, Nrpd.UnkFormat.kept.norm v.unk6, JSpec.plain.norm v.unk8⟩

def Nrpd.UnkItem24.kept : JSpec Nrpd.UnkItem24 where
  isNull _ := false
  fin v := (JSpec.pointer JSpec.text).fin v.unk1 && ((JSpec.pointer JSpec.text).fin v.unk2 && ((JSpec.vector JSpec.plain).fin v.unk3))
  norm v := ⟨(JSpec.pointer JSpec.text).norm v.unk1, (JSpec.pointer JSpec.text).norm v.unk2, (JSpec.vector JSpec.plain).norm v.unk3⟩

def Nrpd.UnkItem2.kept : JSpec Nrpd.UnkItem2 where
  isNull _ := false
  fin
    | .UnkItem20 v => Nrpd.UnkItem20.kept.fin v
    | .UnkItem21 v => Nrpd.UnkItem21.kept.fin v
    | .UnkItem22 v => Nrpd.UnkItem22.kept.fin v
    | .UnkItem24 v => Nrpd.UnkItem24.kept.fin v
  norm
    | .UnkItem20 v => .UnkItem20 (Nrpd.UnkItem20.kept.norm v)
    | .UnkItem21 v => .UnkItem21 (Nrpd.UnkItem21.kept.norm v)
    | .UnkItem22 v => .UnkItem22 (Nrpd.UnkItem22.kept.norm v)
    | .UnkItem24 v => .UnkItem24 (Nrpd.UnkItem24.kept.norm v)

def Nrpd.UnkItem3.kept : JSpec Nrpd.UnkItem3 where
  isNull _ := false
  fin v := (JSpec.pointer JSpec.text).fin v.name && ((JSpec.pointer JSpec.text).fin v.value)
  norm v := ⟨(JSpec.pointer JSpec.text).norm v.name, (JSpec.pointer JSpec.text).norm v.value⟩

def Nrpd.UnkItem1.kept : JSpec Nrpd.UnkItem1 where
  isNull _ := false
  fin v := (JSpec.pointer JSpec.text).fin v.unk1 && ((JSpec.list Nrpd.UnkItem3.kept).fin v.unk2)
  norm v := ⟨(JSpec.pointer JSpec.text).norm v.unk1, (JSpec.list Nrpd.UnkItem3.kept).norm v.unk2⟩

def Nrpd.V16Data.kept : JSpec Nrpd.V16Data where
  isNull _ := false
  fin v := (JSpec.list (JSpec.tagged Nrpd.FrameBuffer.kept)).fin v.frame_buffers && ((JSpec.list (JSpec.tagged Nrpd.State.kept)).fin v.state_containers && ((JSpec.list Nrpd.RenderPassContainer.kept).fin v.render_passes && ((JSpec.list Nrpd.StringPair.kept).fin v.unk_string_list1 && ((JSpec.list (JSpec.tagged Nrpd.UnkItem2.kept)).fin v.unk_string_list2 && ((JSpec.list Nrpd.UnkItem1.kept).fin v.unk_list && (JSpec.plain.fin v.unk_width1 && (JSpec.plain.fin v.unk_height1 && (JSpec.plain.fin v.unk3 && (JSpec.plain.fin v.unk4 && (JSpec.plain.fin v.unk5 && (JSpec.plain.fin v.unk6 && (JSpec.plain.fin v.unk7 && (JSpec.plain.fin v.unk8 && ((JSpec.pointer JSpec.text).fin v.unk9 && (JSpec.plain.fin v.unk_width2 && (JSpec.plain.fin v.unk_height2 && (JSpec.plain.fin v.unk10)))))))))))))))))
  norm v := ⟨(JSpec.list (JSpec.tagged Nrpd.FrameBuffer.kept)).norm v.frame_buffers, (JSpec.list (JSpec.tagged Nrpd.State.kept)).norm v.state_containers, (JSpec.list Nrpd.RenderPassContainer.kept).norm v.render_passes, (JSpec.list Nrpd.StringPair.kept).norm v.unk_string_list1, (JSpec.list (JSpec.tagged Nrpd.UnkItem2.kept)).norm v.unk_string_list2, (JSpec.list Nrpd.UnkItem1.kept).norm v.unk_list, JSpec.plain.norm v.unk_width1, JSpec.plain.norm v.unk_height1, JSpec.plain.norm v.unk3, JSpec.plain.norm v.unk4, JSpec.plain.norm v.unk5, JSpec.plain.norm v.unk6, JSpec.plain.norm v.unk7, JSpec.plain.norm v.unk8, (JSpec.pointer JSpec.text).norm v.unk9, JSpec.plain.norm v.unk_width2, JSpec.plain.norm v.unk_height2, JSpec.plain.norm v.unk10⟩

def Nrpd.kept : JSpec Nrpd where
  isNull _ := false
  fin
    | .V16 v => Nrpd.V16Data.kept.fin v
  norm
    | .V16 v => .V16 (Nrpd.V16Data.kept.norm v)

def MeshEx.AllData.kept : JSpec MeshEx.AllData where
  isNull _ := false
  fin v := Mesh.BoundingSphere.kept.fin v.bounding_sphere && ((JSpec.pointer JSpec.text).fin v.name)
  norm v := ⟨Mesh.BoundingSphere.kept.norm v.bounding_sphere, (JSpec.pointer JSpec.text).norm v.name⟩

def MeshEx.MeshObjectGroup.kept : JSpec MeshEx.MeshObjectGroup where
  isNull _ := false
  fin v := Mesh.BoundingSphere.kept.fin v.bounding_sphere && ((JSpec.pointer JSpec.text).fin v.mesh_object_full_name && ((JSpec.pointer JSpec.text).fin v.mesh_object_name))
  norm v := ⟨Mesh.BoundingSphere.kept.norm v.bounding_sphere, (JSpec.pointer JSpec.text).norm v.mesh_object_full_name, (JSpec.pointer JSpec.text).norm v.mesh_object_name⟩

def MeshEx.MeshEntry.kept : JSpec MeshEx.MeshEntry where
  isNull _ := false
  fin v := JSpec.plain.fin v.mesh_object_group_index && (Vector3.kept.fin v.unk1)
  norm v := ⟨JSpec.plain.norm v.mesh_object_group_index, Vector3.kept.norm v.unk1⟩

def MeshEx.kept : JSpec MeshEx where
  isNull _ := false
  fin v := (JSpec.pointer MeshEx.AllData.kept).fin v.all_data && ((JSpec.pointer (JSpec.list MeshEx.MeshObjectGroup.kept)).fin v.mesh_object_groups && ((JSpec.pointer (JSpec.list MeshEx.MeshEntry.kept)).fin v.entries && ((JSpec.pointer (JSpec.list JSpec.plain)).fin v.entry_flags && (JSpec.plain.fin v.unk1))))
  norm v := ⟨(JSpec.pointer MeshEx.AllData.kept).norm v.all_data, (JSpec.pointer (JSpec.list MeshEx.MeshObjectGroup.kept)).norm v.mesh_object_groups, (JSpec.pointer (JSpec.list MeshEx.MeshEntry.kept)).norm v.entries, (JSpec.pointer (JSpec.list JSpec.plain)).norm v.entry_flags, JSpec.plain.norm v.unk1⟩

def Adj.AdjEntry.kept : JSpec Adj.AdjEntry where
  isNull _ := false
  fin v := JSpec.plain.fin v.mesh_object_index && (JSpec.plain.fin v.index_buffer_offset)
  norm v := ⟨JSpec.plain.norm v.mesh_object_index, JSpec.plain.norm v.index_buffer_offset⟩

def Adj.kept : JSpec Adj where
  isNull _ := false
  fin v := (JSpec.list Adj.AdjEntry.kept).fin v.entries && ((JSpec.list JSpec.plain).fin v.index_buffer)
  norm v := ⟨(JSpec.list Adj.AdjEntry.kept).norm v.entries, (JSpec.list JSpec.plain).norm v.index_buffer⟩

def Ssbh.kept : JSpec Ssbh where
  isNull _ := false
  fin
    | .Hlpb v => Hlpb.kept.fin v
    | .Matl v => Matl.kept.fin v
    | .Modl v => Modl.kept.fin v
    | .Mesh v => Mesh.kept.fin v
    | .Skel v => Skel.kept.fin v
    | .Anim v => Anim.kept.fin v
    | .Nlst v => Nlst.kept.fin v
    | .Nrpd v => Nrpd.kept.fin v
    | .Nufx v => Nufx.kept.fin v
    | .Shdr v => Shdr.kept.fin v
  norm
    | .Hlpb v => .Hlpb (Hlpb.kept.norm v)
    | .Matl v => .Matl (Matl.kept.norm v)
    | .Modl v => .Modl (Modl.kept.norm v)
    | .Mesh v => .Mesh (Mesh.kept.norm v)
    | .Skel v => .Skel (Skel.kept.norm v)
    | .Anim v => .Anim (Anim.kept.norm v)
    | .Nlst v => .Nlst (Nlst.kept.norm v)
    | .Nrpd v => .Nrpd (Nrpd.kept.norm v)
    | .Nufx v => .Nufx (Nufx.kept.norm v)
    | .Shdr v => .Shdr (Shdr.kept.norm v)

end Verif
