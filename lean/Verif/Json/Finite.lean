import Verif.Data.DataFiles
import Verif.Data.ShdrData
/-!
# Data with finite floats

Specification: all floats of a value are finite (and indices fit the machine). Types without floats have no function here.
Written by tools/gen_json_data.py from the Rust definitions.
-/

namespace Verif

/-- Neither an infinity nor a NaN. -/
def finite (x : F32) : Bool := x.toNat / 2 ^ 23 % 256 ≠ 255

/-- Numbers which fit `usize` on a 64 bit machine: all that a Rust program can have. -/
def isUsize (n : Nat) : Bool := n < 2 ^ 64

def Vector3.finite (v : Vector3) : Bool := Verif.finite v.x && Verif.finite v.y && Verif.finite v.z

def Vector4.finite (v : Vector4) : Bool := Verif.finite v.x && Verif.finite v.y && Verif.finite v.z && Verif.finite v.w

def Color4f.finite (v : Color4f) : Bool := Verif.finite v.r && Verif.finite v.g && Verif.finite v.b && Verif.finite v.a

def Matl.UvTransform.finite (v : Matl.UvTransform) : Bool := Verif.finite v.scale_u && Verif.finite v.scale_v && Verif.finite v.rotation && Verif.finite v.translate_u && Verif.finite v.translate_v

def Mesh.BoundingSphere.finite (v : Mesh.BoundingSphere) : Bool := v.center.finite && Verif.finite v.radius

def HlpbData.AimConstraintData.finite (v : HlpbData.AimConstraintData) : Bool := v.aim.finite && v.up.finite && v.quat1.finite && v.quat2.finite

def HlpbData.OrientConstraintData.finite (v : HlpbData.OrientConstraintData) : Bool := v.constraint_axes.finite && v.quat1.finite && v.quat2.finite && v.range_min.finite && v.range_max.finite

def HlpbData.finite (v : HlpbData) : Bool := v.aim_constraints.all HlpbData.AimConstraintData.finite && v.orient_constraints.all HlpbData.OrientConstraintData.finite

def MatlData.ParamData.finite (f : α → Bool) (v : MatlData.ParamData α) : Bool := f v.data

def MatlData.SamplerData.finite (v : MatlData.SamplerData) : Bool := v.border_color.finite && Verif.finite v.lod_bias

def MatlData.RasterizerStateData.finite (v : MatlData.RasterizerStateData) : Bool := Verif.finite v.depth_bias

def MatlData.MatlEntryData.finite (v : MatlData.MatlEntryData) : Bool := v.floats.all (MatlData.ParamData.finite Verif.finite) && v.vectors.all (MatlData.ParamData.finite Vector4.finite) && v.rasterizer_states.all (MatlData.ParamData.finite MatlData.RasterizerStateData.finite) && v.samplers.all (MatlData.ParamData.finite MatlData.SamplerData.finite) && v.uv_transforms.all (MatlData.ParamData.finite Matl.UvTransform.finite)

def MatlData.finite (v : MatlData) : Bool := v.entries.all MatlData.MatlEntryData.finite

def Matrix4x4.finite (m : Matrix4x4) : Bool := m.col1.finite && m.col2.finite && m.col3.finite && m.col4.finite

def SkelData.BoneData.finite (v : SkelData.BoneData) : Bool := v.transform.finite && v.parent_index.all Verif.isUsize

def SkelData.finite (v : SkelData) : Bool := v.bones.all SkelData.BoneData.finite

def MeshExData.MeshObjectGroupData.finite (v : MeshExData.MeshObjectGroupData) : Bool := v.bounding_sphere.finite

def MeshExData.finite (v : MeshExData) : Bool := v.mesh_object_groups.all MeshExData.MeshObjectGroupData.finite

def AdjEntryData.finite (v : AdjEntryData) : Bool := Verif.isUsize v.mesh_object_index

def AdjData.finite (v : AdjData) : Bool := v.entries.all AdjEntryData.finite

def VectorData.finite : VectorData → Bool
  | .Vector2 v => v.all (fun a => a.toList.all Verif.finite)
  | .Vector3 v => v.all (fun a => a.toList.all Verif.finite)
  | .Vector4 v => v.all (fun a => a.toList.all Verif.finite)

def MeshData.AttributeData.finite (v : MeshData.AttributeData) : Bool := v.data.finite

def MeshData.VertexWeight.finite (v : MeshData.VertexWeight) : Bool := Verif.finite v.vertex_weight

def MeshData.BoneInfluence.finite (v : MeshData.BoneInfluence) : Bool := v.vertex_weights.all MeshData.VertexWeight.finite

def MeshData.MeshObjectData.finite (v : MeshData.MeshObjectData) : Bool := v.positions.all MeshData.AttributeData.finite && v.normals.all MeshData.AttributeData.finite && v.binormals.all MeshData.AttributeData.finite && v.tangents.all MeshData.AttributeData.finite && v.texture_coordinates.all MeshData.AttributeData.finite && v.color_sets.all MeshData.AttributeData.finite && v.bone_influences.all MeshData.BoneInfluence.finite

def MeshData.finite (v : MeshData) : Bool := v.objects.all MeshData.MeshObjectData.finite

def UvTransform.finite (v : UvTransform) : Bool := Verif.finite v.scale_u && Verif.finite v.scale_v && Verif.finite v.rotation && Verif.finite v.translate_u && Verif.finite v.translate_v

def Transform.finite (v : Transform) : Bool := v.scale.finite && v.rotation.finite && v.translation.finite

def TrackValues.finite : TrackValues → Bool
  | .transform v => v.all Transform.finite
  | .uvTransform v => v.all UvTransform.finite
  | .float v => v.all Verif.finite
  | .patternIndex _ => true
  | .boolean _ => true
  | .vector4 v => v.all Vector4.finite

def AnimData.TrackData.finite (v : AnimData.TrackData) : Bool := v.values.finite

def AnimData.NodeData.finite (v : AnimData.NodeData) : Bool := v.tracks.all AnimData.TrackData.finite

def AnimData.GroupData.finite (v : AnimData.GroupData) : Bool := v.nodes.all AnimData.NodeData.finite

def AnimData.finite (v : AnimData) : Bool := Verif.finite v.final_frame_index && v.groups.all AnimData.GroupData.finite

end Verif
