import Verif.Data.DataFiles
/-!
# Values without signs of zeros

Specification for C113: `plus` replaces all floats -0 of a value by 0 and leaves everything else, `nanFree` says that no float is a NaN.
-/

namespace Verif

/-- -0 becomes 0. -/
def plusZero (x : F32) : F32 := if x = 0x80000000 then 0 else x

/-- Not a NaN, whose exponent bits are all set and whose mantissa is not zero. -/
def notNan (x : F32) : Bool := ! (x.toNat / 2 ^ 23 % 256 == 255 && x.toNat % 2 ^ 23 != 0)

def Vector3.plus (v : Vector3) : Vector3 := { v with x := plusZero v.x, y := plusZero v.y, z := plusZero v.z }
def Vector3.nanFree (v : Vector3) : Bool := notNan v.x && notNan v.y && notNan v.z

def Vector4.plus (v : Vector4) : Vector4 := { v with x := plusZero v.x, y := plusZero v.y, z := plusZero v.z, w := plusZero v.w }
def Vector4.nanFree (v : Vector4) : Bool := notNan v.x && notNan v.y && notNan v.z && notNan v.w

def Color4f.plus (v : Color4f) : Color4f := { v with r := plusZero v.r, g := plusZero v.g, b := plusZero v.b, a := plusZero v.a }
def Color4f.nanFree (v : Color4f) : Bool := notNan v.r && notNan v.g && notNan v.b && notNan v.a

def Matl.UvTransform.plus (v : Matl.UvTransform) : Matl.UvTransform := { v with scale_u := plusZero v.scale_u, scale_v := plusZero v.scale_v, rotation := plusZero v.rotation, translate_u := plusZero v.translate_u, translate_v := plusZero v.translate_v }
def Matl.UvTransform.nanFree (v : Matl.UvTransform) : Bool := notNan v.scale_u && notNan v.scale_v && notNan v.rotation && notNan v.translate_u && notNan v.translate_v

def Mesh.BoundingSphere.plus (v : Mesh.BoundingSphere) : Mesh.BoundingSphere := { v with center := Vector3.plus v.center, radius := plusZero v.radius }
def Mesh.BoundingSphere.nanFree (v : Mesh.BoundingSphere) : Bool := Vector3.nanFree v.center && notNan v.radius

def Matrix4x4.plus (v : Matrix4x4) : Matrix4x4 := { v with col1 := Vector4.plus v.col1, col2 := Vector4.plus v.col2, col3 := Vector4.plus v.col3, col4 := Vector4.plus v.col4 }
def Matrix4x4.nanFree (v : Matrix4x4) : Bool := Vector4.nanFree v.col1 && Vector4.nanFree v.col2 && Vector4.nanFree v.col3 && Vector4.nanFree v.col4

def HlpbData.AimConstraintData.plus (v : HlpbData.AimConstraintData) : HlpbData.AimConstraintData := { v with aim := Vector3.plus v.aim, up := Vector3.plus v.up, quat1 := Vector4.plus v.quat1, quat2 := Vector4.plus v.quat2 }
def HlpbData.AimConstraintData.nanFree (v : HlpbData.AimConstraintData) : Bool := Vector3.nanFree v.aim && Vector3.nanFree v.up && Vector4.nanFree v.quat1 && Vector4.nanFree v.quat2

def HlpbData.OrientConstraintData.plus (v : HlpbData.OrientConstraintData) : HlpbData.OrientConstraintData := { v with constraint_axes := Vector3.plus v.constraint_axes, quat1 := Vector4.plus v.quat1, quat2 := Vector4.plus v.quat2, range_min := Vector3.plus v.range_min, range_max := Vector3.plus v.range_max }
def HlpbData.OrientConstraintData.nanFree (v : HlpbData.OrientConstraintData) : Bool := Vector3.nanFree v.constraint_axes && Vector4.nanFree v.quat1 && Vector4.nanFree v.quat2 && Vector3.nanFree v.range_min && Vector3.nanFree v.range_max

def HlpbData.plus (v : HlpbData) : HlpbData := { v with aim_constraints := v.aim_constraints.map HlpbData.AimConstraintData.plus, orient_constraints := v.orient_constraints.map HlpbData.OrientConstraintData.plus }
def HlpbData.nanFree (v : HlpbData) : Bool := v.aim_constraints.all HlpbData.AimConstraintData.nanFree && v.orient_constraints.all HlpbData.OrientConstraintData.nanFree

def MatlData.SamplerData.plus (v : MatlData.SamplerData) : MatlData.SamplerData := { v with border_color := Color4f.plus v.border_color, lod_bias := plusZero v.lod_bias }
def MatlData.SamplerData.nanFree (v : MatlData.SamplerData) : Bool := Color4f.nanFree v.border_color && notNan v.lod_bias

def MatlData.RasterizerStateData.plus (v : MatlData.RasterizerStateData) : MatlData.RasterizerStateData := { v with depth_bias := plusZero v.depth_bias }
def MatlData.RasterizerStateData.nanFree (v : MatlData.RasterizerStateData) : Bool := notNan v.depth_bias

def MatlData.ParamData.plus (f : α → α) (v : MatlData.ParamData α) : MatlData.ParamData α := { v with data := f v.data }
def MatlData.ParamData.nanFree (f : α → Bool) (v : MatlData.ParamData α) : Bool := f v.data

def MatlData.MatlEntryData.plus (v : MatlData.MatlEntryData) : MatlData.MatlEntryData := { v with floats := v.floats.map (MatlData.ParamData.plus plusZero), vectors := v.vectors.map (MatlData.ParamData.plus Vector4.plus), rasterizer_states := v.rasterizer_states.map (MatlData.ParamData.plus MatlData.RasterizerStateData.plus), samplers := v.samplers.map (MatlData.ParamData.plus MatlData.SamplerData.plus), uv_transforms := v.uv_transforms.map (MatlData.ParamData.plus Matl.UvTransform.plus) }
def MatlData.MatlEntryData.nanFree (v : MatlData.MatlEntryData) : Bool := v.floats.all (MatlData.ParamData.nanFree notNan) && v.vectors.all (MatlData.ParamData.nanFree Vector4.nanFree) && v.rasterizer_states.all (MatlData.ParamData.nanFree MatlData.RasterizerStateData.nanFree) && v.samplers.all (MatlData.ParamData.nanFree MatlData.SamplerData.nanFree) && v.uv_transforms.all (MatlData.ParamData.nanFree Matl.UvTransform.nanFree)

def MatlData.plus (v : MatlData) : MatlData := { v with entries := v.entries.map MatlData.MatlEntryData.plus }
def MatlData.nanFree (v : MatlData) : Bool := v.entries.all MatlData.MatlEntryData.nanFree

def SkelData.BoneData.plus (v : SkelData.BoneData) : SkelData.BoneData := { v with transform := Matrix4x4.plus v.transform }
def SkelData.BoneData.nanFree (v : SkelData.BoneData) : Bool := Matrix4x4.nanFree v.transform

def SkelData.plus (v : SkelData) : SkelData := { v with bones := v.bones.map SkelData.BoneData.plus }
def SkelData.nanFree (v : SkelData) : Bool := v.bones.all SkelData.BoneData.nanFree

def MeshExData.MeshObjectGroupData.plus (v : MeshExData.MeshObjectGroupData) : MeshExData.MeshObjectGroupData := { v with bounding_sphere := Mesh.BoundingSphere.plus v.bounding_sphere }
def MeshExData.MeshObjectGroupData.nanFree (v : MeshExData.MeshObjectGroupData) : Bool := Mesh.BoundingSphere.nanFree v.bounding_sphere

def MeshExData.plus (v : MeshExData) : MeshExData := { v with mesh_object_groups := v.mesh_object_groups.map MeshExData.MeshObjectGroupData.plus }
def MeshExData.nanFree (v : MeshExData) : Bool := v.mesh_object_groups.all MeshExData.MeshObjectGroupData.nanFree

def UvTransform.plus (v : UvTransform) : UvTransform := { v with scale_u := plusZero v.scale_u, scale_v := plusZero v.scale_v, rotation := plusZero v.rotation, translate_u := plusZero v.translate_u, translate_v := plusZero v.translate_v }
def UvTransform.nanFree (v : UvTransform) : Bool := notNan v.scale_u && notNan v.scale_v && notNan v.rotation && notNan v.translate_u && notNan v.translate_v

def Transform.plus (v : Transform) : Transform := { v with scale := Vector3.plus v.scale, rotation := Vector4.plus v.rotation, translation := Vector3.plus v.translation }
def Transform.nanFree (v : Transform) : Bool := Vector3.nanFree v.scale && Vector4.nanFree v.rotation && Vector3.nanFree v.translation

def TrackValues.plus : TrackValues → TrackValues
  | .transform v => .transform (v.map Transform.plus)
  | .uvTransform v => .uvTransform (v.map UvTransform.plus)
  | .float v => .float (v.map plusZero)
  | .patternIndex v => .patternIndex v
  | .boolean v => .boolean v
  | .vector4 v => .vector4 (v.map Vector4.plus)

def TrackValues.nanFree : TrackValues → Bool
  | .transform v => v.all Transform.nanFree
  | .uvTransform v => v.all UvTransform.nanFree
  | .float v => v.all notNan
  | .patternIndex _ => true
  | .boolean _ => true
  | .vector4 v => v.all Vector4.nanFree

def AnimData.TrackData.plus (v : AnimData.TrackData) : AnimData.TrackData := { v with values := TrackValues.plus v.values }
def AnimData.TrackData.nanFree (v : AnimData.TrackData) : Bool := TrackValues.nanFree v.values

def AnimData.NodeData.plus (v : AnimData.NodeData) : AnimData.NodeData := { v with tracks := v.tracks.map AnimData.TrackData.plus }
def AnimData.NodeData.nanFree (v : AnimData.NodeData) : Bool := v.tracks.all AnimData.TrackData.nanFree

def AnimData.GroupData.plus (v : AnimData.GroupData) : AnimData.GroupData := { v with nodes := v.nodes.map AnimData.NodeData.plus }
def AnimData.GroupData.nanFree (v : AnimData.GroupData) : Bool := v.nodes.all AnimData.NodeData.nanFree

def AnimData.plus (v : AnimData) : AnimData := { v with final_frame_index := plusZero v.final_frame_index, groups := v.groups.map AnimData.GroupData.plus }
def AnimData.nanFree (v : AnimData) : Bool := notNan v.final_frame_index && v.groups.all AnimData.GroupData.nanFree

end Verif
