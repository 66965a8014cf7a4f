import Verif.Json.DataFormats
import Verif.Json.FormatOrder
/-!
# The order of the entries of the objects of the data types

Written by tools/gen_json_data.py from the Rust definitions.
-/

namespace Verif

instance : JOrd ModlData.ModlEntryData.json := by unfold ModlData.ModlEntryData.json; infer_instance

instance : JOrd ModlData.json := by unfold ModlData.json; infer_instance

instance : JOrd HlpbData.AimConstraintData.json := by unfold HlpbData.AimConstraintData.json; infer_instance

instance : JOrd HlpbData.OrientConstraintData.json := by unfold HlpbData.OrientConstraintData.json; infer_instance

instance : JOrd HlpbData.json := by unfold HlpbData.json; infer_instance

instance {c : JCodec α} [JOrd c] : JOrd (MatlData.ParamData.json c) := by unfold MatlData.ParamData.json; infer_instance

instance : JOrd MatlData.maxAnisotropy := by unfold MatlData.maxAnisotropy; infer_instance

instance : JOrd MatlData.SamplerData.json := by unfold MatlData.SamplerData.json; infer_instance

instance : JOrd MatlData.BlendStateData.json := by unfold MatlData.BlendStateData.json; infer_instance

instance : JOrd MatlData.RasterizerStateData.json := by unfold MatlData.RasterizerStateData.json; infer_instance

instance : JOrd MatlData.MatlEntryData.json := by unfold MatlData.MatlEntryData.json; infer_instance

instance : JOrd MatlData.json := by unfold MatlData.json; infer_instance

instance : JOrd matrixJson := by unfold matrixJson; infer_instance

instance : JOrd SkelData.BoneData.json := by unfold SkelData.BoneData.json; infer_instance

instance : JOrd SkelData.json := by unfold SkelData.json; infer_instance

instance : JOrd MeshExData.EntryFlags.json := by unfold MeshExData.EntryFlags.json; infer_instance

instance : JOrd MeshExData.MeshObjectGroupData.json := by unfold MeshExData.MeshObjectGroupData.json; infer_instance

instance : JOrd MeshExData.json := by unfold MeshExData.json; infer_instance

instance : JOrd AdjEntryData.json := by unfold AdjEntryData.json; infer_instance

instance : JOrd AdjData.json := by unfold AdjData.json; infer_instance

instance : JOrd VectorData.json := by
  refine ord_of_single (fun n j =>
      if n = "Vector2" then ((JCodec.vec (JCodec.arrayN 2 JCodec.f32)).de j).map .Vector2
      else if n = "Vector3" then ((JCodec.vec (JCodec.arrayN 3 JCodec.f32)).de j).map .Vector3
      else if n = "Vector4" then ((JCodec.vec (JCodec.arrayN 4 JCodec.f32)).de j).map .Vector4
      else none) (fun _ _ => rfl) ?_ (fun _ => rfl) ?_
  · intro l hl
    match l with
    | [] => rfl
    | [_] => exact absurd rfl hl
    | _ :: _ :: _ => rfl
  · intro n a b hs
    rw [JOrd.step (c := (JCodec.vec (JCodec.arrayN 2 JCodec.f32))) hs, JOrd.step (c := (JCodec.vec (JCodec.arrayN 3 JCodec.f32))) hs, JOrd.step (c := (JCodec.vec (JCodec.arrayN 4 JCodec.f32))) hs]

instance : JOrd MeshData.AttributeData.json := by unfold MeshData.AttributeData.json; infer_instance

instance : JOrd MeshData.VertexWeight.json := by unfold MeshData.VertexWeight.json; infer_instance

instance : JOrd MeshData.BoneInfluence.json := by unfold MeshData.BoneInfluence.json; infer_instance

instance : JOrd MeshData.MeshObjectData.json := by unfold MeshData.MeshObjectData.json; infer_instance

instance : JOrd MeshData.json := by unfold MeshData.json; infer_instance

instance : JOrd UvTransform.json := by unfold UvTransform.json; infer_instance

instance : JOrd Transform.json := by unfold Transform.json; infer_instance

instance : JOrd TrackValues.json := by
  refine ord_of_single (fun n j =>
      if n = "Transform" then ((JCodec.vec Transform.json).de j).map .transform
      else if n = "UvTransform" then ((JCodec.vec UvTransform.json).de j).map .uvTransform
      else if n = "Float" then ((JCodec.vec JCodec.f32).de j).map .float
      else if n = "PatternIndex" then ((JCodec.vec JCodec.u32).de j).map .patternIndex
      else if n = "Boolean" then ((JCodec.vec JCodec.boolean).de j).map .boolean
      else if n = "Vector4" then ((JCodec.vec Vector4.json).de j).map .vector4
      else none) (fun _ _ => rfl) ?_ (fun _ => rfl) ?_
  · intro l hl
    match l with
    | [] => rfl
    | [_] => exact absurd rfl hl
    | _ :: _ :: _ => rfl
  · intro n a b hs
    rw [JOrd.step (c := (JCodec.vec Transform.json)) hs, JOrd.step (c := (JCodec.vec UvTransform.json)) hs, JOrd.step (c := (JCodec.vec JCodec.f32)) hs, JOrd.step (c := (JCodec.vec JCodec.u32)) hs, JOrd.step (c := (JCodec.vec JCodec.boolean)) hs, JOrd.step (c := (JCodec.vec Vector4.json)) hs]

instance : JOrd AnimData.TransformFlags.json := by unfold AnimData.TransformFlags.json; infer_instance

instance : JOrd AnimData.TrackData.json := by unfold AnimData.TrackData.json; infer_instance

instance : JOrd AnimData.NodeData.json := by unfold AnimData.NodeData.json; infer_instance

instance : JOrd AnimData.GroupData.json := by unfold AnimData.GroupData.json; infer_instance

instance : JOrd AnimData.json := by unfold AnimData.json; infer_instance

instance : JOrd ShdrData.DataType.json := by unfold ShdrData.DataType.json; infer_instance

instance : JOrd ShdrData.Buffer.json := by unfold ShdrData.Buffer.json; infer_instance

instance : JOrd ShdrData.Uniform.json := by unfold ShdrData.Uniform.json; infer_instance

instance : JOrd ShdrData.Attribute.json := by unfold ShdrData.Attribute.json; infer_instance

instance : JOrd ShdrData.MetaData.json := by unfold ShdrData.MetaData.json; infer_instance

instance : JOrd ShdrData.ShaderEntryData.json := by unfold ShdrData.ShaderEntryData.json; infer_instance

instance : JOrd ShdrData.json := by unfold ShdrData.json; infer_instance

end Verif
