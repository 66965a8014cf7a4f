import Verif.Json.DataLaws
import Verif.Json.DataShapes
import Verif.Json.ShapesSame
/-!
# The JSON of the data types has the specified documents

Written by tools/gen_json_data.py from the Rust definitions.
-/

namespace Verif

instance : HasShape ModlData.ModlEntryData.json ModlData.ModlEntryData.shape none :=
  HasShape.struct (fun _ => rfl)

instance : HasShape ModlData.json ModlData.shape none :=
  HasShape.struct (fun _ => rfl)

instance : HasShape HlpbData.AimConstraintData.json HlpbData.AimConstraintData.shape none :=
  HasShape.struct (fun _ => rfl)

instance : HasShape HlpbData.OrientConstraintData.json HlpbData.OrientConstraintData.shape none :=
  HasShape.struct (fun _ => rfl)

instance : HasShape HlpbData.json HlpbData.shape none :=
  HasShape.struct (fun _ => rfl)

instance {c : JCodec α} [h : HasShape c s none] : HasShape (MatlData.ParamData.json c) (MatlData.ParamData.shape s) none :=
  HasShape.struct (fun _ => rfl)

instance : HasShape MatlData.maxAnisotropy (.orNull Matl.MaxAnisotropy.shape (.str "One")) none :=
  HasShape.orNull (d := Matl.MaxAnisotropy.One) inferInstance rfl

instance : HasShape MatlData.SamplerData.json MatlData.SamplerData.shape none :=
  HasShape.struct (h := (HasFields.more inferInstance rfl (HasFields.more inferInstance rfl (HasFields.more inferInstance rfl (HasFields.more inferInstance rfl (HasFields.more inferInstance rfl (HasFields.more inferInstance rfl (HasFields.more inferInstance rfl (HasFields.last inferInstance rfl))))))))) (fun _ => rfl)

instance : HasShape MatlData.BlendStateData.json MatlData.BlendStateData.shape none :=
  HasShape.struct (h := (HasFields.more inferInstance rfl (HasFields.more inferInstance rfl (HasFields.more inferInstance rfl (HasFields.more inferInstance rfl (HasFields.more inferInstance rfl (HasFields.more inferInstance rfl (HasFields.last inferInstance rfl)))))))) (fun _ => rfl)

instance : HasShape MatlData.RasterizerStateData.json MatlData.RasterizerStateData.shape none :=
  HasShape.struct (fun _ => rfl)

instance : HasShape MatlData.MatlEntryData.json MatlData.MatlEntryData.shape none :=
  HasShape.struct (h := (HasFields.next (HasFields.next (HasFields.next (HasFields.next (HasFields.next (HasFields.next (HasFields.next (HasFields.next (HasFields.next (HasFields.last inferInstance rfl))))))))))) (fun _ => rfl)

instance : HasShape MatlData.json MatlData.shape none :=
  HasShape.struct (fun _ => rfl)

theorem vector4_eta (v : Vector α 4) : #v[v[0], v[1], v[2], v[3]] = v := by
  apply Vector.ext
  intro i hi
  match i, hi with
  | 0, _ | 1, _ | 2, _ | 3, _ => rfl

instance : HasShape matrixJson (.array 4 (.array 4 .float)) none :=
  HasShape.via inferInstance (fun v => by rw [vector4_eta v[0], vector4_eta v[1], vector4_eta v[2], vector4_eta v[3], vector4_eta v])

instance : HasShape SkelData.BoneData.json SkelData.BoneData.shape none :=
  HasShape.struct (fun _ => rfl)

instance : HasShape SkelData.json SkelData.shape none :=
  HasShape.struct (fun _ => rfl)

instance : HasShape MeshExData.EntryFlags.json MeshExData.EntryFlags.shape none :=
  HasShape.struct (fun _ => rfl)

instance : HasShape MeshExData.MeshObjectGroupData.json MeshExData.MeshObjectGroupData.shape none :=
  HasShape.struct (fun _ => rfl)

instance : HasShape MeshExData.json MeshExData.shape none :=
  HasShape.struct (fun _ => rfl)

instance : HasShape AdjEntryData.json AdjEntryData.shape none :=
  HasShape.struct (fun _ => rfl)

instance : HasShape AdjData.json AdjData.shape none :=
  HasShape.struct (fun _ => rfl)

instance : HasShape VectorData.json VectorData.shape none := by
  refine HasShape.choice (fun n j =>
      if n = "Vector2" then ((JCodec.vec (JCodec.arrayN 2 JCodec.f32)).de j).map .Vector2
      else if n = "Vector3" then ((JCodec.vec (JCodec.arrayN 3 JCodec.f32)).de j).map .Vector3
      else if n = "Vector4" then ((JCodec.vec (JCodec.arrayN 4 JCodec.f32)).de j).map .Vector4
      else none) (fun _ _ => rfl) ?_ ?_ (fun n j => ?_) rfl
  · intro l hl
    match l with
    | [] => rfl
    | [_] => exact absurd rfl hl
    | _ :: _ :: _ => rfl
  · intro j h
    cases j <;> first | rfl | exact absurd rfl (h _)
  · exact choice_cons (fun _ => rfl) (choice_cons (fun _ => rfl) (choice_cons (fun _ => rfl) (choice_nil)))

instance : HasShape MeshData.AttributeData.json MeshData.AttributeData.shape none :=
  HasShape.struct (fun _ => rfl)

instance : HasShape MeshData.VertexWeight.json MeshData.VertexWeight.shape none :=
  HasShape.struct (fun _ => rfl)

instance : HasShape MeshData.BoneInfluence.json MeshData.BoneInfluence.shape none :=
  HasShape.struct (fun _ => rfl)

instance : HasShape MeshData.MeshObjectData.json MeshData.MeshObjectData.shape none :=
  HasShape.struct (fun _ => rfl)

instance : HasShape MeshData.json MeshData.shape none :=
  HasShape.struct (fun _ => rfl)

instance : HasShape UvTransform.json UvTransform.shape none :=
  HasShape.struct (fun _ => rfl)

instance : HasShape Transform.json Transform.shape none :=
  HasShape.struct (fun _ => rfl)

instance : HasShape TrackValues.json TrackValues.shape none := by
  refine HasShape.choice (fun n j =>
      if n = "Transform" then ((JCodec.vec Transform.json).de j).map .transform
      else if n = "UvTransform" then ((JCodec.vec UvTransform.json).de j).map .uvTransform
      else if n = "Float" then ((JCodec.vec JCodec.f32).de j).map .float
      else if n = "PatternIndex" then ((JCodec.vec JCodec.u32).de j).map .patternIndex
      else if n = "Boolean" then ((JCodec.vec JCodec.boolean).de j).map .boolean
      else if n = "Vector4" then ((JCodec.vec Vector4.json).de j).map .vector4
      else none) (fun _ _ => rfl) ?_ ?_ (fun n j => ?_) rfl
  · intro l hl
    match l with
    | [] => rfl
    | [_] => exact absurd rfl hl
    | _ :: _ :: _ => rfl
  · intro j h
    cases j <;> first | rfl | exact absurd rfl (h _)
  · exact choice_cons (fun _ => rfl) (choice_cons (fun _ => rfl) (choice_cons (fun _ => rfl) (choice_cons (fun _ => rfl) (choice_cons (fun _ => rfl) (choice_cons (fun _ => rfl) (choice_nil))))))

instance : HasShape AnimData.TransformFlags.json AnimData.TransformFlags.shape none :=
  HasShape.struct (fun _ => rfl)

instance : HasShape AnimData.TrackData.json AnimData.TrackData.shape none :=
  HasShape.struct (fun _ => rfl)

instance : HasShape AnimData.NodeData.json AnimData.NodeData.shape none :=
  HasShape.struct (fun _ => rfl)

instance : HasShape AnimData.GroupData.json AnimData.GroupData.shape none :=
  HasShape.struct (fun _ => rfl)

instance : HasShape AnimData.json AnimData.shape none :=
  HasShape.struct (fun _ => rfl)

instance : HasShape ShdrData.DataType.json ShdrData.DataType.shape none := HasShape.variants (by decide)

instance : HasShape ShdrData.Buffer.json ShdrData.Buffer.shape none :=
  HasShape.struct (fun _ => rfl)

instance : HasShape ShdrData.Uniform.json ShdrData.Uniform.shape none :=
  HasShape.struct (fun _ => rfl)

instance : HasShape ShdrData.Attribute.json ShdrData.Attribute.shape none :=
  HasShape.struct (fun _ => rfl)

instance : HasShape ShdrData.MetaData.json ShdrData.MetaData.shape none :=
  HasShape.struct (fun _ => rfl)

instance : HasShape ShdrData.ShaderEntryData.json ShdrData.ShaderEntryData.shape none :=
  HasShape.struct (fun _ => rfl)

instance : HasShape ShdrData.json ShdrData.shape none :=
  HasShape.struct (fun _ => rfl)

end Verif
