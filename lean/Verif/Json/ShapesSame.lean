import Verif.Json.FormatLaws
import Verif.Json.Shapes
import Verif.Json.ShapeLaws
/-!
# The JSON of the formats has the specified documents

Written by tools/gen_json.py from the Rust definitions.
-/

namespace Verif

instance : HasShape Vector3.json Vector3.shape none := HasShape.struct (fun _ => rfl)

instance : HasShape Matrix3x3.json Matrix3x3.shape none := HasShape.struct (fun _ => rfl)

instance : HasShape Vector4.json Vector4.shape none := HasShape.struct (fun _ => rfl)

instance : HasShape Color4f.json Color4f.shape none := HasShape.struct (fun _ => rfl)

instance : HasShape Matrix4x4.json Matrix4x4.shape none := HasShape.struct (fun _ => rfl)

instance : HasShape Nlst.V10Data.json Nlst.V10Data.shape none := HasShape.struct (fun _ => rfl)

instance : HasShape Nlst.json Nlst.shape none := by
  refine HasShape.choice (fun n j =>
      if n = "V10" then (Nlst.V10Data.json.de j).map .V10
      else none) (fun _ _ => rfl) ?_ ?_ (fun n j => ?_) rfl
  · intro l hl
    match l with
    | [] => rfl
    | [_] => exact absurd rfl hl
    | _ :: _ :: _ => rfl
  · intro j h
    cases j <;> first | rfl | exact absurd rfl (h _)
  · exact choice_cons (fun _ => rfl) (choice_nil)

instance : HasShape Shdr.ShaderStage.json Shdr.ShaderStage.shape none := HasShape.ofNumbers (by decide +kernel) (by decide) rfl rfl

theorem Shdr.ShaderStage.json_numbers : JNumbers Shdr.ShaderStage.json Shdr.ShaderStage.numbers := JNumbers.of (by decide +kernel) (by decide) rfl rfl

instance : HasShape Shdr.Shader.json Shdr.Shader.shape none := HasShape.struct (fun _ => rfl)

instance : HasShape Shdr.V12Data.json Shdr.V12Data.shape none := HasShape.struct (fun _ => rfl)

instance : HasShape Shdr.json Shdr.shape none := by
  refine HasShape.choice (fun n j =>
      if n = "V12" then (Shdr.V12Data.json.de j).map .V12
      else none) (fun _ _ => rfl) ?_ ?_ (fun n j => ?_) rfl
  · intro l hl
    match l with
    | [] => rfl
    | [_] => exact absurd rfl hl
    | _ :: _ :: _ => rfl
  · intro j h
    cases j <;> first | rfl | exact absurd rfl (h _)
  · exact choice_cons (fun _ => rfl) (choice_nil)

instance : HasShape Modl.ModlEntry.json Modl.ModlEntry.shape none := HasShape.struct (fun _ => rfl)

instance : HasShape Modl.V17Data.json Modl.V17Data.shape none := HasShape.struct (fun _ => rfl)

instance : HasShape Modl.json Modl.shape none := by
  refine HasShape.choice (fun n j =>
      if n = "V17" then (Modl.V17Data.json.de j).map .V17
      else none) (fun _ _ => rfl) ?_ ?_ (fun n j => ?_) rfl
  · intro l hl
    match l with
    | [] => rfl
    | [_] => exact absurd rfl hl
    | _ :: _ :: _ => rfl
  · intro j h
    cases j <;> first | rfl | exact absurd rfl (h _)
  · exact choice_cons (fun _ => rfl) (choice_nil)

instance : HasShape Skel.BillboardType.json Skel.BillboardType.shape none := HasShape.ofNumbers (by decide +kernel) (by decide) rfl rfl

theorem Skel.BillboardType.json_numbers : JNumbers Skel.BillboardType.json Skel.BillboardType.numbers := JNumbers.of (by decide +kernel) (by decide) rfl rfl

instance : HasShape Skel.SkelEntryFlags.json Skel.SkelEntryFlags.shape none := HasShape.struct (fun _ => rfl)

instance : HasShape Skel.SkelBoneEntry.json Skel.SkelBoneEntry.shape none := HasShape.struct (fun _ => rfl)

instance : HasShape Skel.V10Data.json Skel.V10Data.shape none := HasShape.struct (fun _ => rfl)

instance : HasShape Skel.json Skel.shape none := by
  refine HasShape.choice (fun n j =>
      if n = "V10" then (Skel.V10Data.json.de j).map .V10
      else none) (fun _ _ => rfl) ?_ ?_ (fun n j => ?_) rfl
  · intro l hl
    match l with
    | [] => rfl
    | [_] => exact absurd rfl hl
    | _ :: _ :: _ => rfl
  · intro j h
    cases j <;> first | rfl | exact absurd rfl (h _)
  · exact choice_cons (fun _ => rfl) (choice_nil)

instance : HasShape Hlpb.AimConstraint.json Hlpb.AimConstraint.shape none := HasShape.struct (fun _ => rfl)

instance : HasShape Hlpb.OrientConstraint.json Hlpb.OrientConstraint.shape none := HasShape.struct (fun _ => rfl)

instance : HasShape Hlpb.ConstraintType.json Hlpb.ConstraintType.shape none := HasShape.ofNumbers (by decide +kernel) (by decide) rfl rfl

theorem Hlpb.ConstraintType.json_numbers : JNumbers Hlpb.ConstraintType.json Hlpb.ConstraintType.numbers := JNumbers.of (by decide +kernel) (by decide) rfl rfl

instance : HasShape Hlpb.V11Data.json Hlpb.V11Data.shape none := HasShape.struct (fun _ => rfl)

instance : HasShape Hlpb.json Hlpb.shape none := by
  refine HasShape.choice (fun n j =>
      if n = "V11" then (Hlpb.V11Data.json.de j).map .V11
      else none) (fun _ _ => rfl) ?_ ?_ (fun n j => ?_) rfl
  · intro l hl
    match l with
    | [] => rfl
    | [_] => exact absurd rfl hl
    | _ :: _ :: _ => rfl
  · intro j h
    cases j <;> first | rfl | exact absurd rfl (h _)
  · exact choice_cons (fun _ => rfl) (choice_nil)

instance : HasShape Nufx.ShaderStages.json Nufx.ShaderStages.shape none := HasShape.struct (fun _ => rfl)

instance : HasShape Nufx.MaterialParameter.json Nufx.MaterialParameter.shape none := HasShape.struct (fun _ => rfl)

instance : HasShape Nufx.ShaderProgramV0.json Nufx.ShaderProgramV0.shape none := HasShape.struct (fun _ => rfl)

instance : HasShape Nufx.UnkItem.json Nufx.UnkItem.shape none := HasShape.struct (fun _ => rfl)

instance : HasShape Nufx.NufxV0.json Nufx.NufxV0.shape none := HasShape.struct (fun _ => rfl)

instance : HasShape Nufx.VertexAttribute.json Nufx.VertexAttribute.shape none := HasShape.struct (fun _ => rfl)

instance : HasShape Nufx.ShaderProgramV1.json Nufx.ShaderProgramV1.shape none := HasShape.struct (fun _ => rfl)

instance : HasShape Nufx.NufxV1.json Nufx.NufxV1.shape none := HasShape.struct (fun _ => rfl)

instance : HasShape Nufx.json Nufx.shape none := by
  refine HasShape.choice (fun n j =>
      if n = "V0" then (Nufx.NufxV0.json.de j).map .V0
      else if n = "V1" then (Nufx.NufxV1.json.de j).map .V1
      else none) (fun _ _ => rfl) ?_ ?_ (fun n j => ?_) rfl
  · intro l hl
    match l with
    | [] => rfl
    | [_] => exact absurd rfl hl
    | _ :: _ :: _ => rfl
  · intro j h
    cases j <;> first | rfl | exact absurd rfl (h _)
  · exact choice_cons (fun _ => rfl) (choice_cons (fun _ => rfl) (choice_nil))

instance : HasShape Anim.TrackTypeV1.json Anim.TrackTypeV1.shape none := HasShape.ofNumbers (by decide +kernel) (by decide) rfl rfl

theorem Anim.TrackTypeV1.json_numbers : JNumbers Anim.TrackTypeV1.json Anim.TrackTypeV1.numbers := JNumbers.of (by decide +kernel) (by decide) rfl rfl

instance : HasShape Anim.Property.json Anim.Property.shape none := HasShape.struct (fun _ => rfl)

instance : HasShape Anim.TrackV1.json Anim.TrackV1.shape none := HasShape.struct (fun _ => rfl)

instance : HasShape Anim.GroupType.json Anim.GroupType.shape none := HasShape.ofNumbers (by decide +kernel) (by decide) rfl rfl

theorem Anim.GroupType.json_numbers : JNumbers Anim.GroupType.json Anim.GroupType.numbers := JNumbers.of (by decide +kernel) (by decide) rfl rfl

instance : HasShape Anim.TrackTypeV2.json Anim.TrackTypeV2.shape none := HasShape.ofNumbers (by decide +kernel) (by decide) rfl rfl

theorem Anim.TrackTypeV2.json_numbers : JNumbers Anim.TrackTypeV2.json Anim.TrackTypeV2.numbers := JNumbers.of (by decide +kernel) (by decide) rfl rfl

instance : HasShape Anim.CompressionType.json Anim.CompressionType.shape none := HasShape.ofNumbers (by decide +kernel) (by decide) rfl rfl

theorem Anim.CompressionType.json_numbers : JNumbers Anim.CompressionType.json Anim.CompressionType.numbers := JNumbers.of (by decide +kernel) (by decide) rfl rfl

instance : HasShape Anim.TrackFlags.json Anim.TrackFlags.shape none := HasShape.struct (fun _ => rfl)

instance : HasShape Anim.TransformFlags.json Anim.TransformFlags.shape none := inferInstanceAs (HasShape JCodec.bitfield32 _ none)

instance : HasShape Anim.TrackV2.json Anim.TrackV2.shape none := HasShape.struct (fun _ => rfl)

instance : HasShape Anim.Node.json Anim.Node.shape none := HasShape.struct (fun _ => rfl)

instance : HasShape Anim.Group.json Anim.Group.shape none := HasShape.struct (fun _ => rfl)

instance : HasShape Anim.UnkSubItem.json Anim.UnkSubItem.shape none := HasShape.struct (fun _ => rfl)

instance : HasShape Anim.UnkItem1.json Anim.UnkItem1.shape none := HasShape.struct (fun _ => rfl)

instance : HasShape Anim.UnkItem2.json Anim.UnkItem2.shape none := HasShape.struct (fun _ => rfl)

instance : HasShape Anim.UnkData.json Anim.UnkData.shape none := HasShape.struct (fun _ => rfl)

instance : HasShape Anim.V12Data.json Anim.V12Data.shape none := HasShape.struct (fun _ => rfl)

instance : HasShape Anim.V20Data.json Anim.V20Data.shape none := HasShape.struct (fun _ => rfl)

instance : HasShape Anim.V21Data.json Anim.V21Data.shape none := HasShape.struct (fun _ => rfl)

instance : HasShape Anim.json Anim.shape none := by
  refine HasShape.choice (fun n j =>
      if n = "V12" then (Anim.V12Data.json.de j).map .V12
      else if n = "V20" then (Anim.V20Data.json.de j).map .V20
      else if n = "V21" then (Anim.V21Data.json.de j).map .V21
      else none) (fun _ _ => rfl) ?_ ?_ (fun n j => ?_) rfl
  · intro l hl
    match l with
    | [] => rfl
    | [_] => exact absurd rfl hl
    | _ :: _ :: _ => rfl
  · intro j h
    cases j <;> first | rfl | exact absurd rfl (h _)
  · exact choice_cons (fun _ => rfl) (choice_cons (fun _ => rfl) (choice_cons (fun _ => rfl) (choice_nil)))

instance : HasShape Mesh.BoundingSphere.json Mesh.BoundingSphere.shape none := HasShape.struct (fun _ => rfl)

instance : HasShape Mesh.BoundingVolume.json Mesh.BoundingVolume.shape none := HasShape.struct (fun _ => rfl)

instance : HasShape Mesh.OrientedBoundingBox.json Mesh.OrientedBoundingBox.shape none := HasShape.struct (fun _ => rfl)

instance : HasShape Mesh.BoundingInfo.json Mesh.BoundingInfo.shape none := HasShape.struct (fun _ => rfl)

instance : HasShape Mesh.DrawElementType.json Mesh.DrawElementType.shape none := HasShape.ofNumbers (by decide +kernel) (by decide) rfl rfl

theorem Mesh.DrawElementType.json_numbers : JNumbers Mesh.DrawElementType.json Mesh.DrawElementType.numbers := JNumbers.of (by decide +kernel) (by decide) rfl rfl

instance : HasShape Mesh.DepthFlags.json Mesh.DepthFlags.shape none := HasShape.struct (fun _ => rfl)

instance {A : Type} {aJ : JCodec A} {aS : Shape} [HasShape aJ aS none] : HasShape (Mesh.MeshObject.json aJ) (Mesh.MeshObject.shape aS) none := HasShape.struct (fun _ => rfl)

instance : HasShape Mesh.RiggingFlags.json Mesh.RiggingFlags.shape none := HasShape.struct (fun _ => rfl)

instance {W2 : Type} {w2J : JCodec W2} {w2S : Shape} [HasShape w2J w2S none] : HasShape (Mesh.BoneBuffer.json w2J) (Mesh.BoneBuffer.shape w2S) none := HasShape.struct (fun _ => rfl)

instance {W3 : Type} {w3J : JCodec W3} {w3S : Shape} [HasShape w3J w3S none] : HasShape (Mesh.RiggingGroup.json w3J) (Mesh.RiggingGroup.shape w3S) none := HasShape.struct (fun _ => rfl)

instance {A : Type} {W1 : Type} {aJ : JCodec A} {aS : Shape} [HasShape aJ aS none] {w1J : JCodec W1} {w1S : Shape} [HasShape w1J w1S none] : HasShape (Mesh.MeshInner.json aJ w1J) (Mesh.MeshInner.shape aS w1S) none := HasShape.struct (fun _ => rfl)

instance : HasShape Mesh.AttributeUsageV8.json Mesh.AttributeUsageV8.shape none := HasShape.ofNumbers (by decide +kernel) (by decide) rfl rfl

theorem Mesh.AttributeUsageV8.json_numbers : JNumbers Mesh.AttributeUsageV8.json Mesh.AttributeUsageV8.numbers := JNumbers.of (by decide +kernel) (by decide) rfl rfl

instance : HasShape Mesh.AttributeDataTypeV8.json Mesh.AttributeDataTypeV8.shape none := HasShape.ofNumbers (by decide +kernel) (by decide) rfl rfl

theorem Mesh.AttributeDataTypeV8.json_numbers : JNumbers Mesh.AttributeDataTypeV8.json Mesh.AttributeDataTypeV8.numbers := JNumbers.of (by decide +kernel) (by decide) rfl rfl

instance : HasShape Mesh.AttributeV8.json Mesh.AttributeV8.shape none := HasShape.struct (fun _ => rfl)

instance : HasShape Mesh.VertexWeightV8.json Mesh.VertexWeightV8.shape none := HasShape.struct (fun _ => rfl)

instance : HasShape Mesh.AttributeUsageV9.json Mesh.AttributeUsageV9.shape none := HasShape.ofNumbers (by decide +kernel) (by decide) rfl rfl

theorem Mesh.AttributeUsageV9.json_numbers : JNumbers Mesh.AttributeUsageV9.json Mesh.AttributeUsageV9.numbers := JNumbers.of (by decide +kernel) (by decide) rfl rfl

instance : HasShape Mesh.AttributeV9.json Mesh.AttributeV9.shape none := HasShape.struct (fun _ => rfl)

instance : HasShape Mesh.AttributeDataTypeV10.json Mesh.AttributeDataTypeV10.shape none := HasShape.ofNumbers (by decide +kernel) (by decide) rfl rfl

theorem Mesh.AttributeDataTypeV10.json_numbers : JNumbers Mesh.AttributeDataTypeV10.json Mesh.AttributeDataTypeV10.numbers := JNumbers.of (by decide +kernel) (by decide) rfl rfl

instance : HasShape Mesh.AttributeV10.json Mesh.AttributeV10.shape none := HasShape.struct (fun _ => rfl)

instance : HasShape Mesh.json Mesh.shape none := by
  refine HasShape.choice (fun n j =>
      if n = "V8" then ((Mesh.MeshInner.json Mesh.AttributeV8.json (JCodec.array Mesh.VertexWeightV8.json)).de j).map .V8
      else if n = "V9" then ((Mesh.MeshInner.json Mesh.AttributeV9.json (JCodec.array Mesh.VertexWeightV8.json)).de j).map .V9
      else if n = "V10" then ((Mesh.MeshInner.json Mesh.AttributeV10.json JCodec.hex).de j).map .V10
      else none) (fun _ _ => rfl) ?_ ?_ (fun n j => ?_) rfl
  · intro l hl
    match l with
    | [] => rfl
    | [_] => exact absurd rfl hl
    | _ :: _ :: _ => rfl
  · intro j h
    cases j <;> first | rfl | exact absurd rfl (h _)
  · exact choice_cons (fun _ => rfl) (choice_cons (fun _ => rfl) (choice_cons (fun _ => rfl) (choice_nil)))

instance : HasShape Matl.ParamId.json Matl.ParamId.shape none := HasShape.ofNumbers Matl.ParamId.names_nodup List.nodup_range (by decide +kernel) (by decide +kernel)

theorem Matl.ParamId.json_numbers : JNumbers Matl.ParamId.json Matl.ParamId.numbers := JNumbers.of Matl.ParamId.names_nodup List.nodup_range (by decide +kernel) (by decide +kernel)

instance : HasShape Matl.WrapMode.json Matl.WrapMode.shape none := HasShape.ofNumbers (by decide +kernel) (by decide) rfl rfl

theorem Matl.WrapMode.json_numbers : JNumbers Matl.WrapMode.json Matl.WrapMode.numbers := JNumbers.of (by decide +kernel) (by decide) rfl rfl

instance : HasShape Matl.MinFilter.json Matl.MinFilter.shape none := HasShape.ofNumbers (by decide +kernel) (by decide) rfl rfl

theorem Matl.MinFilter.json_numbers : JNumbers Matl.MinFilter.json Matl.MinFilter.numbers := JNumbers.of (by decide +kernel) (by decide) rfl rfl

instance : HasShape Matl.MagFilter.json Matl.MagFilter.shape none := HasShape.ofNumbers (by decide +kernel) (by decide) rfl rfl

theorem Matl.MagFilter.json_numbers : JNumbers Matl.MagFilter.json Matl.MagFilter.numbers := JNumbers.of (by decide +kernel) (by decide) rfl rfl

instance : HasShape Matl.FilteringType.json Matl.FilteringType.shape none := HasShape.ofNumbers (by decide +kernel) (by decide) rfl rfl

theorem Matl.FilteringType.json_numbers : JNumbers Matl.FilteringType.json Matl.FilteringType.numbers := JNumbers.of (by decide +kernel) (by decide) rfl rfl

instance : HasShape Matl.MaxAnisotropy.json Matl.MaxAnisotropy.shape none := HasShape.ofNumbers (by decide +kernel) (by decide) rfl rfl

theorem Matl.MaxAnisotropy.json_numbers : JNumbers Matl.MaxAnisotropy.json Matl.MaxAnisotropy.numbers := JNumbers.of (by decide +kernel) (by decide) rfl rfl

instance : HasShape Matl.Sampler.json Matl.Sampler.shape none := HasShape.struct (fun _ => rfl)

instance : HasShape Matl.UvTransform.json Matl.UvTransform.shape none := HasShape.struct (fun _ => rfl)

instance : HasShape Matl.BlendFactor.json Matl.BlendFactor.shape none := HasShape.ofNumbers (by decide +kernel) (by decide) rfl rfl

theorem Matl.BlendFactor.json_numbers : JNumbers Matl.BlendFactor.json Matl.BlendFactor.numbers := JNumbers.of (by decide +kernel) (by decide) rfl rfl

instance : HasShape Matl.BlendOperation.json Matl.BlendOperation.shape none := HasShape.ofNumbers (by decide +kernel) (by decide) rfl rfl

theorem Matl.BlendOperation.json_numbers : JNumbers Matl.BlendOperation.json Matl.BlendOperation.numbers := JNumbers.of (by decide +kernel) (by decide) rfl rfl

instance : HasShape Matl.BlendStateV15.json Matl.BlendStateV15.shape none := HasShape.struct (fun _ => rfl)

instance : HasShape Matl.CullMode.json Matl.CullMode.shape none := HasShape.ofNumbers (by decide +kernel) (by decide) rfl rfl

theorem Matl.CullMode.json_numbers : JNumbers Matl.CullMode.json Matl.CullMode.numbers := JNumbers.of (by decide +kernel) (by decide) rfl rfl

instance : HasShape Matl.RasterizerStateV15.json Matl.RasterizerStateV15.shape none := HasShape.struct (fun _ => rfl)

instance : HasShape Matl.ParamV15.json Matl.ParamV15.shape none := by
  refine HasShape.choice (fun n j =>
      if n = "Float" then (JCodec.f32.de j).map .Float
      else if n = "Boolean" then (JCodec.u32.de j).map .Boolean
      else if n = "Vector4" then (Vector4.json.de j).map .Vector4
      else if n = "Unk7" then (Color4f.json.de j).map .Unk7
      else if n = "String" then (JCodec.ssbhString.de j).map .String
      else if n = "Sampler" then (Matl.Sampler.json.de j).map .Sampler
      else if n = "UvTransform" then (Matl.UvTransform.json.de j).map .UvTransform
      else if n = "BlendState" then (Matl.BlendStateV15.json.de j).map .BlendState
      else if n = "RasterizerState" then (Matl.RasterizerStateV15.json.de j).map .RasterizerState
      else none) (fun _ _ => rfl) ?_ ?_ (fun n j => ?_) rfl
  · intro l hl
    match l with
    | [] => rfl
    | [_] => exact absurd rfl hl
    | _ :: _ :: _ => rfl
  · intro j h
    cases j <;> first | rfl | exact absurd rfl (h _)
  · exact choice_cons (fun _ => rfl) (choice_cons (fun _ => rfl) (choice_cons (fun _ => rfl) (choice_cons (fun _ => rfl) (choice_cons (fun _ => rfl) (choice_cons (fun _ => rfl) (choice_cons (fun _ => rfl) (choice_cons (fun _ => rfl) (choice_cons (fun _ => rfl) (choice_nil)))))))))

instance : HasShape Matl.AttributeV15.json Matl.AttributeV15.shape none := HasShape.struct (fun _ => rfl)

instance : HasShape Matl.MatlEntryV15.json Matl.MatlEntryV15.shape none := HasShape.struct (fun _ => rfl)

instance : HasShape Matl.BlendStateV16.json Matl.BlendStateV16.shape none := HasShape.struct (fun _ => rfl)

instance : HasShape Matl.FillMode.json Matl.FillMode.shape none := HasShape.ofNumbers (by decide +kernel) (by decide) rfl rfl

theorem Matl.FillMode.json_numbers : JNumbers Matl.FillMode.json Matl.FillMode.numbers := JNumbers.of (by decide +kernel) (by decide) rfl rfl

instance : HasShape Matl.RasterizerStateV16.json Matl.RasterizerStateV16.shape none := HasShape.struct (fun _ => rfl)

instance : HasShape Matl.ParamV16.json Matl.ParamV16.shape none := by
  refine HasShape.choice (fun n j =>
      if n = "Float" then (JCodec.f32.de j).map .Float
      else if n = "Boolean" then (JCodec.u32.de j).map .Boolean
      else if n = "Vector4" then (Vector4.json.de j).map .Vector4
      else if n = "Unk7" then (Color4f.json.de j).map .Unk7
      else if n = "String" then (JCodec.ssbhString.de j).map .String
      else if n = "Sampler" then (Matl.Sampler.json.de j).map .Sampler
      else if n = "UvTransform" then (Matl.UvTransform.json.de j).map .UvTransform
      else if n = "BlendState" then (Matl.BlendStateV16.json.de j).map .BlendState
      else if n = "RasterizerState" then (Matl.RasterizerStateV16.json.de j).map .RasterizerState
      else none) (fun _ _ => rfl) ?_ ?_ (fun n j => ?_) rfl
  · intro l hl
    match l with
    | [] => rfl
    | [_] => exact absurd rfl hl
    | _ :: _ :: _ => rfl
  · intro j h
    cases j <;> first | rfl | exact absurd rfl (h _)
  · exact choice_cons (fun _ => rfl) (choice_cons (fun _ => rfl) (choice_cons (fun _ => rfl) (choice_cons (fun _ => rfl) (choice_cons (fun _ => rfl) (choice_cons (fun _ => rfl) (choice_cons (fun _ => rfl) (choice_cons (fun _ => rfl) (choice_cons (fun _ => rfl) (choice_nil)))))))))

instance : HasShape Matl.AttributeV16.json Matl.AttributeV16.shape none := HasShape.struct (fun _ => rfl)

instance : HasShape Matl.MatlEntryV16.json Matl.MatlEntryV16.shape none := HasShape.struct (fun _ => rfl)

instance : HasShape Matl.V15Data.json Matl.V15Data.shape none := HasShape.struct (fun _ => rfl)

instance : HasShape Matl.V16Data.json Matl.V16Data.shape none := HasShape.struct (fun _ => rfl)

instance : HasShape Matl.json Matl.shape none := by
  refine HasShape.choice (fun n j =>
      if n = "V15" then (Matl.V15Data.json.de j).map .V15
      else if n = "V16" then (Matl.V16Data.json.de j).map .V16
      else none) (fun _ _ => rfl) ?_ ?_ (fun n j => ?_) rfl
  · intro l hl
    match l with
    | [] => rfl
    | [_] => exact absurd rfl hl
    | _ :: _ :: _ => rfl
  · intro j h
    cases j <;> first | rfl | exact absurd rfl (h _)
  · exact choice_cons (fun _ => rfl) (choice_cons (fun _ => rfl) (choice_nil))

instance : HasShape Nrpd.UnkFormat.json Nrpd.UnkFormat.shape none := HasShape.ofNumbers (by decide +kernel) (by decide) rfl rfl

theorem Nrpd.UnkFormat.json_numbers : JNumbers Nrpd.UnkFormat.json Nrpd.UnkFormat.numbers := JNumbers.of (by decide +kernel) (by decide) rfl rfl

instance : HasShape Nrpd.Framebuffer0.json Nrpd.Framebuffer0.shape none := HasShape.struct (fun _ => rfl)

instance : HasShape Nrpd.Framebuffer1.json Nrpd.Framebuffer1.shape none := HasShape.struct (fun _ => rfl)

instance : HasShape Nrpd.UniformBuffer.json Nrpd.UniformBuffer.shape none := HasShape.struct (fun _ => rfl)

instance : HasShape Nrpd.Framebuffer3.json Nrpd.Framebuffer3.shape none := HasShape.struct (fun _ => rfl)

instance : HasShape Nrpd.Framebuffer4.json Nrpd.Framebuffer4.shape none := HasShape.struct (fun _ => rfl)

instance : HasShape Nrpd.FrameBuffer.json Nrpd.FrameBuffer.shape none := by
  refine HasShape.choice (fun n j =>
      if n = "Framebuffer0" then (Nrpd.Framebuffer0.json.de j).map .Framebuffer0
      else if n = "Framebuffer1" then (Nrpd.Framebuffer1.json.de j).map .Framebuffer1
      else if n = "UniformBuffer" then (Nrpd.UniformBuffer.json.de j).map .UniformBuffer
      else if n = "Framebuffer3" then (Nrpd.Framebuffer3.json.de j).map .Framebuffer3
      else if n = "Framebuffer4" then (Nrpd.Framebuffer4.json.de j).map .Framebuffer4
      else none) (fun _ _ => rfl) ?_ ?_ (fun n j => ?_) rfl
  · intro l hl
    match l with
    | [] => rfl
    | [_] => exact absurd rfl hl
    | _ :: _ :: _ => rfl
  · intro j h
    cases j <;> first | rfl | exact absurd rfl (h _)
  · exact choice_cons (fun _ => rfl) (choice_cons (fun _ => rfl) (choice_cons (fun _ => rfl) (choice_cons (fun _ => rfl) (choice_cons (fun _ => rfl) (choice_nil)))))

instance : HasShape Nrpd.NrpdSampler.json Nrpd.NrpdSampler.shape none := HasShape.struct (fun _ => rfl)

instance : HasShape Nrpd.NrpdRasterizerState.json Nrpd.NrpdRasterizerState.shape none := HasShape.struct (fun _ => rfl)

instance : HasShape Nrpd.DepthState.json Nrpd.DepthState.shape none := HasShape.struct (fun _ => rfl)

instance : HasShape Nrpd.NrpdBlendState.json Nrpd.NrpdBlendState.shape none := HasShape.struct (fun _ => rfl)

instance : HasShape Nrpd.State.json Nrpd.State.shape none := by
  refine HasShape.choice (fun n j =>
      if n = "Sampler" then (Nrpd.NrpdSampler.json.de j).map .Sampler
      else if n = "RasterizerState" then (Nrpd.NrpdRasterizerState.json.de j).map .RasterizerState
      else if n = "DepthState" then (Nrpd.DepthState.json.de j).map .DepthState
      else if n = "BlendState" then (Nrpd.NrpdBlendState.json.de j).map .BlendState
      else none) (fun _ _ => rfl) ?_ ?_ (fun n j => ?_) rfl
  · intro l hl
    match l with
    | [] => rfl
    | [_] => exact absurd rfl hl
    | _ :: _ :: _ => rfl
  · intro j h
    cases j <;> first | rfl | exact absurd rfl (h _)
  · exact choice_cons (fun _ => rfl) (choice_cons (fun _ => rfl) (choice_cons (fun _ => rfl) (choice_cons (fun _ => rfl) (choice_nil))))

instance : HasShape Nrpd.RenderPassData0.json Nrpd.RenderPassData0.shape none := HasShape.struct (fun _ => rfl)

instance : HasShape Nrpd.RenderPassData1.json Nrpd.RenderPassData1.shape none := HasShape.struct (fun _ => rfl)

instance : HasShape Nrpd.RenderPassData2.json Nrpd.RenderPassData2.shape none := HasShape.struct (fun _ => rfl)

instance : HasShape Nrpd.Unk8Data.json Nrpd.Unk8Data.shape none := HasShape.struct (fun _ => rfl)

instance : HasShape Nrpd.RenderPassData3.json Nrpd.RenderPassData3.shape none := HasShape.struct (fun _ => rfl)

instance : HasShape Nrpd.RenderPassData8.json Nrpd.RenderPassData8.shape none := HasShape.struct (fun _ => rfl)

instance : HasShape Nrpd.ColorClear.json Nrpd.ColorClear.shape none := HasShape.struct (fun _ => rfl)

instance : HasShape Nrpd.DepthStencilClear.json Nrpd.DepthStencilClear.shape none := HasShape.struct (fun _ => rfl)

instance : HasShape Nrpd.Viewport.json Nrpd.Viewport.shape none := HasShape.struct (fun _ => rfl)

instance : HasShape Nrpd.RenderPassData13.json Nrpd.RenderPassData13.shape none := HasShape.struct (fun _ => rfl)

instance : HasShape Nrpd.StringPair.json Nrpd.StringPair.shape none := HasShape.struct (fun _ => rfl)

instance : HasShape Nrpd.RenderPassData19.json Nrpd.RenderPassData19.shape none := HasShape.struct (fun _ => rfl)

instance : HasShape Nrpd.RenderPassData.json Nrpd.RenderPassData.shape none := by
  refine HasShape.choice (fun n j =>
      if n = "FramebufferRtp" then (Nrpd.RenderPassData0.json.de j).map .FramebufferRtp
      else if n = "PassUnk1" then (Nrpd.RenderPassData1.json.de j).map .PassUnk1
      else if n = "UnkTexture1" then (Nrpd.RenderPassData2.json.de j).map .UnkTexture1
      else if n = "UnkLight" then (Nrpd.RenderPassData3.json.de j).map .UnkLight
      else if n = "Unk8" then (Nrpd.RenderPassData8.json.de j).map .Unk8
      else if n = "ColorClear" then (Nrpd.ColorClear.json.de j).map .ColorClear
      else if n = "DepthStencilClear" then (Nrpd.DepthStencilClear.json.de j).map .DepthStencilClear
      else if n = "Viewport" then (Nrpd.Viewport.json.de j).map .Viewport
      else if n = "Sampler" then (Nrpd.RenderPassData13.json.de j).map .Sampler
      else if n = "BlendState" then (Nrpd.StringPair.json.de j).map .BlendState
      else if n = "RasterizerState" then (Nrpd.StringPair.json.de j).map .RasterizerState
      else if n = "DepthStencilState" then (Nrpd.StringPair.json.de j).map .DepthStencilState
      else if n = "FramebufferRenderTarget" then (JCodec.ssbhString.de j).map .FramebufferRenderTarget
      else if n = "FramebufferDepthStencil" then (JCodec.ssbhString.de j).map .FramebufferDepthStencil
      else if n = "UnkTexture2" then (Nrpd.RenderPassData19.json.de j).map .UnkTexture2
      else none) (fun _ _ => rfl) ?_ ?_ (fun n j => ?_) rfl
  · intro l hl
    match l with
    | [] => rfl
    | [_] => exact absurd rfl hl
    | _ :: _ :: _ => rfl
  · intro j h
    cases j <;> first | rfl | exact absurd rfl (h _)
  · exact choice_cons (fun _ => rfl) (choice_cons (fun _ => rfl) (choice_cons (fun _ => rfl) (choice_cons (fun _ => rfl) (choice_cons (fun _ => rfl) (choice_cons (fun _ => rfl) (choice_cons (fun _ => rfl) (choice_cons (fun _ => rfl) (choice_cons (fun _ => rfl) (choice_cons (fun _ => rfl) (choice_cons (fun _ => rfl) (choice_cons (fun _ => rfl) (choice_cons (fun _ => rfl) (choice_cons (fun _ => rfl) (choice_cons (fun _ => rfl) (choice_nil)))))))))))))))

instance : HasShape Nrpd.Unk3Data.json Nrpd.Unk3Data.shape none := HasShape.struct (fun _ => rfl)

instance : HasShape Nrpd.RenderPassUnkData.json Nrpd.RenderPassUnkData.shape none := by
  refine HasShape.choice (fun n j =>
      if n = "UnkDataUnk0" then (JCodec.unit.de j).map .UnkDataUnk0
      else if n = "UnkDataUnk3" then (Nrpd.Unk3Data.json.de j).map .UnkDataUnk3
      else none) (fun _ _ => rfl) ?_ ?_ (fun n j => ?_) rfl
  · intro l hl
    match l with
    | [] => rfl
    | [_] => exact absurd rfl hl
    | _ :: _ :: _ => rfl
  · intro j h
    cases j <;> first | rfl | exact absurd rfl (h _)
  · exact choice_cons (fun _ => rfl) (choice_cons (fun _ => rfl) (choice_nil))

instance : HasShape Nrpd.RenderPassContainer.json Nrpd.RenderPassContainer.shape none := HasShape.struct (fun _ => rfl)

instance : HasShape Nrpd.UnkItem20.json Nrpd.UnkItem20.shape none := HasShape.struct (fun _ => rfl)

instance : HasShape Nrpd.UnkItem21.json Nrpd.UnkItem21.shape none := HasShape.struct (fun _ => rfl)

instance : HasShape Nrpd.UnkItem22.json Nrpd.UnkItem22.shape none := HasShape.struct (fun _ => rfl)

instance : HasShape Nrpd.UnkItem24.json Nrpd.UnkItem24.shape none := HasShape.struct (fun _ => rfl)

instance : HasShape Nrpd.UnkItem2.json Nrpd.UnkItem2.shape none := by
  refine HasShape.choice (fun n j =>
      if n = "UnkItem20" then (Nrpd.UnkItem20.json.de j).map .UnkItem20
      else if n = "UnkItem21" then (Nrpd.UnkItem21.json.de j).map .UnkItem21
      else if n = "UnkItem22" then (Nrpd.UnkItem22.json.de j).map .UnkItem22
      else if n = "UnkItem24" then (Nrpd.UnkItem24.json.de j).map .UnkItem24
      else none) (fun _ _ => rfl) ?_ ?_ (fun n j => ?_) rfl
  · intro l hl
    match l with
    | [] => rfl
    | [_] => exact absurd rfl hl
    | _ :: _ :: _ => rfl
  · intro j h
    cases j <;> first | rfl | exact absurd rfl (h _)
  · exact choice_cons (fun _ => rfl) (choice_cons (fun _ => rfl) (choice_cons (fun _ => rfl) (choice_cons (fun _ => rfl) (choice_nil))))

instance : HasShape Nrpd.UnkItem3.json Nrpd.UnkItem3.shape none := HasShape.struct (fun _ => rfl)

instance : HasShape Nrpd.UnkItem1.json Nrpd.UnkItem1.shape none := HasShape.struct (fun _ => rfl)

instance : HasShape Nrpd.V16Data.json Nrpd.V16Data.shape none := HasShape.struct (fun _ => rfl)

instance : HasShape Nrpd.json Nrpd.shape none := by
  refine HasShape.choice (fun n j =>
      if n = "V16" then (Nrpd.V16Data.json.de j).map .V16
      else none) (fun _ _ => rfl) ?_ ?_ (fun n j => ?_) rfl
  · intro l hl
    match l with
    | [] => rfl
    | [_] => exact absurd rfl hl
    | _ :: _ :: _ => rfl
  · intro j h
    cases j <;> first | rfl | exact absurd rfl (h _)
  · exact choice_cons (fun _ => rfl) (choice_nil)

instance : HasShape MeshEx.AllData.json MeshEx.AllData.shape none := HasShape.struct (fun _ => rfl)

instance : HasShape MeshEx.MeshObjectGroup.json MeshEx.MeshObjectGroup.shape none := HasShape.struct (fun _ => rfl)

instance : HasShape MeshEx.MeshEntry.json MeshEx.MeshEntry.shape none := HasShape.struct (fun _ => rfl)

instance : HasShape MeshEx.json MeshEx.shape none := HasShape.struct (fun _ => rfl)

instance : HasShape Adj.AdjEntry.json Adj.AdjEntry.shape none := HasShape.struct (fun _ => rfl)

instance : HasShape Adj.json Adj.shape none := HasShape.struct (fun _ => rfl)

instance : HasShape Ssbh.json Ssbh.shape none := by
  refine HasShape.choice (fun n j =>
      if n = "Hlpb" then (Hlpb.json.de j).map .Hlpb
      else if n = "Matl" then (Matl.json.de j).map .Matl
      else if n = "Modl" then (Modl.json.de j).map .Modl
      else if n = "Mesh" then (Mesh.json.de j).map .Mesh
      else if n = "Skel" then (Skel.json.de j).map .Skel
      else if n = "Anim" then (Anim.json.de j).map .Anim
      else if n = "Nlst" then (Nlst.json.de j).map .Nlst
      else if n = "Nrpd" then (Nrpd.json.de j).map .Nrpd
      else if n = "Nufx" then (Nufx.json.de j).map .Nufx
      else if n = "Shdr" then (Shdr.json.de j).map .Shdr
      else none) (fun _ _ => rfl) ?_ ?_ (fun n j => ?_) rfl
  · intro l hl
    match l with
    | [] => rfl
    | [_] => exact absurd rfl hl
    | _ :: _ :: _ => rfl
  · intro j h
    cases j <;> first | rfl | exact absurd rfl (h _)
  · exact choice_cons (fun _ => rfl) (choice_cons (fun _ => rfl) (choice_cons (fun _ => rfl) (choice_cons (fun _ => rfl) (choice_cons (fun _ => rfl) (choice_cons (fun _ => rfl) (choice_cons (fun _ => rfl) (choice_cons (fun _ => rfl) (choice_cons (fun _ => rfl) (choice_cons (fun _ => rfl) (choice_nil))))))))))

end Verif
