import Verif.Json.Formats
import Verif.Json.Order
/-!
# The order of the entries of the objects of the formats

Written by tools/gen_json.py from the Rust definitions.
-/

namespace Verif

instance : JOrd Vector3.json := by unfold Vector3.json; infer_instance

instance : JOrd Matrix3x3.json := by unfold Matrix3x3.json; infer_instance

instance : JOrd Vector4.json := by unfold Vector4.json; infer_instance

instance : JOrd Color4f.json := by unfold Color4f.json; infer_instance

instance : JOrd Matrix4x4.json := by unfold Matrix4x4.json; infer_instance

instance : JOrd Nlst.V10Data.json := by unfold Nlst.V10Data.json; infer_instance

instance : JOrd Nlst.json := by
  refine ord_of_single (fun n j =>
      if n = "V10" then (Nlst.V10Data.json.de j).map .V10
      else none) (fun _ _ => rfl) ?_ (fun _ => rfl) ?_
  · intro l hl
    match l with
    | [] => rfl
    | [_] => exact absurd rfl hl
    | _ :: _ :: _ => rfl
  · intro n a b hs
    rw [JOrd.step (c := Nlst.V10Data.json) hs]

instance : JOrd Shdr.ShaderStage.json := by unfold Shdr.ShaderStage.json; infer_instance

instance : JOrd Shdr.Shader.json := by unfold Shdr.Shader.json; infer_instance

instance : JOrd Shdr.V12Data.json := by unfold Shdr.V12Data.json; infer_instance

instance : JOrd Shdr.json := by
  refine ord_of_single (fun n j =>
      if n = "V12" then (Shdr.V12Data.json.de j).map .V12
      else none) (fun _ _ => rfl) ?_ (fun _ => rfl) ?_
  · intro l hl
    match l with
    | [] => rfl
    | [_] => exact absurd rfl hl
    | _ :: _ :: _ => rfl
  · intro n a b hs
    rw [JOrd.step (c := Shdr.V12Data.json) hs]

instance : JOrd Modl.ModlEntry.json := by unfold Modl.ModlEntry.json; infer_instance

instance : JOrd Modl.V17Data.json := by unfold Modl.V17Data.json; infer_instance

instance : JOrd Modl.json := by
  refine ord_of_single (fun n j =>
      if n = "V17" then (Modl.V17Data.json.de j).map .V17
      else none) (fun _ _ => rfl) ?_ (fun _ => rfl) ?_
  · intro l hl
    match l with
    | [] => rfl
    | [_] => exact absurd rfl hl
    | _ :: _ :: _ => rfl
  · intro n a b hs
    rw [JOrd.step (c := Modl.V17Data.json) hs]

instance : JOrd Skel.BillboardType.json := by unfold Skel.BillboardType.json; infer_instance

instance : JOrd Skel.SkelEntryFlags.json := by unfold Skel.SkelEntryFlags.json; infer_instance

instance : JOrd Skel.SkelBoneEntry.json := by unfold Skel.SkelBoneEntry.json; infer_instance

instance : JOrd Skel.V10Data.json := by unfold Skel.V10Data.json; infer_instance

instance : JOrd Skel.json := by
  refine ord_of_single (fun n j =>
      if n = "V10" then (Skel.V10Data.json.de j).map .V10
      else none) (fun _ _ => rfl) ?_ (fun _ => rfl) ?_
  · intro l hl
    match l with
    | [] => rfl
    | [_] => exact absurd rfl hl
    | _ :: _ :: _ => rfl
  · intro n a b hs
    rw [JOrd.step (c := Skel.V10Data.json) hs]

instance : JOrd Hlpb.AimConstraint.json := by unfold Hlpb.AimConstraint.json; infer_instance

instance : JOrd Hlpb.OrientConstraint.json := by unfold Hlpb.OrientConstraint.json; infer_instance

instance : JOrd Hlpb.ConstraintType.json := by unfold Hlpb.ConstraintType.json; infer_instance

instance : JOrd Hlpb.V11Data.json := by unfold Hlpb.V11Data.json; infer_instance

instance : JOrd Hlpb.json := by
  refine ord_of_single (fun n j =>
      if n = "V11" then (Hlpb.V11Data.json.de j).map .V11
      else none) (fun _ _ => rfl) ?_ (fun _ => rfl) ?_
  · intro l hl
    match l with
    | [] => rfl
    | [_] => exact absurd rfl hl
    | _ :: _ :: _ => rfl
  · intro n a b hs
    rw [JOrd.step (c := Hlpb.V11Data.json) hs]

instance : JOrd Nufx.ShaderStages.json := by unfold Nufx.ShaderStages.json; infer_instance

instance : JOrd Nufx.MaterialParameter.json := by unfold Nufx.MaterialParameter.json; infer_instance

instance : JOrd Nufx.ShaderProgramV0.json := by unfold Nufx.ShaderProgramV0.json; infer_instance

instance : JOrd Nufx.UnkItem.json := by unfold Nufx.UnkItem.json; infer_instance

instance : JOrd Nufx.NufxV0.json := by unfold Nufx.NufxV0.json; infer_instance

instance : JOrd Nufx.VertexAttribute.json := by unfold Nufx.VertexAttribute.json; infer_instance

instance : JOrd Nufx.ShaderProgramV1.json := by unfold Nufx.ShaderProgramV1.json; infer_instance

instance : JOrd Nufx.NufxV1.json := by unfold Nufx.NufxV1.json; infer_instance

instance : JOrd Nufx.json := by
  refine ord_of_single (fun n j =>
      if n = "V0" then (Nufx.NufxV0.json.de j).map .V0
      else if n = "V1" then (Nufx.NufxV1.json.de j).map .V1
      else none) (fun _ _ => rfl) ?_ (fun _ => rfl) ?_
  · intro l hl
    match l with
    | [] => rfl
    | [_] => exact absurd rfl hl
    | _ :: _ :: _ => rfl
  · intro n a b hs
    rw [JOrd.step (c := Nufx.NufxV0.json) hs, JOrd.step (c := Nufx.NufxV1.json) hs]

instance : JOrd Anim.TrackTypeV1.json := by unfold Anim.TrackTypeV1.json; infer_instance

instance : JOrd Anim.Property.json := by unfold Anim.Property.json; infer_instance

instance : JOrd Anim.TrackV1.json := by unfold Anim.TrackV1.json; infer_instance

instance : JOrd Anim.GroupType.json := by unfold Anim.GroupType.json; infer_instance

instance : JOrd Anim.TrackTypeV2.json := by unfold Anim.TrackTypeV2.json; infer_instance

instance : JOrd Anim.CompressionType.json := by unfold Anim.CompressionType.json; infer_instance

instance : JOrd Anim.TrackFlags.json := by unfold Anim.TrackFlags.json; infer_instance

instance : JOrd Anim.TransformFlags.json := by unfold Anim.TransformFlags.json; infer_instance

instance : JOrd Anim.TrackV2.json := by unfold Anim.TrackV2.json; infer_instance

instance : JOrd Anim.Node.json := by unfold Anim.Node.json; infer_instance

instance : JOrd Anim.Group.json := by unfold Anim.Group.json; infer_instance

instance : JOrd Anim.UnkSubItem.json := by unfold Anim.UnkSubItem.json; infer_instance

instance : JOrd Anim.UnkItem1.json := by unfold Anim.UnkItem1.json; infer_instance

instance : JOrd Anim.UnkItem2.json := by unfold Anim.UnkItem2.json; infer_instance

instance : JOrd Anim.UnkData.json := by unfold Anim.UnkData.json; infer_instance

instance : JOrd Anim.V12Data.json := by unfold Anim.V12Data.json; infer_instance

instance : JOrd Anim.V20Data.json := by unfold Anim.V20Data.json; infer_instance

instance : JOrd Anim.V21Data.json := by unfold Anim.V21Data.json; infer_instance

instance : JOrd Anim.json := by
  refine ord_of_single (fun n j =>
      if n = "V12" then (Anim.V12Data.json.de j).map .V12
      else if n = "V20" then (Anim.V20Data.json.de j).map .V20
      else if n = "V21" then (Anim.V21Data.json.de j).map .V21
      else none) (fun _ _ => rfl) ?_ (fun _ => rfl) ?_
  · intro l hl
    match l with
    | [] => rfl
    | [_] => exact absurd rfl hl
    | _ :: _ :: _ => rfl
  · intro n a b hs
    rw [JOrd.step (c := Anim.V12Data.json) hs, JOrd.step (c := Anim.V20Data.json) hs, JOrd.step (c := Anim.V21Data.json) hs]

instance : JOrd Mesh.BoundingSphere.json := by unfold Mesh.BoundingSphere.json; infer_instance

instance : JOrd Mesh.BoundingVolume.json := by unfold Mesh.BoundingVolume.json; infer_instance

instance : JOrd Mesh.OrientedBoundingBox.json := by unfold Mesh.OrientedBoundingBox.json; infer_instance

instance : JOrd Mesh.BoundingInfo.json := by unfold Mesh.BoundingInfo.json; infer_instance

instance : JOrd Mesh.DrawElementType.json := by unfold Mesh.DrawElementType.json; infer_instance

instance : JOrd Mesh.DepthFlags.json := by unfold Mesh.DepthFlags.json; infer_instance

instance {A : Type} {aJ : JCodec A} [JOrd aJ] : JOrd (Mesh.MeshObject.json aJ) := by unfold Mesh.MeshObject.json; infer_instance

instance : JOrd Mesh.RiggingFlags.json := by unfold Mesh.RiggingFlags.json; infer_instance

instance {W2 : Type} {w2J : JCodec W2} [JOrd w2J] : JOrd (Mesh.BoneBuffer.json w2J) := by unfold Mesh.BoneBuffer.json; infer_instance

instance {W3 : Type} {w3J : JCodec W3} [JOrd w3J] : JOrd (Mesh.RiggingGroup.json w3J) := by unfold Mesh.RiggingGroup.json; infer_instance

instance {A : Type} {W1 : Type} {aJ : JCodec A} [JOrd aJ] {w1J : JCodec W1} [JOrd w1J] : JOrd (Mesh.MeshInner.json aJ w1J) := by unfold Mesh.MeshInner.json; infer_instance

instance : JOrd Mesh.AttributeUsageV8.json := by unfold Mesh.AttributeUsageV8.json; infer_instance

instance : JOrd Mesh.AttributeDataTypeV8.json := by unfold Mesh.AttributeDataTypeV8.json; infer_instance

instance : JOrd Mesh.AttributeV8.json := by unfold Mesh.AttributeV8.json; infer_instance

instance : JOrd Mesh.VertexWeightV8.json := by unfold Mesh.VertexWeightV8.json; infer_instance

instance : JOrd Mesh.AttributeUsageV9.json := by unfold Mesh.AttributeUsageV9.json; infer_instance

instance : JOrd Mesh.AttributeV9.json := by unfold Mesh.AttributeV9.json; infer_instance

instance : JOrd Mesh.AttributeDataTypeV10.json := by unfold Mesh.AttributeDataTypeV10.json; infer_instance

instance : JOrd Mesh.AttributeV10.json := by unfold Mesh.AttributeV10.json; infer_instance

instance : JOrd Mesh.json := by
  refine ord_of_single (fun n j =>
      if n = "V8" then ((Mesh.MeshInner.json Mesh.AttributeV8.json (JCodec.array Mesh.VertexWeightV8.json)).de j).map .V8
      else if n = "V9" then ((Mesh.MeshInner.json Mesh.AttributeV9.json (JCodec.array Mesh.VertexWeightV8.json)).de j).map .V9
      else if n = "V10" then ((Mesh.MeshInner.json Mesh.AttributeV10.json JCodec.hex).de j).map .V10
      else none) (fun _ _ => rfl) ?_ (fun _ => rfl) ?_
  · intro l hl
    match l with
    | [] => rfl
    | [_] => exact absurd rfl hl
    | _ :: _ :: _ => rfl
  · intro n a b hs
    rw [JOrd.step (c := (Mesh.MeshInner.json Mesh.AttributeV8.json (JCodec.array Mesh.VertexWeightV8.json))) hs, JOrd.step (c := (Mesh.MeshInner.json Mesh.AttributeV9.json (JCodec.array Mesh.VertexWeightV8.json))) hs, JOrd.step (c := (Mesh.MeshInner.json Mesh.AttributeV10.json JCodec.hex)) hs]

instance : JOrd Matl.ParamId.json := by unfold Matl.ParamId.json; infer_instance

instance : JOrd Matl.WrapMode.json := by unfold Matl.WrapMode.json; infer_instance

instance : JOrd Matl.MinFilter.json := by unfold Matl.MinFilter.json; infer_instance

instance : JOrd Matl.MagFilter.json := by unfold Matl.MagFilter.json; infer_instance

instance : JOrd Matl.FilteringType.json := by unfold Matl.FilteringType.json; infer_instance

instance : JOrd Matl.MaxAnisotropy.json := by unfold Matl.MaxAnisotropy.json; infer_instance

instance : JOrd Matl.Sampler.json := by unfold Matl.Sampler.json; infer_instance

instance : JOrd Matl.UvTransform.json := by unfold Matl.UvTransform.json; infer_instance

instance : JOrd Matl.BlendFactor.json := by unfold Matl.BlendFactor.json; infer_instance

instance : JOrd Matl.BlendOperation.json := by unfold Matl.BlendOperation.json; infer_instance

instance : JOrd Matl.BlendStateV15.json := by unfold Matl.BlendStateV15.json; infer_instance

instance : JOrd Matl.CullMode.json := by unfold Matl.CullMode.json; infer_instance

instance : JOrd Matl.RasterizerStateV15.json := by unfold Matl.RasterizerStateV15.json; infer_instance

instance : JOrd Matl.ParamV15.json := by
  refine ord_of_single (fun n j =>
      if n = "Float" then (JCodec.f32.de j).map .Float
      else if n = "Boolean" then (JCodec.u32.de j).map .Boolean
      else if n = "Vector4" then (Vector4.json.de j).map .Vector4
      else if n = "Unk7" then (Color4f.json.de j).map .Unk7
      else if n = "String" then (JCodec.ssbhString.de j).map .String
      else if n = "Sampler" then (Matl.Sampler.json.de j).map .Sampler
      else if n = "UvTransform" then (Matl.UvTransform.json.de j).map .UvTransform
      else if n = "BlendState" then (Matl.BlendStateV15.json.de j).map .BlendState
      else if n = "RasterizerState" then (Matl.RasterizerStateV15.json.de j).map .RasterizerState
      else none) (fun _ _ => rfl) ?_ (fun _ => rfl) ?_
  · intro l hl
    match l with
    | [] => rfl
    | [_] => exact absurd rfl hl
    | _ :: _ :: _ => rfl
  · intro n a b hs
    rw [JOrd.step (c := JCodec.f32) hs, JOrd.step (c := JCodec.u32) hs, JOrd.step (c := Vector4.json) hs, JOrd.step (c := Color4f.json) hs, JOrd.step (c := JCodec.ssbhString) hs, JOrd.step (c := Matl.Sampler.json) hs, JOrd.step (c := Matl.UvTransform.json) hs, JOrd.step (c := Matl.BlendStateV15.json) hs, JOrd.step (c := Matl.RasterizerStateV15.json) hs]

instance : JOrd Matl.AttributeV15.json := by unfold Matl.AttributeV15.json; infer_instance

instance : JOrd Matl.MatlEntryV15.json := by unfold Matl.MatlEntryV15.json; infer_instance

instance : JOrd Matl.BlendStateV16.json := by unfold Matl.BlendStateV16.json; infer_instance

instance : JOrd Matl.FillMode.json := by unfold Matl.FillMode.json; infer_instance

instance : JOrd Matl.RasterizerStateV16.json := by unfold Matl.RasterizerStateV16.json; infer_instance

instance : JOrd Matl.ParamV16.json := by
  refine ord_of_single (fun n j =>
      if n = "Float" then (JCodec.f32.de j).map .Float
      else if n = "Boolean" then (JCodec.u32.de j).map .Boolean
      else if n = "Vector4" then (Vector4.json.de j).map .Vector4
      else if n = "Unk7" then (Color4f.json.de j).map .Unk7
      else if n = "String" then (JCodec.ssbhString.de j).map .String
      else if n = "Sampler" then (Matl.Sampler.json.de j).map .Sampler
      else if n = "UvTransform" then (Matl.UvTransform.json.de j).map .UvTransform
      else if n = "BlendState" then (Matl.BlendStateV16.json.de j).map .BlendState
      else if n = "RasterizerState" then (Matl.RasterizerStateV16.json.de j).map .RasterizerState
      else none) (fun _ _ => rfl) ?_ (fun _ => rfl) ?_
  · intro l hl
    match l with
    | [] => rfl
    | [_] => exact absurd rfl hl
    | _ :: _ :: _ => rfl
  · intro n a b hs
    rw [JOrd.step (c := JCodec.f32) hs, JOrd.step (c := JCodec.u32) hs, JOrd.step (c := Vector4.json) hs, JOrd.step (c := Color4f.json) hs, JOrd.step (c := JCodec.ssbhString) hs, JOrd.step (c := Matl.Sampler.json) hs, JOrd.step (c := Matl.UvTransform.json) hs, JOrd.step (c := Matl.BlendStateV16.json) hs, JOrd.step (c := Matl.RasterizerStateV16.json) hs]

instance : JOrd Matl.AttributeV16.json := by unfold Matl.AttributeV16.json; infer_instance

instance : JOrd Matl.MatlEntryV16.json := by unfold Matl.MatlEntryV16.json; infer_instance

instance : JOrd Matl.V15Data.json := by unfold Matl.V15Data.json; infer_instance

instance : JOrd Matl.V16Data.json := by unfold Matl.V16Data.json; infer_instance

instance : JOrd Matl.json := by
  refine ord_of_single (fun n j =>
      if n = "V15" then (Matl.V15Data.json.de j).map .V15
      else if n = "V16" then (Matl.V16Data.json.de j).map .V16
      else none) (fun _ _ => rfl) ?_ (fun _ => rfl) ?_
  · intro l hl
    match l with
    | [] => rfl
    | [_] => exact absurd rfl hl
    | _ :: _ :: _ => rfl
  · intro n a b hs
    rw [JOrd.step (c := Matl.V15Data.json) hs, JOrd.step (c := Matl.V16Data.json) hs]

instance : JOrd Nrpd.UnkFormat.json := by unfold Nrpd.UnkFormat.json; infer_instance

instance : JOrd Nrpd.Framebuffer0.json := by unfold Nrpd.Framebuffer0.json; infer_instance

instance : JOrd Nrpd.Framebuffer1.json := by unfold Nrpd.Framebuffer1.json; infer_instance

instance : JOrd Nrpd.UniformBuffer.json := by unfold Nrpd.UniformBuffer.json; infer_instance

instance : JOrd Nrpd.Framebuffer3.json := by unfold Nrpd.Framebuffer3.json; infer_instance

instance : JOrd Nrpd.Framebuffer4.json := by unfold Nrpd.Framebuffer4.json; infer_instance

instance : JOrd Nrpd.FrameBuffer.json := by
  refine ord_of_single (fun n j =>
      if n = "Framebuffer0" then (Nrpd.Framebuffer0.json.de j).map .Framebuffer0
      else if n = "Framebuffer1" then (Nrpd.Framebuffer1.json.de j).map .Framebuffer1
      else if n = "UniformBuffer" then (Nrpd.UniformBuffer.json.de j).map .UniformBuffer
      else if n = "Framebuffer3" then (Nrpd.Framebuffer3.json.de j).map .Framebuffer3
      else if n = "Framebuffer4" then (Nrpd.Framebuffer4.json.de j).map .Framebuffer4
      else none) (fun _ _ => rfl) ?_ (fun _ => rfl) ?_
  · intro l hl
    match l with
    | [] => rfl
    | [_] => exact absurd rfl hl
    | _ :: _ :: _ => rfl
  · intro n a b hs
    rw [JOrd.step (c := Nrpd.Framebuffer0.json) hs, JOrd.step (c := Nrpd.Framebuffer1.json) hs, JOrd.step (c := Nrpd.UniformBuffer.json) hs, JOrd.step (c := Nrpd.Framebuffer3.json) hs, JOrd.step (c := Nrpd.Framebuffer4.json) hs]

instance : JOrd Nrpd.NrpdSampler.json := by unfold Nrpd.NrpdSampler.json; infer_instance

instance : JOrd Nrpd.NrpdRasterizerState.json := by unfold Nrpd.NrpdRasterizerState.json; infer_instance

instance : JOrd Nrpd.DepthState.json := by unfold Nrpd.DepthState.json; infer_instance

instance : JOrd Nrpd.NrpdBlendState.json := by unfold Nrpd.NrpdBlendState.json; infer_instance

instance : JOrd Nrpd.State.json := by
  refine ord_of_single (fun n j =>
      if n = "Sampler" then (Nrpd.NrpdSampler.json.de j).map .Sampler
      else if n = "RasterizerState" then (Nrpd.NrpdRasterizerState.json.de j).map .RasterizerState
      else if n = "DepthState" then (Nrpd.DepthState.json.de j).map .DepthState
      else if n = "BlendState" then (Nrpd.NrpdBlendState.json.de j).map .BlendState
      else none) (fun _ _ => rfl) ?_ (fun _ => rfl) ?_
  · intro l hl
    match l with
    | [] => rfl
    | [_] => exact absurd rfl hl
    | _ :: _ :: _ => rfl
  · intro n a b hs
    rw [JOrd.step (c := Nrpd.NrpdSampler.json) hs, JOrd.step (c := Nrpd.NrpdRasterizerState.json) hs, JOrd.step (c := Nrpd.DepthState.json) hs, JOrd.step (c := Nrpd.NrpdBlendState.json) hs]

instance : JOrd Nrpd.RenderPassData0.json := by unfold Nrpd.RenderPassData0.json; infer_instance

instance : JOrd Nrpd.RenderPassData1.json := by unfold Nrpd.RenderPassData1.json; infer_instance

instance : JOrd Nrpd.RenderPassData2.json := by unfold Nrpd.RenderPassData2.json; infer_instance

instance : JOrd Nrpd.Unk8Data.json := by unfold Nrpd.Unk8Data.json; infer_instance

instance : JOrd Nrpd.RenderPassData3.json := by unfold Nrpd.RenderPassData3.json; infer_instance

instance : JOrd Nrpd.RenderPassData8.json := by unfold Nrpd.RenderPassData8.json; infer_instance

instance : JOrd Nrpd.ColorClear.json := by unfold Nrpd.ColorClear.json; infer_instance

instance : JOrd Nrpd.DepthStencilClear.json := by unfold Nrpd.DepthStencilClear.json; infer_instance

instance : JOrd Nrpd.Viewport.json := by unfold Nrpd.Viewport.json; infer_instance

instance : JOrd Nrpd.RenderPassData13.json := by unfold Nrpd.RenderPassData13.json; infer_instance

instance : JOrd Nrpd.StringPair.json := by unfold Nrpd.StringPair.json; infer_instance

instance : JOrd Nrpd.RenderPassData19.json := by unfold Nrpd.RenderPassData19.json; infer_instance

instance : JOrd Nrpd.RenderPassData.json := by
  refine ord_of_single (fun n j =>
      if n = "FramebufferRtp" then (Nrpd.RenderPassData0.json.de j).map .FramebufferRtp
      else if n = "PassUnk1" then (Nrpd.RenderPassData1.json.de j).map .PassUnk1
      else if n = "UnkTexture1" then (Nrpd.RenderPassData2.json.de j).map .UnkTexture1
      else if n = "UnkLight" then (Nrpd.RenderPassData3.json.de j).map .UnkLight
      else if n = "Unk8" then (Nrpd.RenderPassData8.json.de j).map .Unk8
      else if n = "ColorClear" then (Nrpd.ColorClear.json.de j).map .ColorClear
      else if n = "DepthStencilClear" then (Nrpd.DepthStencilClear.json.de j).map .DepthStencilClear
      else if n = "Viewport" then (Nrpd.Viewport.json.de j).map .Viewport
      else if n = "Sampler" then (Nrpd.RenderPassData13.json.de j).map .Sampler
      else if n = "BlendState" then (Nrpd.StringPair.json.de j).map .BlendState
      else if n = "RasterizerState" then (Nrpd.StringPair.json.de j).map .RasterizerState
      else if n = "DepthStencilState" then (Nrpd.StringPair.json.de j).map .DepthStencilState
      else if n = "FramebufferRenderTarget" then (JCodec.ssbhString.de j).map .FramebufferRenderTarget
      else if n = "FramebufferDepthStencil" then (JCodec.ssbhString.de j).map .FramebufferDepthStencil
      else if n = "UnkTexture2" then (Nrpd.RenderPassData19.json.de j).map .UnkTexture2
      else none) (fun _ _ => rfl) ?_ (fun _ => rfl) ?_
  · intro l hl
    match l with
    | [] => rfl
    | [_] => exact absurd rfl hl
    | _ :: _ :: _ => rfl
  · intro n a b hs
    rw [JOrd.step (c := Nrpd.RenderPassData0.json) hs, JOrd.step (c := Nrpd.RenderPassData1.json) hs, JOrd.step (c := Nrpd.RenderPassData2.json) hs, JOrd.step (c := Nrpd.RenderPassData3.json) hs, JOrd.step (c := Nrpd.RenderPassData8.json) hs, JOrd.step (c := Nrpd.ColorClear.json) hs, JOrd.step (c := Nrpd.DepthStencilClear.json) hs, JOrd.step (c := Nrpd.Viewport.json) hs, JOrd.step (c := Nrpd.RenderPassData13.json) hs, JOrd.step (c := Nrpd.StringPair.json) hs, JOrd.step (c := JCodec.ssbhString) hs, JOrd.step (c := Nrpd.RenderPassData19.json) hs]

instance : JOrd Nrpd.Unk3Data.json := by unfold Nrpd.Unk3Data.json; infer_instance

instance : JOrd Nrpd.RenderPassUnkData.json := by
  refine ord_of_single (fun n j =>
      if n = "UnkDataUnk0" then (JCodec.unit.de j).map .UnkDataUnk0
      else if n = "UnkDataUnk3" then (Nrpd.Unk3Data.json.de j).map .UnkDataUnk3
      else none) (fun _ _ => rfl) ?_ (fun _ => rfl) ?_
  · intro l hl
    match l with
    | [] => rfl
    | [_] => exact absurd rfl hl
    | _ :: _ :: _ => rfl
  · intro n a b hs
    rw [JOrd.step (c := JCodec.unit) hs, JOrd.step (c := Nrpd.Unk3Data.json) hs]

instance : JOrd Nrpd.RenderPassContainer.json := by unfold Nrpd.RenderPassContainer.json; infer_instance

instance : JOrd Nrpd.UnkItem20.json := by unfold Nrpd.UnkItem20.json; infer_instance

instance : JOrd Nrpd.UnkItem21.json := by unfold Nrpd.UnkItem21.json; infer_instance

instance : JOrd Nrpd.UnkItem22.json := by unfold Nrpd.UnkItem22.json; infer_instance

instance : JOrd Nrpd.UnkItem24.json := by unfold Nrpd.UnkItem24.json; infer_instance

instance : JOrd Nrpd.UnkItem2.json := by
  refine ord_of_single (fun n j =>
      if n = "UnkItem20" then (Nrpd.UnkItem20.json.de j).map .UnkItem20
      else if n = "UnkItem21" then (Nrpd.UnkItem21.json.de j).map .UnkItem21
      else if n = "UnkItem22" then (Nrpd.UnkItem22.json.de j).map .UnkItem22
      else if n = "UnkItem24" then (Nrpd.UnkItem24.json.de j).map .UnkItem24
      else none) (fun _ _ => rfl) ?_ (fun _ => rfl) ?_
  · intro l hl
    match l with
    | [] => rfl
    | [_] => exact absurd rfl hl
    | _ :: _ :: _ => rfl
  · intro n a b hs
    rw [JOrd.step (c := Nrpd.UnkItem20.json) hs, JOrd.step (c := Nrpd.UnkItem21.json) hs, JOrd.step (c := Nrpd.UnkItem22.json) hs, JOrd.step (c := Nrpd.UnkItem24.json) hs]

instance : JOrd Nrpd.UnkItem3.json := by unfold Nrpd.UnkItem3.json; infer_instance

instance : JOrd Nrpd.UnkItem1.json := by unfold Nrpd.UnkItem1.json; infer_instance

instance : JOrd Nrpd.V16Data.json := by unfold Nrpd.V16Data.json; infer_instance

instance : JOrd Nrpd.json := by
  refine ord_of_single (fun n j =>
      if n = "V16" then (Nrpd.V16Data.json.de j).map .V16
      else none) (fun _ _ => rfl) ?_ (fun _ => rfl) ?_
  · intro l hl
    match l with
    | [] => rfl
    | [_] => exact absurd rfl hl
    | _ :: _ :: _ => rfl
  · intro n a b hs
    rw [JOrd.step (c := Nrpd.V16Data.json) hs]

instance : JOrd MeshEx.AllData.json := by unfold MeshEx.AllData.json; infer_instance

instance : JOrd MeshEx.MeshObjectGroup.json := by unfold MeshEx.MeshObjectGroup.json; infer_instance

instance : JOrd MeshEx.MeshEntry.json := by unfold MeshEx.MeshEntry.json; infer_instance

instance : JOrd MeshEx.json := by unfold MeshEx.json; infer_instance

instance : JOrd Adj.AdjEntry.json := by unfold Adj.AdjEntry.json; infer_instance

instance : JOrd Adj.json := by unfold Adj.json; infer_instance

instance : JOrd Ssbh.json := by
  refine ord_of_single (fun n j =>
      if n = "Hlpb" then (Hlpb.json.de j).map .Hlpb
      else if n = "Matl" then (Matl.json.de j).map .Matl
      else if n = "Modl" then (Modl.json.de j).map .Modl
      else if n = "Mesh" then (Mesh.json.de j).map .Mesh
      else if n = "Skel" then (Skel.json.de j).map .Skel
      else if n = "Anim" then (Anim.json.de j).map .Anim
      else if n = "Nlst" then (Nlst.json.de j).map .Nlst
      else if n = "Nrpd" then (Nrpd.json.de j).map .Nrpd
      else if n = "Nufx" then (Nufx.json.de j).map .Nufx
      else if n = "Shdr" then (Shdr.json.de j).map .Shdr
      else none) (fun _ _ => rfl) ?_ (fun _ => rfl) ?_
  · intro l hl
    match l with
    | [] => rfl
    | [_] => exact absurd rfl hl
    | _ :: _ :: _ => rfl
  · intro n a b hs
    rw [JOrd.step (c := Hlpb.json) hs, JOrd.step (c := Matl.json) hs, JOrd.step (c := Modl.json) hs, JOrd.step (c := Mesh.json) hs, JOrd.step (c := Skel.json) hs, JOrd.step (c := Anim.json) hs, JOrd.step (c := Nlst.json) hs, JOrd.step (c := Nrpd.json) hs, JOrd.step (c := Nufx.json) hs, JOrd.step (c := Shdr.json) hs]

end Verif
