import Verif.Json.Small
import Verif.Json.Tool
import Verif.Json.DataTool
/-!
# What is written fits: the formats and the data types
-/

namespace Verif

instance : JSmall Vector3.json 1 := JSmall.le (by unfold Vector3.json; infer_instance) (by decide)

instance : JSmall Matrix3x3.json 2 := JSmall.le (by unfold Matrix3x3.json; infer_instance) (by decide)

instance : JSmall Vector4.json 1 := JSmall.le (by unfold Vector4.json; infer_instance) (by decide)

instance : JSmall Color4f.json 1 := JSmall.le (by unfold Color4f.json; infer_instance) (by decide)

instance : JSmall Matrix4x4.json 2 := JSmall.le (by unfold Matrix4x4.json; infer_instance) (by decide)

instance : JSmall Nlst.V10Data.json 2 := JSmall.le (by unfold Nlst.V10Data.json; infer_instance) (by decide)

instance : JSmall Nlst.json 3 := ⟨fun v => by
  cases v
  exact small_one (JSmall.ok _) (by decide)⟩

instance : JSmall Shdr.ShaderStage.json 0 := JSmall.le (by unfold Shdr.ShaderStage.json; infer_instance) (by decide)

instance : JSmall Shdr.Shader.json 1 := JSmall.le (by unfold Shdr.Shader.json; infer_instance) (by decide)

instance : JSmall Shdr.V12Data.json 3 := JSmall.le (by unfold Shdr.V12Data.json; infer_instance) (by decide)

instance : JSmall Shdr.json 4 := ⟨fun v => by
  cases v
  exact small_one (JSmall.ok _) (by decide)⟩

instance : JSmall Modl.ModlEntry.json 1 := JSmall.le (by unfold Modl.ModlEntry.json; infer_instance) (by decide)

instance : JSmall Modl.V17Data.json 3 := JSmall.le (by unfold Modl.V17Data.json; infer_instance) (by decide)

instance : JSmall Modl.json 4 := ⟨fun v => by
  cases v
  exact small_one (JSmall.ok _) (by decide)⟩

instance : JSmall Skel.BillboardType.json 0 := JSmall.le (by unfold Skel.BillboardType.json; infer_instance) (by decide)

instance : JSmall Skel.SkelEntryFlags.json 1 := JSmall.le (by unfold Skel.SkelEntryFlags.json; infer_instance) (by decide)

instance : JSmall Skel.SkelBoneEntry.json 2 := JSmall.le (by unfold Skel.SkelBoneEntry.json; infer_instance) (by decide)

instance : JSmall Skel.V10Data.json 4 := JSmall.le (by unfold Skel.V10Data.json; infer_instance) (by decide)

instance : JSmall Skel.json 5 := ⟨fun v => by
  cases v
  exact small_one (JSmall.ok _) (by decide)⟩

instance : JSmall Hlpb.AimConstraint.json 2 := JSmall.le (by unfold Hlpb.AimConstraint.json; infer_instance) (by decide)

instance : JSmall Hlpb.OrientConstraint.json 2 := JSmall.le (by unfold Hlpb.OrientConstraint.json; infer_instance) (by decide)

instance : JSmall Hlpb.ConstraintType.json 0 := JSmall.le (by unfold Hlpb.ConstraintType.json; infer_instance) (by decide)

instance : JSmall Hlpb.V11Data.json 4 := JSmall.le (by unfold Hlpb.V11Data.json; infer_instance) (by decide)

instance : JSmall Hlpb.json 5 := ⟨fun v => by
  cases v
  exact small_one (JSmall.ok _) (by decide)⟩

instance : JSmall Nufx.ShaderStages.json 1 := JSmall.le (by unfold Nufx.ShaderStages.json; infer_instance) (by decide)

instance : JSmall Nufx.MaterialParameter.json 1 := JSmall.le (by unfold Nufx.MaterialParameter.json; infer_instance) (by decide)

instance : JSmall Nufx.ShaderProgramV0.json 3 := JSmall.le (by unfold Nufx.ShaderProgramV0.json; infer_instance) (by decide)

instance : JSmall Nufx.UnkItem.json 2 := JSmall.le (by unfold Nufx.UnkItem.json; infer_instance) (by decide)

instance : JSmall Nufx.NufxV0.json 5 := JSmall.le (by unfold Nufx.NufxV0.json; infer_instance) (by decide)

instance : JSmall Nufx.VertexAttribute.json 1 := JSmall.le (by unfold Nufx.VertexAttribute.json; infer_instance) (by decide)

instance : JSmall Nufx.ShaderProgramV1.json 3 := JSmall.le (by unfold Nufx.ShaderProgramV1.json; infer_instance) (by decide)

instance : JSmall Nufx.NufxV1.json 5 := JSmall.le (by unfold Nufx.NufxV1.json; infer_instance) (by decide)

instance : JSmall Nufx.json 6 := ⟨fun v => by
  cases v <;> exact small_one (JSmall.ok _) (by decide)⟩

instance : JSmall Anim.TrackTypeV1.json 0 := JSmall.le (by unfold Anim.TrackTypeV1.json; infer_instance) (by decide)

instance : JSmall Anim.Property.json 1 := JSmall.le (by unfold Anim.Property.json; infer_instance) (by decide)

instance : JSmall Anim.TrackV1.json 3 := JSmall.le (by unfold Anim.TrackV1.json; infer_instance) (by decide)

instance : JSmall Anim.GroupType.json 0 := JSmall.le (by unfold Anim.GroupType.json; infer_instance) (by decide)

instance : JSmall Anim.TrackTypeV2.json 0 := JSmall.le (by unfold Anim.TrackTypeV2.json; infer_instance) (by decide)

instance : JSmall Anim.CompressionType.json 0 := JSmall.le (by unfold Anim.CompressionType.json; infer_instance) (by decide)

instance : JSmall Anim.TrackFlags.json 1 := JSmall.le (by unfold Anim.TrackFlags.json; infer_instance) (by decide)

instance : JSmall Anim.TransformFlags.json 2 := JSmall.le (by unfold Anim.TransformFlags.json; infer_instance) (by decide)

instance : JSmall Anim.TrackV2.json 3 := JSmall.le (by unfold Anim.TrackV2.json; infer_instance) (by decide)

instance : JSmall Anim.Node.json 5 := JSmall.le (by unfold Anim.Node.json; infer_instance) (by decide)

instance : JSmall Anim.Group.json 7 := JSmall.le (by unfold Anim.Group.json; infer_instance) (by decide)

instance : JSmall Anim.UnkSubItem.json 1 := JSmall.le (by unfold Anim.UnkSubItem.json; infer_instance) (by decide)

instance : JSmall Anim.UnkItem1.json 3 := JSmall.le (by unfold Anim.UnkItem1.json; infer_instance) (by decide)

instance : JSmall Anim.UnkItem2.json 3 := JSmall.le (by unfold Anim.UnkItem2.json; infer_instance) (by decide)

instance : JSmall Anim.UnkData.json 5 := JSmall.le (by unfold Anim.UnkData.json; infer_instance) (by decide)

instance : JSmall Anim.V12Data.json 5 := JSmall.le (by unfold Anim.V12Data.json; infer_instance) (by decide)

instance : JSmall Anim.V20Data.json 9 := JSmall.le (by unfold Anim.V20Data.json; infer_instance) (by decide)

instance : JSmall Anim.V21Data.json 9 := JSmall.le (by unfold Anim.V21Data.json; infer_instance) (by decide)

instance : JSmall Anim.json 10 := ⟨fun v => by
  cases v <;> exact small_one (JSmall.ok _) (by decide)⟩

instance : JSmall Mesh.BoundingSphere.json 2 := JSmall.le (by unfold Mesh.BoundingSphere.json; infer_instance) (by decide)

instance : JSmall Mesh.BoundingVolume.json 2 := JSmall.le (by unfold Mesh.BoundingVolume.json; infer_instance) (by decide)

instance : JSmall Mesh.OrientedBoundingBox.json 3 := JSmall.le (by unfold Mesh.OrientedBoundingBox.json; infer_instance) (by decide)

instance : JSmall Mesh.BoundingInfo.json 4 := JSmall.le (by unfold Mesh.BoundingInfo.json; infer_instance) (by decide)

instance : JSmall Mesh.DrawElementType.json 0 := JSmall.le (by unfold Mesh.DrawElementType.json; infer_instance) (by decide)

instance : JSmall Mesh.DepthFlags.json 1 := JSmall.le (by unfold Mesh.DepthFlags.json; infer_instance) (by decide)

instance {A : Type} {aJ : JCodec A} {k0 : Nat} [JSmall aJ k0] : JSmall (Mesh.MeshObject.json aJ) (k0 + 5) :=
  JSmall.le (by unfold Mesh.MeshObject.json; infer_instance) (by omega)

instance : JSmall Mesh.RiggingFlags.json 1 := JSmall.le (by unfold Mesh.RiggingFlags.json; infer_instance) (by decide)

instance {W2 : Type} {w2J : JCodec W2} {k0 : Nat} [JSmall w2J k0] : JSmall (Mesh.BoneBuffer.json w2J) (k0 + 1) :=
  JSmall.le (by unfold Mesh.BoneBuffer.json; infer_instance) (by omega)

instance {W3 : Type} {w3J : JCodec W3} {k0 : Nat} [JSmall w3J k0] : JSmall (Mesh.RiggingGroup.json w3J) (k0 + 3) :=
  JSmall.le (by unfold Mesh.RiggingGroup.json; infer_instance) (by omega)

instance {A : Type} {W1 : Type} {aJ : JCodec A} {w1J : JCodec W1} {k0 k1 : Nat} [JSmall aJ k0] [JSmall w1J k1] : JSmall (Mesh.MeshInner.json aJ w1J) ((max k0 k1) + 7) :=
  JSmall.le (by unfold Mesh.MeshInner.json; infer_instance) (by omega)

instance : JSmall Mesh.AttributeUsageV8.json 0 := JSmall.le (by unfold Mesh.AttributeUsageV8.json; infer_instance) (by decide)

instance : JSmall Mesh.AttributeDataTypeV8.json 0 := JSmall.le (by unfold Mesh.AttributeDataTypeV8.json; infer_instance) (by decide)

instance : JSmall Mesh.AttributeV8.json 1 := JSmall.le (by unfold Mesh.AttributeV8.json; infer_instance) (by decide)

instance : JSmall Mesh.VertexWeightV8.json 1 := JSmall.le (by unfold Mesh.VertexWeightV8.json; infer_instance) (by decide)

instance : JSmall Mesh.AttributeUsageV9.json 0 := JSmall.le (by unfold Mesh.AttributeUsageV9.json; infer_instance) (by decide)

instance : JSmall Mesh.AttributeV9.json 2 := JSmall.le (by unfold Mesh.AttributeV9.json; infer_instance) (by decide)

instance : JSmall Mesh.AttributeDataTypeV10.json 0 := JSmall.le (by unfold Mesh.AttributeDataTypeV10.json; infer_instance) (by decide)

instance : JSmall Mesh.AttributeV10.json 2 := JSmall.le (by unfold Mesh.AttributeV10.json; infer_instance) (by decide)

instance : JSmall Mesh.json 10 := ⟨fun v => by
  cases v <;> exact small_one (JSmall.ok _) (by decide)⟩

instance : JSmall Matl.ParamId.json 0 := JSmall.le (by unfold Matl.ParamId.json; infer_instance) (by decide)

instance : JSmall Matl.WrapMode.json 0 := JSmall.le (by unfold Matl.WrapMode.json; infer_instance) (by decide)

instance : JSmall Matl.MinFilter.json 0 := JSmall.le (by unfold Matl.MinFilter.json; infer_instance) (by decide)

instance : JSmall Matl.MagFilter.json 0 := JSmall.le (by unfold Matl.MagFilter.json; infer_instance) (by decide)

instance : JSmall Matl.FilteringType.json 0 := JSmall.le (by unfold Matl.FilteringType.json; infer_instance) (by decide)

instance : JSmall Matl.MaxAnisotropy.json 0 := JSmall.le (by unfold Matl.MaxAnisotropy.json; infer_instance) (by decide)

instance : JSmall Matl.Sampler.json 2 := JSmall.le (by unfold Matl.Sampler.json; infer_instance) (by decide)

instance : JSmall Matl.UvTransform.json 1 := JSmall.le (by unfold Matl.UvTransform.json; infer_instance) (by decide)

instance : JSmall Matl.BlendFactor.json 0 := JSmall.le (by unfold Matl.BlendFactor.json; infer_instance) (by decide)

instance : JSmall Matl.BlendOperation.json 0 := JSmall.le (by unfold Matl.BlendOperation.json; infer_instance) (by decide)

instance : JSmall Matl.BlendStateV15.json 1 := JSmall.le (by unfold Matl.BlendStateV15.json; infer_instance) (by decide)

instance : JSmall Matl.CullMode.json 0 := JSmall.le (by unfold Matl.CullMode.json; infer_instance) (by decide)

instance : JSmall Matl.RasterizerStateV15.json 1 := JSmall.le (by unfold Matl.RasterizerStateV15.json; infer_instance) (by decide)

instance : JSmall Matl.ParamV15.json 3 := ⟨fun v => by
  cases v <;> exact small_one (JSmall.ok _) (by decide)⟩

instance : JSmall Matl.AttributeV15.json 5 := JSmall.le (by unfold Matl.AttributeV15.json; infer_instance) (by decide)

instance : JSmall Matl.MatlEntryV15.json 7 := JSmall.le (by unfold Matl.MatlEntryV15.json; infer_instance) (by decide)

instance : JSmall Matl.BlendStateV16.json 1 := JSmall.le (by unfold Matl.BlendStateV16.json; infer_instance) (by decide)

instance : JSmall Matl.FillMode.json 0 := JSmall.le (by unfold Matl.FillMode.json; infer_instance) (by decide)

instance : JSmall Matl.RasterizerStateV16.json 1 := JSmall.le (by unfold Matl.RasterizerStateV16.json; infer_instance) (by decide)

instance : JSmall Matl.ParamV16.json 3 := ⟨fun v => by
  cases v <;> exact small_one (JSmall.ok _) (by decide)⟩

instance : JSmall Matl.AttributeV16.json 5 := JSmall.le (by unfold Matl.AttributeV16.json; infer_instance) (by decide)

instance : JSmall Matl.MatlEntryV16.json 7 := JSmall.le (by unfold Matl.MatlEntryV16.json; infer_instance) (by decide)

instance : JSmall Matl.V15Data.json 9 := JSmall.le (by unfold Matl.V15Data.json; infer_instance) (by decide)

instance : JSmall Matl.V16Data.json 9 := JSmall.le (by unfold Matl.V16Data.json; infer_instance) (by decide)

instance : JSmall Matl.json 10 := ⟨fun v => by
  cases v <;> exact small_one (JSmall.ok _) (by decide)⟩

instance : JSmall Nrpd.UnkFormat.json 0 := JSmall.le (by unfold Nrpd.UnkFormat.json; infer_instance) (by decide)

instance : JSmall Nrpd.Framebuffer0.json 1 := JSmall.le (by unfold Nrpd.Framebuffer0.json; infer_instance) (by decide)

instance : JSmall Nrpd.Framebuffer1.json 1 := JSmall.le (by unfold Nrpd.Framebuffer1.json; infer_instance) (by decide)

instance : JSmall Nrpd.UniformBuffer.json 1 := JSmall.le (by unfold Nrpd.UniformBuffer.json; infer_instance) (by decide)

instance : JSmall Nrpd.Framebuffer3.json 1 := JSmall.le (by unfold Nrpd.Framebuffer3.json; infer_instance) (by decide)

instance : JSmall Nrpd.Framebuffer4.json 1 := JSmall.le (by unfold Nrpd.Framebuffer4.json; infer_instance) (by decide)

instance : JSmall Nrpd.FrameBuffer.json 2 := ⟨fun v => by
  cases v <;> exact small_one (JSmall.ok _) (by decide)⟩

instance : JSmall Nrpd.NrpdSampler.json 3 := JSmall.le (by unfold Nrpd.NrpdSampler.json; infer_instance) (by decide)

instance : JSmall Nrpd.NrpdRasterizerState.json 1 := JSmall.le (by unfold Nrpd.NrpdRasterizerState.json; infer_instance) (by decide)

instance : JSmall Nrpd.DepthState.json 1 := JSmall.le (by unfold Nrpd.DepthState.json; infer_instance) (by decide)

instance : JSmall Nrpd.NrpdBlendState.json 1 := JSmall.le (by unfold Nrpd.NrpdBlendState.json; infer_instance) (by decide)

instance : JSmall Nrpd.State.json 4 := ⟨fun v => by
  cases v <;> exact small_one (JSmall.ok _) (by decide)⟩

instance : JSmall Nrpd.RenderPassData0.json 1 := JSmall.le (by unfold Nrpd.RenderPassData0.json; infer_instance) (by decide)

instance : JSmall Nrpd.RenderPassData1.json 1 := JSmall.le (by unfold Nrpd.RenderPassData1.json; infer_instance) (by decide)

instance : JSmall Nrpd.RenderPassData2.json 1 := JSmall.le (by unfold Nrpd.RenderPassData2.json; infer_instance) (by decide)

instance : JSmall Nrpd.Unk8Data.json 1 := JSmall.le (by unfold Nrpd.Unk8Data.json; infer_instance) (by decide)

instance : JSmall Nrpd.RenderPassData3.json 2 := JSmall.le (by unfold Nrpd.RenderPassData3.json; infer_instance) (by decide)

instance : JSmall Nrpd.RenderPassData8.json 1 := JSmall.le (by unfold Nrpd.RenderPassData8.json; infer_instance) (by decide)

instance : JSmall Nrpd.ColorClear.json 2 := JSmall.le (by unfold Nrpd.ColorClear.json; infer_instance) (by decide)

instance : JSmall Nrpd.DepthStencilClear.json 1 := JSmall.le (by unfold Nrpd.DepthStencilClear.json; infer_instance) (by decide)

instance : JSmall Nrpd.Viewport.json 1 := JSmall.le (by unfold Nrpd.Viewport.json; infer_instance) (by decide)

instance : JSmall Nrpd.RenderPassData13.json 1 := JSmall.le (by unfold Nrpd.RenderPassData13.json; infer_instance) (by decide)

instance : JSmall Nrpd.StringPair.json 1 := JSmall.le (by unfold Nrpd.StringPair.json; infer_instance) (by decide)

instance : JSmall Nrpd.RenderPassData19.json 1 := JSmall.le (by unfold Nrpd.RenderPassData19.json; infer_instance) (by decide)

instance : JSmall Nrpd.RenderPassData.json 3 := ⟨fun v => by
  cases v <;> exact small_one (JSmall.ok _) (by decide)⟩

instance : JSmall Nrpd.Unk3Data.json 1 := JSmall.le (by unfold Nrpd.Unk3Data.json; infer_instance) (by decide)

instance : JSmall Nrpd.RenderPassUnkData.json 2 := ⟨fun v => by
  cases v <;> exact small_one (JSmall.ok _) (by decide)⟩

instance : JSmall Nrpd.RenderPassContainer.json 6 := JSmall.le (by unfold Nrpd.RenderPassContainer.json; infer_instance) (by decide)

instance : JSmall Nrpd.UnkItem20.json 1 := JSmall.le (by unfold Nrpd.UnkItem20.json; infer_instance) (by decide)

instance : JSmall Nrpd.UnkItem21.json 2 := JSmall.le (by unfold Nrpd.UnkItem21.json; infer_instance) (by decide)

instance : JSmall Nrpd.UnkItem22.json 1 := JSmall.le (by unfold Nrpd.UnkItem22.json; infer_instance) (by decide)

instance : JSmall Nrpd.UnkItem24.json 2 := JSmall.le (by unfold Nrpd.UnkItem24.json; infer_instance) (by decide)

instance : JSmall Nrpd.UnkItem2.json 3 := ⟨fun v => by
  cases v <;> exact small_one (JSmall.ok _) (by decide)⟩

instance : JSmall Nrpd.UnkItem3.json 1 := JSmall.le (by unfold Nrpd.UnkItem3.json; infer_instance) (by decide)

instance : JSmall Nrpd.UnkItem1.json 3 := JSmall.le (by unfold Nrpd.UnkItem1.json; infer_instance) (by decide)

instance : JSmall Nrpd.V16Data.json 8 := JSmall.le (by unfold Nrpd.V16Data.json; infer_instance) (by decide)

instance : JSmall Nrpd.json 9 := ⟨fun v => by
  cases v
  exact small_one (JSmall.ok _) (by decide)⟩

instance : JSmall MeshEx.AllData.json 3 := JSmall.le (by unfold MeshEx.AllData.json; infer_instance) (by decide)

instance : JSmall MeshEx.MeshObjectGroup.json 3 := JSmall.le (by unfold MeshEx.MeshObjectGroup.json; infer_instance) (by decide)

instance : JSmall MeshEx.MeshEntry.json 2 := JSmall.le (by unfold MeshEx.MeshEntry.json; infer_instance) (by decide)

instance : JSmall MeshEx.json 5 := JSmall.le (by unfold MeshEx.json; infer_instance) (by decide)

instance : JSmall Adj.AdjEntry.json 1 := JSmall.le (by unfold Adj.AdjEntry.json; infer_instance) (by decide)

instance : JSmall Adj.json 3 := JSmall.le (by unfold Adj.json; infer_instance) (by decide)

instance : JSmall Ssbh.json 11 := ⟨fun v => by
  cases v <;> exact small_one (JSmall.ok _) (by decide)⟩

instance : JSmall ModlData.ModlEntryData.json 1 := JSmall.le (by unfold ModlData.ModlEntryData.json; infer_instance) (by decide)

instance : JSmall ModlData.json 3 := JSmall.le (by unfold ModlData.json; infer_instance) (by decide)

instance : JSmall HlpbData.AimConstraintData.json 2 := JSmall.le (by unfold HlpbData.AimConstraintData.json; infer_instance) (by decide)

instance : JSmall HlpbData.OrientConstraintData.json 2 := JSmall.le (by unfold HlpbData.OrientConstraintData.json; infer_instance) (by decide)

instance : JSmall HlpbData.json 4 := JSmall.le (by unfold HlpbData.json; infer_instance) (by decide)

instance {c : JCodec α} {k0 : Nat} [JSmall c k0] : JSmall (MatlData.ParamData.json c) (k0 + 1) :=
  JSmall.le (by unfold MatlData.ParamData.json; infer_instance) (by omega)

instance : JSmall MatlData.maxAnisotropy 0 := JSmall.le (by unfold MatlData.maxAnisotropy; infer_instance) (by decide)

instance : JSmall MatlData.SamplerData.json 2 := JSmall.le (by unfold MatlData.SamplerData.json; infer_instance) (by decide)

instance : JSmall MatlData.BlendStateData.json 1 := JSmall.le (by unfold MatlData.BlendStateData.json; infer_instance) (by decide)

instance : JSmall MatlData.RasterizerStateData.json 1 := JSmall.le (by unfold MatlData.RasterizerStateData.json; infer_instance) (by decide)

instance : JSmall MatlData.MatlEntryData.json 5 := JSmall.le (by unfold MatlData.MatlEntryData.json; infer_instance) (by decide)

instance : JSmall MatlData.json 7 := JSmall.le (by unfold MatlData.json; infer_instance) (by decide)

instance : JSmall matrixJson 2 := JSmall.le (by unfold matrixJson; infer_instance) (by decide)

instance : JSmall MeshExData.EntryFlags.json 1 := JSmall.le (by unfold MeshExData.EntryFlags.json; infer_instance) (by decide)

instance : JSmall MeshExData.MeshObjectGroupData.json 3 := JSmall.le (by unfold MeshExData.MeshObjectGroupData.json; infer_instance) (by decide)

instance : JSmall MeshExData.json 5 := JSmall.le (by unfold MeshExData.json; infer_instance) (by decide)

instance : JSmall VectorData.json 3 := ⟨fun v => by
  cases v <;> exact small_one (JSmall.ok _) (by decide)⟩

instance : JSmall MeshData.AttributeData.json 4 := JSmall.le (by unfold MeshData.AttributeData.json; infer_instance) (by decide)

instance : JSmall MeshData.VertexWeight.json 1 := JSmall.le (by unfold MeshData.VertexWeight.json; infer_instance) (by decide)

instance : JSmall MeshData.BoneInfluence.json 3 := JSmall.le (by unfold MeshData.BoneInfluence.json; infer_instance) (by decide)

instance : JSmall MeshData.MeshObjectData.json 6 := JSmall.le (by unfold MeshData.MeshObjectData.json; infer_instance) (by decide)

instance : JSmall MeshData.json 8 := JSmall.le (by unfold MeshData.json; infer_instance) (by decide)

instance : JSmall UvTransform.json 1 := JSmall.le (by unfold UvTransform.json; infer_instance) (by decide)

instance : JSmall Transform.json 2 := JSmall.le (by unfold Transform.json; infer_instance) (by decide)

instance : JSmall TrackValues.json 4 := ⟨fun v => by
  cases v <;> exact small_one (JSmall.ok _) (by decide)⟩

instance : JSmall AnimData.TransformFlags.json 1 := JSmall.le (by unfold AnimData.TransformFlags.json; infer_instance) (by decide)

instance : JSmall AnimData.TrackData.json 5 := JSmall.le (by unfold AnimData.TrackData.json; infer_instance) (by decide)

instance : JSmall AnimData.NodeData.json 7 := JSmall.le (by unfold AnimData.NodeData.json; infer_instance) (by decide)

instance : JSmall AnimData.GroupData.json 9 := JSmall.le (by unfold AnimData.GroupData.json; infer_instance) (by decide)

instance : JSmall AnimData.json 11 := JSmall.le (by unfold AnimData.json; infer_instance) (by decide)

end Verif
