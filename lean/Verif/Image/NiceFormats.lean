import Verif.Image.Nice
/-!
# The formats are nice
-/

namespace Verif
open Image

instance (v : Vector3) : Nice (Vector3.image v) := by unfold Vector3.image; infer_instance
instance (v : Matrix3x3) : Nice (Matrix3x3.image v) := by unfold Matrix3x3.image; infer_instance
instance (v : Vector4) : Nice (Vector4.image v) := by unfold Vector4.image; infer_instance
instance (v : Color4f) : Nice (Color4f.image v) := by unfold Color4f.image; infer_instance
instance (v : Matrix4x4) : Nice (Matrix4x4.image v) := by unfold Matrix4x4.image; infer_instance
instance (v : Nlst.V10Data) : Nice (Nlst.V10Data.image v) := by unfold Nlst.V10Data.image; infer_instance
instance (v : Shdr.ShaderStage) : Nice (Shdr.ShaderStage.image v) := by unfold Shdr.ShaderStage.image; infer_instance
instance (v : Shdr.Shader) : Nice (Shdr.Shader.image v) := by unfold Shdr.Shader.image; infer_instance
instance (v : Shdr.V12Data) : Nice (Shdr.V12Data.image v) := by unfold Shdr.V12Data.image; infer_instance
instance (v : Modl.ModlEntry) : Nice (Modl.ModlEntry.image v) := by unfold Modl.ModlEntry.image; infer_instance
instance (v : Modl.V17Data) : Nice (Modl.V17Data.image v) := by unfold Modl.V17Data.image; infer_instance
instance (v : Skel.BillboardType) : Nice (Skel.BillboardType.image v) := by unfold Skel.BillboardType.image; infer_instance
instance (v : Skel.SkelEntryFlags) : Nice (Skel.SkelEntryFlags.image v) := by unfold Skel.SkelEntryFlags.image; infer_instance
instance (v : Skel.SkelBoneEntry) : Nice (Skel.SkelBoneEntry.image v) := by unfold Skel.SkelBoneEntry.image; infer_instance
instance (v : Skel.V10Data) : Nice (Skel.V10Data.image v) := by unfold Skel.V10Data.image; infer_instance
instance (v : Hlpb.AimConstraint) : Nice (Hlpb.AimConstraint.image v) := by unfold Hlpb.AimConstraint.image; infer_instance
instance (v : Hlpb.OrientConstraint) : Nice (Hlpb.OrientConstraint.image v) := by unfold Hlpb.OrientConstraint.image; infer_instance
instance (v : Hlpb.ConstraintType) : Nice (Hlpb.ConstraintType.image v) := by unfold Hlpb.ConstraintType.image; infer_instance
instance (v : Hlpb.V11Data) : Nice (Hlpb.V11Data.image v) := by unfold Hlpb.V11Data.image; infer_instance
instance (v : Nufx.ShaderStages) : Nice (Nufx.ShaderStages.image v) := by unfold Nufx.ShaderStages.image; infer_instance
instance (v : Nufx.MaterialParameter) : Nice (Nufx.MaterialParameter.image v) := by unfold Nufx.MaterialParameter.image; infer_instance
instance (v : Nufx.ShaderProgramV0) : Nice (Nufx.ShaderProgramV0.image v) := by unfold Nufx.ShaderProgramV0.image; infer_instance
instance (v : Nufx.UnkItem) : Nice (Nufx.UnkItem.image v) := by unfold Nufx.UnkItem.image; infer_instance
instance (v : Nufx.NufxV0) : Nice (Nufx.NufxV0.image v) := by unfold Nufx.NufxV0.image; infer_instance
instance (v : Nufx.VertexAttribute) : Nice (Nufx.VertexAttribute.image v) := by unfold Nufx.VertexAttribute.image; infer_instance
instance (v : Nufx.ShaderProgramV1) : Nice (Nufx.ShaderProgramV1.image v) := by unfold Nufx.ShaderProgramV1.image; infer_instance
instance (v : Nufx.NufxV1) : Nice (Nufx.NufxV1.image v) := by unfold Nufx.NufxV1.image; infer_instance
instance (v : Anim.TrackTypeV1) : Nice (Anim.TrackTypeV1.image v) := by unfold Anim.TrackTypeV1.image; infer_instance
instance (v : Anim.Property) : Nice (Anim.Property.image v) := by unfold Anim.Property.image; infer_instance
instance (v : Anim.TrackV1) : Nice (Anim.TrackV1.image v) := by unfold Anim.TrackV1.image; infer_instance
instance (v : Anim.GroupType) : Nice (Anim.GroupType.image v) := by unfold Anim.GroupType.image; infer_instance
instance (v : Anim.TrackTypeV2) : Nice (Anim.TrackTypeV2.image v) := by unfold Anim.TrackTypeV2.image; infer_instance
instance (v : Anim.CompressionType) : Nice (Anim.CompressionType.image v) := by unfold Anim.CompressionType.image; infer_instance
instance (v : Anim.TrackFlags) : Nice (Anim.TrackFlags.image v) := by unfold Anim.TrackFlags.image; infer_instance
instance (v : Anim.TransformFlags) : Nice (Anim.TransformFlags.image v) := by unfold Anim.TransformFlags.image; infer_instance
instance (v : Anim.TrackV2) : Nice (Anim.TrackV2.image v) := by unfold Anim.TrackV2.image; infer_instance
instance (v : Anim.Node) : Nice (Anim.Node.image v) := by unfold Anim.Node.image; infer_instance
instance (v : Anim.Group) : Nice (Anim.Group.image v) := by unfold Anim.Group.image; infer_instance
instance (v : Anim.UnkSubItem) : Nice (Anim.UnkSubItem.image v) := by unfold Anim.UnkSubItem.image; infer_instance
instance (v : Anim.UnkItem1) : Nice (Anim.UnkItem1.image v) := by unfold Anim.UnkItem1.image; infer_instance
instance (v : Anim.UnkItem2) : Nice (Anim.UnkItem2.image v) := by unfold Anim.UnkItem2.image; infer_instance
instance (v : Anim.UnkData) : Nice (Anim.UnkData.image v) := by unfold Anim.UnkData.image; infer_instance
instance (v : Anim.V12Data) : Nice (Anim.V12Data.image v) := by unfold Anim.V12Data.image; infer_instance
instance (v : Anim.V20Data) : Nice (Anim.V20Data.image v) := by unfold Anim.V20Data.image; infer_instance
instance (v : Anim.V21Data) : Nice (Anim.V21Data.image v) := by unfold Anim.V21Data.image; infer_instance
instance (v : Mesh.BoundingSphere) : Nice (Mesh.BoundingSphere.image v) := by unfold Mesh.BoundingSphere.image; infer_instance
instance (v : Mesh.BoundingVolume) : Nice (Mesh.BoundingVolume.image v) := by unfold Mesh.BoundingVolume.image; infer_instance
instance (v : Mesh.OrientedBoundingBox) : Nice (Mesh.OrientedBoundingBox.image v) := by unfold Mesh.OrientedBoundingBox.image; infer_instance
instance (v : Mesh.BoundingInfo) : Nice (Mesh.BoundingInfo.image v) := by unfold Mesh.BoundingInfo.image; infer_instance
instance (v : Mesh.DrawElementType) : Nice (Mesh.DrawElementType.image v) := by unfold Mesh.DrawElementType.image; infer_instance
instance (v : Mesh.DepthFlags) : Nice (Mesh.DepthFlags.image v) := by unfold Mesh.DepthFlags.image; infer_instance
instance {A : Type} (aI : A → Image.Piece) [∀ v, Nice (aI v)] (v : (Mesh.MeshObject A)) : Nice (Mesh.MeshObject.image aI v) := by unfold Mesh.MeshObject.image; infer_instance
instance (v : Mesh.RiggingFlags) : Nice (Mesh.RiggingFlags.image v) := by unfold Mesh.RiggingFlags.image; infer_instance
instance {W2 : Type} (w2I : W2 → Image.Piece) [∀ v, Nice (w2I v)] (v : (Mesh.BoneBuffer W2)) : Nice (Mesh.BoneBuffer.image w2I v) := by unfold Mesh.BoneBuffer.image; infer_instance
instance {W3 : Type} (w3I : W3 → Image.Piece) [∀ v, Nice (w3I v)] (v : (Mesh.RiggingGroup W3)) : Nice (Mesh.RiggingGroup.image w3I v) := by unfold Mesh.RiggingGroup.image; infer_instance
instance {A : Type} {W1 : Type} (aI : A → Image.Piece) (w1I : W1 → Image.Piece) [∀ v, Nice (aI v)] [∀ v, Nice (w1I v)] (v : (Mesh.MeshInner A W1)) : Nice (Mesh.MeshInner.image aI w1I v) := by unfold Mesh.MeshInner.image; infer_instance
instance (v : Mesh.AttributeUsageV8) : Nice (Mesh.AttributeUsageV8.image v) := by unfold Mesh.AttributeUsageV8.image; infer_instance
instance (v : Mesh.AttributeDataTypeV8) : Nice (Mesh.AttributeDataTypeV8.image v) := by unfold Mesh.AttributeDataTypeV8.image; infer_instance
instance (v : Mesh.AttributeV8) : Nice (Mesh.AttributeV8.image v) := by unfold Mesh.AttributeV8.image; infer_instance
instance (v : Mesh.VertexWeightV8) : Nice (Mesh.VertexWeightV8.image v) := by unfold Mesh.VertexWeightV8.image; infer_instance
instance (v : Mesh.AttributeUsageV9) : Nice (Mesh.AttributeUsageV9.image v) := by unfold Mesh.AttributeUsageV9.image; infer_instance
instance (v : Mesh.AttributeV9) : Nice (Mesh.AttributeV9.image v) := by unfold Mesh.AttributeV9.image; infer_instance
instance (v : Mesh.AttributeDataTypeV10) : Nice (Mesh.AttributeDataTypeV10.image v) := by unfold Mesh.AttributeDataTypeV10.image; infer_instance
instance (v : Mesh.AttributeV10) : Nice (Mesh.AttributeV10.image v) := by unfold Mesh.AttributeV10.image; infer_instance
instance (v : Matl.ParamId) : Nice (Matl.ParamId.image v) := by unfold Matl.ParamId.image; infer_instance
instance (v : Matl.WrapMode) : Nice (Matl.WrapMode.image v) := by unfold Matl.WrapMode.image; infer_instance
instance (v : Matl.MinFilter) : Nice (Matl.MinFilter.image v) := by unfold Matl.MinFilter.image; infer_instance
instance (v : Matl.MagFilter) : Nice (Matl.MagFilter.image v) := by unfold Matl.MagFilter.image; infer_instance
instance (v : Matl.FilteringType) : Nice (Matl.FilteringType.image v) := by unfold Matl.FilteringType.image; infer_instance
instance (v : Matl.MaxAnisotropy) : Nice (Matl.MaxAnisotropy.image v) := by unfold Matl.MaxAnisotropy.image; infer_instance
instance (v : Matl.Sampler) : Nice (Matl.Sampler.image v) := by unfold Matl.Sampler.image; infer_instance
instance (v : Matl.UvTransform) : Nice (Matl.UvTransform.image v) := by unfold Matl.UvTransform.image; infer_instance
instance (v : Matl.BlendFactor) : Nice (Matl.BlendFactor.image v) := by unfold Matl.BlendFactor.image; infer_instance
instance (v : Matl.BlendOperation) : Nice (Matl.BlendOperation.image v) := by unfold Matl.BlendOperation.image; infer_instance
instance (v : Matl.BlendStateV15) : Nice (Matl.BlendStateV15.image v) := by unfold Matl.BlendStateV15.image; infer_instance
instance (v : Matl.CullMode) : Nice (Matl.CullMode.image v) := by unfold Matl.CullMode.image; infer_instance
instance (v : Matl.RasterizerStateV15) : Nice (Matl.RasterizerStateV15.image v) := by unfold Matl.RasterizerStateV15.image; infer_instance
instance (v : Matl.ParamV15) : NiceT (Matl.ParamV15.target v) := by cases v <;> exact inferInstanceAs (NiceT (record _ _))
instance (v : Matl.AttributeV15) : Nice (Matl.AttributeV15.image v) := by unfold Matl.AttributeV15.image; infer_instance
instance (v : Matl.MatlEntryV15) : Nice (Matl.MatlEntryV15.image v) := by unfold Matl.MatlEntryV15.image; infer_instance
instance (v : Matl.BlendStateV16) : Nice (Matl.BlendStateV16.image v) := by unfold Matl.BlendStateV16.image; infer_instance
instance (v : Matl.FillMode) : Nice (Matl.FillMode.image v) := by unfold Matl.FillMode.image; infer_instance
instance (v : Matl.RasterizerStateV16) : Nice (Matl.RasterizerStateV16.image v) := by unfold Matl.RasterizerStateV16.image; infer_instance
instance (v : Matl.ParamV16) : NiceT (Matl.ParamV16.target v) := by cases v <;> exact inferInstanceAs (NiceT (record _ _))
instance (v : Matl.AttributeV16) : Nice (Matl.AttributeV16.image v) := by unfold Matl.AttributeV16.image; infer_instance
instance (v : Matl.MatlEntryV16) : Nice (Matl.MatlEntryV16.image v) := by unfold Matl.MatlEntryV16.image; infer_instance
instance (v : Matl.V15Data) : Nice (Matl.V15Data.image v) := by unfold Matl.V15Data.image; infer_instance
instance (v : Matl.V16Data) : Nice (Matl.V16Data.image v) := by unfold Matl.V16Data.image; infer_instance
instance (v : Nrpd.UnkFormat) : Nice (Nrpd.UnkFormat.image v) := by unfold Nrpd.UnkFormat.image; infer_instance
instance (v : Nrpd.Framebuffer0) : Nice (Nrpd.Framebuffer0.image v) := by unfold Nrpd.Framebuffer0.image; infer_instance
instance (v : Nrpd.Framebuffer1) : Nice (Nrpd.Framebuffer1.image v) := by unfold Nrpd.Framebuffer1.image; infer_instance
instance (v : Nrpd.UniformBuffer) : Nice (Nrpd.UniformBuffer.image v) := by unfold Nrpd.UniformBuffer.image; infer_instance
instance (v : Nrpd.Framebuffer3) : Nice (Nrpd.Framebuffer3.image v) := by unfold Nrpd.Framebuffer3.image; infer_instance
instance (v : Nrpd.Framebuffer4) : Nice (Nrpd.Framebuffer4.image v) := by unfold Nrpd.Framebuffer4.image; infer_instance
instance (v : Nrpd.FrameBuffer) : NiceT (Nrpd.FrameBuffer.target v) := by cases v <;> exact inferInstanceAs (NiceT (record _ _))
instance (v : Nrpd.NrpdSampler) : Nice (Nrpd.NrpdSampler.image v) := by unfold Nrpd.NrpdSampler.image; infer_instance
instance (v : Nrpd.NrpdRasterizerState) : Nice (Nrpd.NrpdRasterizerState.image v) := by unfold Nrpd.NrpdRasterizerState.image; infer_instance
instance (v : Nrpd.DepthState) : Nice (Nrpd.DepthState.image v) := by unfold Nrpd.DepthState.image; infer_instance
instance (v : Nrpd.NrpdBlendState) : Nice (Nrpd.NrpdBlendState.image v) := by unfold Nrpd.NrpdBlendState.image; infer_instance
instance (v : Nrpd.State) : NiceT (Nrpd.State.target v) := by cases v <;> exact inferInstanceAs (NiceT (record _ _))
instance (v : Nrpd.RenderPassData0) : Nice (Nrpd.RenderPassData0.image v) := by unfold Nrpd.RenderPassData0.image; infer_instance
instance (v : Nrpd.RenderPassData1) : Nice (Nrpd.RenderPassData1.image v) := by unfold Nrpd.RenderPassData1.image; infer_instance
instance (v : Nrpd.RenderPassData2) : Nice (Nrpd.RenderPassData2.image v) := by unfold Nrpd.RenderPassData2.image; infer_instance
instance (v : Nrpd.Unk8Data) : Nice (Nrpd.Unk8Data.image v) := by unfold Nrpd.Unk8Data.image; infer_instance
instance (v : Nrpd.RenderPassData3) : Nice (Nrpd.RenderPassData3.image v) := by unfold Nrpd.RenderPassData3.image; infer_instance
instance (v : Nrpd.RenderPassData8) : Nice (Nrpd.RenderPassData8.image v) := by unfold Nrpd.RenderPassData8.image; infer_instance
instance (v : Nrpd.ColorClear) : Nice (Nrpd.ColorClear.image v) := by unfold Nrpd.ColorClear.image; infer_instance
instance (v : Nrpd.DepthStencilClear) : Nice (Nrpd.DepthStencilClear.image v) := by unfold Nrpd.DepthStencilClear.image; infer_instance
instance (v : Nrpd.Viewport) : Nice (Nrpd.Viewport.image v) := by unfold Nrpd.Viewport.image; infer_instance
instance (v : Nrpd.RenderPassData13) : Nice (Nrpd.RenderPassData13.image v) := by unfold Nrpd.RenderPassData13.image; infer_instance
instance (v : Nrpd.StringPair) : Nice (Nrpd.StringPair.image v) := by unfold Nrpd.StringPair.image; infer_instance
instance (v : Nrpd.RenderPassData19) : Nice (Nrpd.RenderPassData19.image v) := by unfold Nrpd.RenderPassData19.image; infer_instance
instance (v : Nrpd.RenderPassData) : NiceT (Nrpd.RenderPassData.target v) := by cases v <;> exact inferInstanceAs (NiceT (record _ _))
instance (v : Nrpd.Unk3Data) : Nice (Nrpd.Unk3Data.image v) := by unfold Nrpd.Unk3Data.image; infer_instance
instance (v : Nrpd.RenderPassUnkData) : NiceT (Nrpd.RenderPassUnkData.target v) := by cases v <;> exact inferInstanceAs (NiceT (record _ _))
instance (v : Nrpd.RenderPassContainer) : Nice (Nrpd.RenderPassContainer.image v) := by unfold Nrpd.RenderPassContainer.image; infer_instance
instance (v : Nrpd.UnkItem20) : Nice (Nrpd.UnkItem20.image v) := by unfold Nrpd.UnkItem20.image; infer_instance
instance (v : Nrpd.UnkItem21) : Nice (Nrpd.UnkItem21.image v) := by unfold Nrpd.UnkItem21.image; infer_instance
instance (v : Nrpd.UnkItem22) : Nice (Nrpd.UnkItem22.image v) := by unfold Nrpd.UnkItem22.image; infer_instance
instance (v : Nrpd.UnkItem24) : Nice (Nrpd.UnkItem24.image v) := by unfold Nrpd.UnkItem24.image; infer_instance
instance (v : Nrpd.UnkItem2) : NiceT (Nrpd.UnkItem2.target v) := by cases v <;> exact inferInstanceAs (NiceT (record _ _))
instance (v : Nrpd.UnkItem3) : Nice (Nrpd.UnkItem3.image v) := by unfold Nrpd.UnkItem3.image; infer_instance
instance (v : Nrpd.UnkItem1) : Nice (Nrpd.UnkItem1.image v) := by unfold Nrpd.UnkItem1.image; infer_instance
instance (v : Nrpd.V16Data) : Nice (Nrpd.V16Data.image v) := by unfold Nrpd.V16Data.image; infer_instance

end Verif
