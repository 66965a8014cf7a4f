import Verif.Image.Files
import Verif.Image.Formats
/-!
# The writers produce these bytes

Written by tools/gen_image.py from the Rust definitions.
-/

namespace Verif

instance : EmitC Vector3.codec Vector3.image := by
  unfold Vector3.codec; exact EmitC.of inferInstance (fun _ => rfl)

instance : EmitC Matrix3x3.codec Matrix3x3.image := by
  unfold Matrix3x3.codec; exact EmitC.of inferInstance (fun _ => rfl)

instance : EmitC Vector4.codec Vector4.image := by
  unfold Vector4.codec; exact EmitC.of inferInstance (fun _ => rfl)

instance : EmitC Color4f.codec Color4f.image := by
  unfold Color4f.codec; exact EmitC.of inferInstance (fun _ => rfl)

instance : EmitC Matrix4x4.codec Matrix4x4.image := by
  unfold Matrix4x4.codec; exact EmitC.of inferInstance (fun _ => rfl)

instance : EmitC Nlst.V10Data.codec Nlst.V10Data.image := by
  unfold Nlst.V10Data.codec; exact EmitC.of inferInstance (fun _ => rfl)

instance : EmitFile Nlst Nlst.image where
  emits v := by
    cases v with
    | V10 v => exact (inferInstance : EmitC Nlst.V10Data.codec _).emits v
  head v := by cases v <;> exact ⟨rfl, rfl, rfl, rfl⟩
  size v := by
    cases v with
    | V10 v => exact (inferInstance : EmitC Nlst.V10Data.codec _).size v

instance : EmitC Shdr.ShaderStage.codec Shdr.ShaderStage.image := reprEnum_emit

instance : EmitC Shdr.Shader.codec Shdr.Shader.image := by
  unfold Shdr.Shader.codec; exact EmitC.of inferInstance (fun _ => rfl)

instance : EmitC Shdr.V12Data.codec Shdr.V12Data.image := by
  unfold Shdr.V12Data.codec; exact EmitC.of inferInstance (fun _ => rfl)

instance : EmitFile Shdr Shdr.image where
  emits v := by
    cases v with
    | V12 v => exact (inferInstance : EmitC Shdr.V12Data.codec _).emits v
  head v := by cases v <;> exact ⟨rfl, rfl, rfl, rfl⟩
  size v := by
    cases v with
    | V12 v => exact (inferInstance : EmitC Shdr.V12Data.codec _).size v

instance : EmitC Modl.ModlEntry.codec Modl.ModlEntry.image := by
  unfold Modl.ModlEntry.codec; exact EmitC.of inferInstance (fun _ => rfl)

instance : EmitC Modl.V17Data.codec Modl.V17Data.image := by
  unfold Modl.V17Data.codec; exact EmitC.of inferInstance (fun _ => rfl)

instance : EmitFile Modl Modl.image where
  emits v := by
    cases v with
    | V17 v => exact (inferInstance : EmitC Modl.V17Data.codec _).emits v
  head v := by cases v <;> exact ⟨rfl, rfl, rfl, rfl⟩
  size v := by
    cases v with
    | V17 v => exact (inferInstance : EmitC Modl.V17Data.codec _).size v

instance : EmitC Skel.BillboardType.codec Skel.BillboardType.image := reprEnum_emit

instance : EmitC Skel.SkelEntryFlags.codec Skel.SkelEntryFlags.image := by
  unfold Skel.SkelEntryFlags.codec; exact EmitC.of inferInstance (fun _ => rfl)

instance : EmitC Skel.SkelBoneEntry.codec Skel.SkelBoneEntry.image := by
  unfold Skel.SkelBoneEntry.codec; exact EmitC.of inferInstance (fun _ => rfl)

instance : EmitC Skel.V10Data.codec Skel.V10Data.image := by
  unfold Skel.V10Data.codec; exact EmitC.of inferInstance (fun _ => rfl)

instance : EmitFile Skel Skel.image where
  emits v := by
    cases v with
    | V10 v => exact (inferInstance : EmitC Skel.V10Data.codec _).emits v
  head v := by cases v <;> exact ⟨rfl, rfl, rfl, rfl⟩
  size v := by
    cases v with
    | V10 v => exact (inferInstance : EmitC Skel.V10Data.codec _).size v

instance : EmitC Hlpb.AimConstraint.codec Hlpb.AimConstraint.image := by
  unfold Hlpb.AimConstraint.codec; exact EmitC.of inferInstance (fun _ => rfl)

instance : EmitC Hlpb.OrientConstraint.codec Hlpb.OrientConstraint.image := by
  unfold Hlpb.OrientConstraint.codec; exact EmitC.of inferInstance (fun _ => rfl)

instance : EmitC Hlpb.ConstraintType.codec Hlpb.ConstraintType.image := reprEnum_emit

instance : EmitC Hlpb.V11Data.codec Hlpb.V11Data.image := by
  unfold Hlpb.V11Data.codec; exact EmitC.of inferInstance (fun _ => rfl)

instance : EmitFile Hlpb Hlpb.image where
  emits v := by
    cases v with
    | V11 v => exact (inferInstance : EmitC Hlpb.V11Data.codec _).emits v
  head v := by cases v <;> exact ⟨rfl, rfl, rfl, rfl⟩
  size v := by
    cases v with
    | V11 v => exact (inferInstance : EmitC Hlpb.V11Data.codec _).size v

instance : EmitC Nufx.ShaderStages.codec Nufx.ShaderStages.image := by
  unfold Nufx.ShaderStages.codec; exact EmitC.of inferInstance (fun _ => rfl)

instance : EmitC Nufx.MaterialParameter.codec Nufx.MaterialParameter.image := by
  unfold Nufx.MaterialParameter.codec; exact EmitC.of inferInstance (fun _ => rfl)

instance : EmitC Nufx.ShaderProgramV0.codec Nufx.ShaderProgramV0.image := by
  unfold Nufx.ShaderProgramV0.codec; exact EmitC.of inferInstance (fun _ => rfl)

instance : EmitC Nufx.UnkItem.codec Nufx.UnkItem.image := by
  unfold Nufx.UnkItem.codec; exact EmitC.of inferInstance (fun _ => rfl)

instance : EmitC Nufx.NufxV0.codec Nufx.NufxV0.image := by
  unfold Nufx.NufxV0.codec; exact EmitC.of inferInstance (fun _ => rfl)

instance : EmitC Nufx.VertexAttribute.codec Nufx.VertexAttribute.image := by
  unfold Nufx.VertexAttribute.codec; exact EmitC.of inferInstance (fun _ => rfl)

instance : EmitC Nufx.ShaderProgramV1.codec Nufx.ShaderProgramV1.image := by
  unfold Nufx.ShaderProgramV1.codec; exact EmitC.of inferInstance (fun _ => rfl)

instance : EmitC Nufx.NufxV1.codec Nufx.NufxV1.image := by
  unfold Nufx.NufxV1.codec; exact EmitC.of inferInstance (fun _ => rfl)

instance : EmitFile Nufx Nufx.image where
  emits v := by
    cases v with
    | V0 v => exact (inferInstance : EmitC (struct 8 Nufx.NufxV0.codec) _).emits v
    | V1 v => exact (inferInstance : EmitC (struct 8 Nufx.NufxV1.codec) _).emits v
  head v := by cases v <;> exact ⟨rfl, rfl, rfl, rfl⟩
  size v := by
    cases v with
    | V0 v => exact (inferInstance : EmitC (struct 8 Nufx.NufxV0.codec) _).size v
    | V1 v => exact (inferInstance : EmitC (struct 8 Nufx.NufxV1.codec) _).size v

instance : EmitC Anim.TrackTypeV1.codec Anim.TrackTypeV1.image := reprEnum_emit

instance : EmitC Anim.Property.codec Anim.Property.image := by
  unfold Anim.Property.codec; exact EmitC.of inferInstance (fun _ => rfl)

instance : EmitC Anim.TrackV1.codec Anim.TrackV1.image := by
  unfold Anim.TrackV1.codec; exact EmitC.of inferInstance (fun _ => rfl)

instance : EmitC Anim.GroupType.codec Anim.GroupType.image := reprEnum_emit

instance : EmitC Anim.TrackTypeV2.codec Anim.TrackTypeV2.image := reprEnum_emit

instance : EmitC Anim.CompressionType.codec Anim.CompressionType.image := reprEnum_emit

instance : EmitC Anim.TrackFlags.codec Anim.TrackFlags.image := by
  unfold Anim.TrackFlags.codec; exact EmitC.of inferInstance (fun _ => rfl)

instance : EmitC Anim.TransformFlags.codec Anim.TransformFlags.image := inferInstanceAs (EmitC bitfield32 Image.u32)

instance : EmitC Anim.TrackV2.codec Anim.TrackV2.image := by
  unfold Anim.TrackV2.codec; exact EmitC.of inferInstance (fun _ => rfl)

instance : EmitC Anim.Node.codec Anim.Node.image := by
  unfold Anim.Node.codec; exact EmitC.of inferInstance (fun _ => rfl)

instance : EmitC Anim.Group.codec Anim.Group.image := by
  unfold Anim.Group.codec; exact EmitC.of inferInstance (fun _ => rfl)

instance : EmitC Anim.UnkSubItem.codec Anim.UnkSubItem.image := by
  unfold Anim.UnkSubItem.codec; exact EmitC.of inferInstance (fun _ => rfl)

instance : EmitC Anim.UnkItem1.codec Anim.UnkItem1.image := by
  unfold Anim.UnkItem1.codec; exact EmitC.of inferInstance (fun _ => rfl)

instance : EmitC Anim.UnkItem2.codec Anim.UnkItem2.image := by
  unfold Anim.UnkItem2.codec; exact EmitC.of inferInstance (fun _ => rfl)

instance : EmitC Anim.UnkData.codec Anim.UnkData.image := by
  unfold Anim.UnkData.codec; exact EmitC.of inferInstance (fun _ => rfl)

instance : EmitC Anim.V12Data.codec Anim.V12Data.image := by
  unfold Anim.V12Data.codec; exact EmitC.of inferInstance (fun _ => rfl)

instance : EmitC Anim.V20Data.codec Anim.V20Data.image := by
  unfold Anim.V20Data.codec; exact EmitC.of inferInstance (fun _ => rfl)

instance : EmitC Anim.V21Data.codec Anim.V21Data.image := by
  unfold Anim.V21Data.codec; exact EmitC.of inferInstance (fun _ => rfl)

instance : EmitFile Anim Anim.image where
  emits v := by
    cases v with
    | V12 v => exact (inferInstance : EmitC Anim.V12Data.codec _).emits v
    | V20 v => exact (inferInstance : EmitC Anim.V20Data.codec _).emits v
    | V21 v => exact (inferInstance : EmitC Anim.V21Data.codec _).emits v
  head v := by cases v <;> exact ⟨rfl, rfl, rfl, rfl⟩
  size v := by
    cases v with
    | V12 v => exact (inferInstance : EmitC Anim.V12Data.codec _).size v
    | V20 v => exact (inferInstance : EmitC Anim.V20Data.codec _).size v
    | V21 v => exact (inferInstance : EmitC Anim.V21Data.codec _).size v

instance : EmitC Mesh.BoundingSphere.codec Mesh.BoundingSphere.image := by
  unfold Mesh.BoundingSphere.codec; exact EmitC.of inferInstance (fun _ => rfl)

instance : EmitC Mesh.BoundingVolume.codec Mesh.BoundingVolume.image := by
  unfold Mesh.BoundingVolume.codec; exact EmitC.of inferInstance (fun _ => rfl)

instance : EmitC Mesh.OrientedBoundingBox.codec Mesh.OrientedBoundingBox.image := by
  unfold Mesh.OrientedBoundingBox.codec; exact EmitC.of inferInstance (fun _ => rfl)

instance : EmitC Mesh.BoundingInfo.codec Mesh.BoundingInfo.image := by
  unfold Mesh.BoundingInfo.codec; exact EmitC.of inferInstance (fun _ => rfl)

instance : EmitC Mesh.DrawElementType.codec Mesh.DrawElementType.image := reprEnum_emit

instance : EmitC Mesh.DepthFlags.codec Mesh.DepthFlags.image := by
  unfold Mesh.DepthFlags.codec; exact EmitC.of inferInstance (fun _ => rfl)

instance {A : Type} {aC : Codec A} {aI : A → Image.Piece} [EmitF aC aI] : EmitC (Mesh.MeshObject.codec aC) (Mesh.MeshObject.image aI) := by
  unfold Mesh.MeshObject.codec; exact EmitC.of inferInstance (fun _ => rfl)

instance : EmitC Mesh.RiggingFlags.codec Mesh.RiggingFlags.image := by
  unfold Mesh.RiggingFlags.codec; exact EmitC.of inferInstance (fun _ => rfl)

instance {W2 : Type} {w2C : Codec W2} {w2I : W2 → Image.Piece} [EmitF w2C w2I] : EmitC (Mesh.BoneBuffer.codec w2C) (Mesh.BoneBuffer.image w2I) := by
  unfold Mesh.BoneBuffer.codec; exact EmitC.of inferInstance (fun _ => rfl)

instance {W3 : Type} {w3C : Codec W3} {w3I : W3 → Image.Piece} [EmitF w3C w3I] : EmitC (Mesh.RiggingGroup.codec w3C) (Mesh.RiggingGroup.image w3I) := by
  unfold Mesh.RiggingGroup.codec; exact EmitC.of inferInstance (fun _ => rfl)

instance {A : Type} {W1 : Type} {aC : Codec A} {aI : A → Image.Piece} [EmitF aC aI] {w1C : Codec W1} {w1I : W1 → Image.Piece} [EmitF w1C w1I] : EmitC (Mesh.MeshInner.codec aC w1C) (Mesh.MeshInner.image aI w1I) := by
  unfold Mesh.MeshInner.codec; exact EmitC.of inferInstance (fun _ => rfl)

instance : EmitC Mesh.AttributeUsageV8.codec Mesh.AttributeUsageV8.image := reprEnum_emit

instance : EmitC Mesh.AttributeDataTypeV8.codec Mesh.AttributeDataTypeV8.image := reprEnum_emit

instance : EmitC Mesh.AttributeV8.codec Mesh.AttributeV8.image := by
  unfold Mesh.AttributeV8.codec; exact EmitC.of inferInstance (fun _ => rfl)

instance : EmitC Mesh.VertexWeightV8.codec Mesh.VertexWeightV8.image := by
  unfold Mesh.VertexWeightV8.codec; exact EmitC.of inferInstance (fun _ => rfl)

instance : EmitC Mesh.AttributeUsageV9.codec Mesh.AttributeUsageV9.image := reprEnum_emit

instance : EmitC Mesh.AttributeV9.codec Mesh.AttributeV9.image := by
  unfold Mesh.AttributeV9.codec; exact EmitC.of inferInstance (fun _ => rfl)

instance : EmitC Mesh.AttributeDataTypeV10.codec Mesh.AttributeDataTypeV10.image := reprEnum_emit

instance : EmitC Mesh.AttributeV10.codec Mesh.AttributeV10.image := by
  unfold Mesh.AttributeV10.codec; exact EmitC.of inferInstance (fun _ => rfl)

instance : EmitFile Mesh Mesh.image where
  emits v := by
    cases v with
    | V8 v => exact (inferInstance : EmitC (struct 8 (padAfterWrite 16 (Mesh.MeshInner.codec Mesh.AttributeV8.codec (array Mesh.VertexWeightV8.codec)))) _).emits v
    | V9 v => exact (inferInstance : EmitC (struct 8 (padAfterWrite 16 (Mesh.MeshInner.codec Mesh.AttributeV9.codec (array Mesh.VertexWeightV8.codec)))) _).emits v
    | V10 v => exact (inferInstance : EmitC (struct 8 (padAfterWrite 16 (Mesh.MeshInner.codec Mesh.AttributeV10.codec byteBuffer))) _).emits v
  head v := by cases v <;> exact ⟨rfl, rfl, rfl, rfl⟩
  size v := by
    cases v with
    | V8 v => exact (inferInstance : EmitC (struct 8 (padAfterWrite 16 (Mesh.MeshInner.codec Mesh.AttributeV8.codec (array Mesh.VertexWeightV8.codec)))) _).size v
    | V9 v => exact (inferInstance : EmitC (struct 8 (padAfterWrite 16 (Mesh.MeshInner.codec Mesh.AttributeV9.codec (array Mesh.VertexWeightV8.codec)))) _).size v
    | V10 v => exact (inferInstance : EmitC (struct 8 (padAfterWrite 16 (Mesh.MeshInner.codec Mesh.AttributeV10.codec byteBuffer))) _).size v

instance : EmitC Matl.ParamId.codec Matl.ParamId.image := reprEnum_emit

instance : EmitC Matl.WrapMode.codec Matl.WrapMode.image := reprEnum_emit

instance : EmitC Matl.MinFilter.codec Matl.MinFilter.image := reprEnum_emit

instance : EmitC Matl.MagFilter.codec Matl.MagFilter.image := reprEnum_emit

instance : EmitC Matl.FilteringType.codec Matl.FilteringType.image := reprEnum_emit

instance : EmitC Matl.MaxAnisotropy.codec Matl.MaxAnisotropy.image := reprEnum_emit

instance : EmitC Matl.Sampler.codec Matl.Sampler.image := by
  unfold Matl.Sampler.codec; exact EmitC.of inferInstance (fun _ => rfl)

instance : EmitC Matl.UvTransform.codec Matl.UvTransform.image := by
  unfold Matl.UvTransform.codec; exact EmitC.of inferInstance (fun _ => rfl)

instance : EmitC Matl.BlendFactor.codec Matl.BlendFactor.image := reprEnum_emit

instance : EmitC Matl.BlendOperation.codec Matl.BlendOperation.image := reprEnum_emit

instance : EmitC Matl.BlendStateV15.codec Matl.BlendStateV15.image := by
  unfold Matl.BlendStateV15.codec; exact EmitC.of inferInstance (fun _ => rfl)

instance : EmitC Matl.CullMode.codec Matl.CullMode.image := reprEnum_emit

instance : EmitC Matl.RasterizerStateV15.codec Matl.RasterizerStateV15.image := by
  unfold Matl.RasterizerStateV15.codec; exact EmitC.of inferInstance (fun _ => rfl)

instance : EmitU Matl.ParamV15.tagged Matl.ParamV15.number Matl.ParamV15.target where
  target v := by
    cases v with
    | Float v => exact variant_emit (c := f32) 8 v
    | Boolean v => exact variant_emit (c := u32) 8 v
    | Vector4 v => exact variant_emit (c := Vector4.codec) 8 v
    | Unk7 v => exact variant_emit (c := Color4f.codec) 8 v
    | String v => exact variant_emit (c := ssbhString) 8 v
    | Sampler v => exact variant_emit (c := Matl.Sampler.codec) 8 v
    | UvTransform v => exact variant_emit (c := Matl.UvTransform.codec) 8 v
    | BlendState v => exact variant_emit (c := Matl.BlendStateV15.codec) 8 v
    | RasterizerState v => exact variant_emit (c := Matl.RasterizerStateV15.codec) 8 v
  align := rfl
  tag v := by cases v <;> exact ⟨rfl, by simp [Matl.ParamV15.number]⟩

instance : EmitC Matl.AttributeV15.codec Matl.AttributeV15.image := by
  unfold Matl.AttributeV15.codec; exact EmitC.of inferInstance (fun _ => rfl)

instance : EmitC Matl.MatlEntryV15.codec Matl.MatlEntryV15.image := by
  unfold Matl.MatlEntryV15.codec; exact EmitC.of inferInstance (fun _ => rfl)

instance : EmitC Matl.BlendStateV16.codec Matl.BlendStateV16.image := by
  unfold Matl.BlendStateV16.codec; exact EmitC.of inferInstance (fun _ => rfl)

instance : EmitC Matl.FillMode.codec Matl.FillMode.image := reprEnum_emit

instance : EmitC Matl.RasterizerStateV16.codec Matl.RasterizerStateV16.image := by
  unfold Matl.RasterizerStateV16.codec; exact EmitC.of inferInstance (fun _ => rfl)

instance : EmitU Matl.ParamV16.tagged Matl.ParamV16.number Matl.ParamV16.target where
  target v := by
    cases v with
    | Float v => exact variant_emit (c := f32) 8 v
    | Boolean v => exact variant_emit (c := u32) 8 v
    | Vector4 v => exact variant_emit (c := Vector4.codec) 8 v
    | Unk7 v => exact variant_emit (c := Color4f.codec) 8 v
    | String v => exact variant_emit (c := ssbhString) 8 v
    | Sampler v => exact variant_emit (c := Matl.Sampler.codec) 8 v
    | UvTransform v => exact variant_emit (c := Matl.UvTransform.codec) 8 v
    | BlendState v => exact variant_emit (c := Matl.BlendStateV16.codec) 8 v
    | RasterizerState v => exact variant_emit (c := Matl.RasterizerStateV16.codec) 8 v
  align := rfl
  tag v := by cases v <;> exact ⟨rfl, by simp [Matl.ParamV16.number]⟩

instance : EmitC Matl.AttributeV16.codec Matl.AttributeV16.image := by
  unfold Matl.AttributeV16.codec; exact EmitC.of inferInstance (fun _ => rfl)

instance : EmitC Matl.MatlEntryV16.codec Matl.MatlEntryV16.image := by
  unfold Matl.MatlEntryV16.codec; exact EmitC.of inferInstance (fun _ => rfl)

instance : EmitC Matl.V15Data.codec Matl.V15Data.image := by
  unfold Matl.V15Data.codec; exact EmitC.of inferInstance (fun _ => rfl)

instance : EmitC Matl.V16Data.codec Matl.V16Data.image := by
  unfold Matl.V16Data.codec; exact EmitC.of inferInstance (fun _ => rfl)

instance : EmitFile Matl Matl.image where
  emits v := by
    cases v with
    | V15 v => exact (inferInstance : EmitC Matl.V15Data.codec _).emits v
    | V16 v => exact (inferInstance : EmitC Matl.V16Data.codec _).emits v
  head v := by cases v <;> exact ⟨rfl, rfl, rfl, rfl⟩
  size v := by
    cases v with
    | V15 v => exact (inferInstance : EmitC Matl.V15Data.codec _).size v
    | V16 v => exact (inferInstance : EmitC Matl.V16Data.codec _).size v

instance : EmitC Nrpd.UnkFormat.codec Nrpd.UnkFormat.image := reprEnum_emit

instance : EmitC Nrpd.Framebuffer0.codec Nrpd.Framebuffer0.image := by
  unfold Nrpd.Framebuffer0.codec; exact EmitC.of inferInstance (fun _ => rfl)

instance : EmitC Nrpd.Framebuffer1.codec Nrpd.Framebuffer1.image := by
  unfold Nrpd.Framebuffer1.codec; exact EmitC.of inferInstance (fun _ => rfl)

instance : EmitC Nrpd.UniformBuffer.codec Nrpd.UniformBuffer.image := by
  unfold Nrpd.UniformBuffer.codec; exact EmitC.of inferInstance (fun _ => rfl)

instance : EmitC Nrpd.Framebuffer3.codec Nrpd.Framebuffer3.image := by
  unfold Nrpd.Framebuffer3.codec; exact EmitC.of inferInstance (fun _ => rfl)

instance : EmitC Nrpd.Framebuffer4.codec Nrpd.Framebuffer4.image := by
  unfold Nrpd.Framebuffer4.codec; exact EmitC.of inferInstance (fun _ => rfl)

instance : EmitU Nrpd.FrameBuffer.tagged Nrpd.FrameBuffer.number Nrpd.FrameBuffer.target where
  target v := by
    cases v with
    | Framebuffer0 v => exact variant_emit (c := Nrpd.Framebuffer0.codec) 8 v
    | Framebuffer1 v => exact variant_emit (c := Nrpd.Framebuffer1.codec) 8 v
    | UniformBuffer v => exact variant_emit (c := Nrpd.UniformBuffer.codec) 8 v
    | Framebuffer3 v => exact variant_emit (c := Nrpd.Framebuffer3.codec) 8 v
    | Framebuffer4 v => exact variant_emit (c := Nrpd.Framebuffer4.codec) 8 v
  align := rfl
  tag v := by cases v <;> exact ⟨rfl, by simp [Nrpd.FrameBuffer.number]⟩

instance : EmitC Nrpd.NrpdSampler.codec Nrpd.NrpdSampler.image := by
  unfold Nrpd.NrpdSampler.codec; exact EmitC.of inferInstance (fun _ => rfl)

instance : EmitC Nrpd.NrpdRasterizerState.codec Nrpd.NrpdRasterizerState.image := by
  unfold Nrpd.NrpdRasterizerState.codec; exact EmitC.of inferInstance (fun _ => rfl)

instance : EmitC Nrpd.DepthState.codec Nrpd.DepthState.image := by
  unfold Nrpd.DepthState.codec; exact EmitC.of inferInstance (fun _ => rfl)

instance : EmitC Nrpd.NrpdBlendState.codec Nrpd.NrpdBlendState.image := by
  unfold Nrpd.NrpdBlendState.codec; exact EmitC.of inferInstance (fun _ => rfl)

instance : EmitU Nrpd.State.tagged Nrpd.State.number Nrpd.State.target where
  target v := by
    cases v with
    | Sampler v => exact variant_emit (c := Nrpd.NrpdSampler.codec) 8 v
    | RasterizerState v => exact variant_emit (c := Nrpd.NrpdRasterizerState.codec) 8 v
    | DepthState v => exact variant_emit (c := Nrpd.DepthState.codec) 8 v
    | BlendState v => exact variant_emit (c := Nrpd.NrpdBlendState.codec) 8 v
  align := rfl
  tag v := by cases v <;> exact ⟨rfl, by simp [Nrpd.State.number]⟩

instance : EmitC Nrpd.RenderPassData0.codec Nrpd.RenderPassData0.image := by
  unfold Nrpd.RenderPassData0.codec; exact EmitC.of inferInstance (fun _ => rfl)

instance : EmitC Nrpd.RenderPassData1.codec Nrpd.RenderPassData1.image := by
  unfold Nrpd.RenderPassData1.codec; exact EmitC.of inferInstance (fun _ => rfl)

instance : EmitC Nrpd.RenderPassData2.codec Nrpd.RenderPassData2.image := by
  unfold Nrpd.RenderPassData2.codec; exact EmitC.of inferInstance (fun _ => rfl)

instance : EmitC Nrpd.Unk8Data.codec Nrpd.Unk8Data.image := by
  unfold Nrpd.Unk8Data.codec; exact EmitC.of inferInstance (fun _ => rfl)

instance : EmitC Nrpd.RenderPassData3.codec Nrpd.RenderPassData3.image := by
  unfold Nrpd.RenderPassData3.codec; exact EmitC.of inferInstance (fun _ => rfl)

instance : EmitC Nrpd.RenderPassData8.codec Nrpd.RenderPassData8.image := by
  unfold Nrpd.RenderPassData8.codec; exact EmitC.of inferInstance (fun _ => rfl)

instance : EmitC Nrpd.ColorClear.codec Nrpd.ColorClear.image := by
  unfold Nrpd.ColorClear.codec; exact EmitC.of inferInstance (fun _ => rfl)

instance : EmitC Nrpd.DepthStencilClear.codec Nrpd.DepthStencilClear.image := by
  unfold Nrpd.DepthStencilClear.codec; exact EmitC.of inferInstance (fun _ => rfl)

instance : EmitC Nrpd.Viewport.codec Nrpd.Viewport.image := by
  unfold Nrpd.Viewport.codec; exact EmitC.of inferInstance (fun _ => rfl)

instance : EmitC Nrpd.RenderPassData13.codec Nrpd.RenderPassData13.image := by
  unfold Nrpd.RenderPassData13.codec; exact EmitC.of inferInstance (fun _ => rfl)

instance : EmitC Nrpd.StringPair.codec Nrpd.StringPair.image := by
  unfold Nrpd.StringPair.codec; exact EmitC.of inferInstance (fun _ => rfl)

instance : EmitC Nrpd.RenderPassData19.codec Nrpd.RenderPassData19.image := by
  unfold Nrpd.RenderPassData19.codec; exact EmitC.of inferInstance (fun _ => rfl)

instance : EmitU Nrpd.RenderPassData.tagged Nrpd.RenderPassData.number Nrpd.RenderPassData.target where
  target v := by
    cases v with
    | FramebufferRtp v => exact variant_emit (c := Nrpd.RenderPassData0.codec) 8 v
    | PassUnk1 v => exact variant_emit (c := Nrpd.RenderPassData1.codec) 8 v
    | UnkTexture1 v => exact variant_emit (c := Nrpd.RenderPassData2.codec) 8 v
    | UnkLight v => exact variant_emit (c := Nrpd.RenderPassData3.codec) 8 v
    | Unk8 v => exact variant_emit (c := Nrpd.RenderPassData8.codec) 8 v
    | ColorClear v => exact variant_emit (c := Nrpd.ColorClear.codec) 8 v
    | DepthStencilClear v => exact variant_emit (c := Nrpd.DepthStencilClear.codec) 8 v
    | Viewport v => exact variant_emit (c := Nrpd.Viewport.codec) 8 v
    | Sampler v => exact variant_emit (c := Nrpd.RenderPassData13.codec) 8 v
    | BlendState v => exact variant_emit (c := Nrpd.StringPair.codec) 8 v
    | RasterizerState v => exact variant_emit (c := Nrpd.StringPair.codec) 8 v
    | DepthStencilState v => exact variant_emit (c := Nrpd.StringPair.codec) 8 v
    | FramebufferRenderTarget v => exact variant_emit (c := ssbhString) 8 v
    | FramebufferDepthStencil v => exact variant_emit (c := ssbhString) 8 v
    | UnkTexture2 v => exact variant_emit (c := Nrpd.RenderPassData19.codec) 8 v
  align := rfl
  tag v := by cases v <;> exact ⟨rfl, by simp [Nrpd.RenderPassData.number]⟩

instance : EmitC Nrpd.Unk3Data.codec Nrpd.Unk3Data.image := by
  unfold Nrpd.Unk3Data.codec; exact EmitC.of inferInstance (fun _ => rfl)

instance : EmitU Nrpd.RenderPassUnkData.tagged Nrpd.RenderPassUnkData.number Nrpd.RenderPassUnkData.target where
  target v := by
    cases v with
    | UnkDataUnk0 v => exact unit_emit 8 v
    | UnkDataUnk3 v => exact variant_emit (c := Nrpd.Unk3Data.codec) 8 v
  align := rfl
  tag v := by cases v <;> exact ⟨rfl, by simp [Nrpd.RenderPassUnkData.number]⟩

instance : EmitC Nrpd.RenderPassContainer.codec Nrpd.RenderPassContainer.image := by
  unfold Nrpd.RenderPassContainer.codec; exact EmitC.of inferInstance (fun _ => rfl)

instance : EmitC Nrpd.UnkItem20.codec Nrpd.UnkItem20.image := by
  unfold Nrpd.UnkItem20.codec; exact EmitC.of inferInstance (fun _ => rfl)

instance : EmitC Nrpd.UnkItem21.codec Nrpd.UnkItem21.image := by
  unfold Nrpd.UnkItem21.codec; exact EmitC.of inferInstance (fun _ => rfl)

instance : EmitC Nrpd.UnkItem22.codec Nrpd.UnkItem22.image := by
  unfold Nrpd.UnkItem22.codec; exact EmitC.of inferInstance (fun _ => rfl)

instance : EmitC Nrpd.UnkItem24.codec Nrpd.UnkItem24.image := by
  unfold Nrpd.UnkItem24.codec; exact EmitC.of inferInstance (fun _ => rfl)

instance : EmitU Nrpd.UnkItem2.tagged Nrpd.UnkItem2.number Nrpd.UnkItem2.target where
  target v := by
    cases v with
    | UnkItem20 v => exact variant_emit (c := Nrpd.UnkItem20.codec) 8 v
    | UnkItem21 v => exact variant_emit (c := Nrpd.UnkItem21.codec) 8 v
    | UnkItem22 v => exact variant_emit (c := Nrpd.UnkItem22.codec) 8 v
    | UnkItem24 v => exact variant_emit (c := Nrpd.UnkItem24.codec) 8 v
  align := rfl
  tag v := by cases v <;> exact ⟨rfl, by simp [Nrpd.UnkItem2.number]⟩

instance : EmitC Nrpd.UnkItem3.codec Nrpd.UnkItem3.image := by
  unfold Nrpd.UnkItem3.codec; exact EmitC.of inferInstance (fun _ => rfl)

instance : EmitC Nrpd.UnkItem1.codec Nrpd.UnkItem1.image := by
  unfold Nrpd.UnkItem1.codec; exact EmitC.of inferInstance (fun _ => rfl)

instance : EmitC Nrpd.V16Data.codec Nrpd.V16Data.image := by
  unfold Nrpd.V16Data.codec; exact EmitC.of inferInstance (fun _ => rfl)

instance : EmitFile Nrpd Nrpd.image where
  emits v := by
    cases v with
    | V16 v => exact (inferInstance : EmitC Nrpd.V16Data.codec _).emits v
  head v := by cases v <;> exact ⟨rfl, rfl, rfl, rfl⟩
  size v := by
    cases v with
    | V16 v => exact (inferInstance : EmitC Nrpd.V16Data.codec _).size v

end Verif
