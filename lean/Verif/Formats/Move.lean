import Verif.Lib.Move
import Verif.Formats.Ssbh
/-!
# The ten formats in the middle of a stream

Written by tools/gen_move.py.
-/

namespace Verif

/-- A format which can be moved by multiples of 16. -/
class MoveF (f : Format α) : Prop where
  align : ∀ v, f.alignAfter v ∣ 16
  write : ∀ v k L w w1, 16 ∣ k → Moved k L w w1 → MovedW k L (f.write v w) (f.write v w1)
  read : ∀ major minor pre b p,
    MovedR pre.length (f.read major minor b p) (f.read major minor (pre ++ b) (p + pre.length))

instance : Move Vector3.codec := by unfold Vector3.codec; infer_instance
instance : Move Matrix3x3.codec := by unfold Matrix3x3.codec; infer_instance
instance : Move Vector4.codec := by unfold Vector4.codec; infer_instance
instance : Move Color4f.codec := by unfold Color4f.codec; infer_instance
instance : Move Matrix4x4.codec := by unfold Matrix4x4.codec; infer_instance
instance : Move Nlst.V10Data.codec := by unfold Nlst.V10Data.codec; infer_instance
instance : MoveF Nlst.format where
  align v := by cases v <;> simp only [Nlst.format] <;> decide
  write v k L w w1 hk h := by
    cases v with
    | V10 v => exact Move.write (c := Nlst.V10Data.codec) v k L w w1 hk h
  read major minor pre b p := by
    simp only [Nlst.format]
    refine ite_move (mapRead_move (Move.read (c := Nlst.V10Data.codec) pre b p)) ?_
    exact .error
instance : Move Shdr.ShaderStage.codec := by unfold Shdr.ShaderStage.codec; infer_instance
instance : Move Shdr.Shader.codec := by unfold Shdr.Shader.codec; infer_instance
instance : Move Shdr.V12Data.codec := by unfold Shdr.V12Data.codec; infer_instance
instance : MoveF Shdr.format where
  align v := by cases v <;> simp only [Shdr.format] <;> decide
  write v k L w w1 hk h := by
    cases v with
    | V12 v => exact Move.write (c := Shdr.V12Data.codec) v k L w w1 hk h
  read major minor pre b p := by
    simp only [Shdr.format]
    refine ite_move (mapRead_move (Move.read (c := Shdr.V12Data.codec) pre b p)) ?_
    exact .error
instance : Move Modl.ModlEntry.codec := by unfold Modl.ModlEntry.codec; infer_instance
instance : Move Modl.V17Data.codec := by unfold Modl.V17Data.codec; infer_instance
instance : MoveF Modl.format where
  align v := by cases v <;> simp only [Modl.format] <;> decide
  write v k L w w1 hk h := by
    cases v with
    | V17 v => exact Move.write (c := Modl.V17Data.codec) v k L w w1 hk h
  read major minor pre b p := by
    simp only [Modl.format]
    refine ite_move (mapRead_move (Move.read (c := Modl.V17Data.codec) pre b p)) ?_
    exact .error
instance : Move Skel.BillboardType.codec := by unfold Skel.BillboardType.codec; infer_instance
instance : Move Skel.SkelEntryFlags.codec := by unfold Skel.SkelEntryFlags.codec; infer_instance
instance : Move Skel.SkelBoneEntry.codec := by unfold Skel.SkelBoneEntry.codec; infer_instance
instance : Move Skel.V10Data.codec := by unfold Skel.V10Data.codec; infer_instance
instance : MoveF Skel.format where
  align v := by cases v <;> simp only [Skel.format] <;> decide
  write v k L w w1 hk h := by
    cases v with
    | V10 v => exact Move.write (c := Skel.V10Data.codec) v k L w w1 hk h
  read major minor pre b p := by
    simp only [Skel.format]
    refine ite_move (mapRead_move (Move.read (c := Skel.V10Data.codec) pre b p)) ?_
    exact .error
instance : Move Hlpb.AimConstraint.codec := by unfold Hlpb.AimConstraint.codec; infer_instance
instance : Move Hlpb.OrientConstraint.codec := by unfold Hlpb.OrientConstraint.codec; infer_instance
instance : Move Hlpb.ConstraintType.codec := by unfold Hlpb.ConstraintType.codec; infer_instance
instance : Move Hlpb.V11Data.codec := by unfold Hlpb.V11Data.codec; infer_instance
instance : MoveF Hlpb.format where
  align v := by cases v <;> simp only [Hlpb.format] <;> decide
  write v k L w w1 hk h := by
    cases v with
    | V11 v => exact Move.write (c := Hlpb.V11Data.codec) v k L w w1 hk h
  read major minor pre b p := by
    simp only [Hlpb.format]
    refine ite_move (mapRead_move (Move.read (c := Hlpb.V11Data.codec) pre b p)) ?_
    exact .error
instance : Move Nufx.ShaderStages.codec := by unfold Nufx.ShaderStages.codec; infer_instance
instance : Move Nufx.MaterialParameter.codec := by unfold Nufx.MaterialParameter.codec; infer_instance
instance : Move Nufx.ShaderProgramV0.codec := by unfold Nufx.ShaderProgramV0.codec; infer_instance
instance : Move Nufx.UnkItem.codec := by unfold Nufx.UnkItem.codec; infer_instance
instance : Move Nufx.NufxV0.codec := by unfold Nufx.NufxV0.codec; infer_instance
instance : Move Nufx.VertexAttribute.codec := by unfold Nufx.VertexAttribute.codec; infer_instance
instance : Move Nufx.ShaderProgramV1.codec := by unfold Nufx.ShaderProgramV1.codec; infer_instance
instance : Move Nufx.NufxV1.codec := by unfold Nufx.NufxV1.codec; infer_instance
instance : MoveF Nufx.format where
  align v := by cases v <;> simp only [Nufx.format] <;> decide
  write v k L w w1 hk h := by
    cases v with
    | V0 v => exact Move.write (c := (struct 8 Nufx.NufxV0.codec)) v k L w w1 hk h
    | V1 v => exact Move.write (c := (struct 8 Nufx.NufxV1.codec)) v k L w w1 hk h
  read major minor pre b p := by
    simp only [Nufx.format]
    refine ite_move (mapRead_move (Move.read (c := (struct 8 Nufx.NufxV0.codec)) pre b p)) ?_
    refine ite_move (mapRead_move (Move.read (c := (struct 8 Nufx.NufxV1.codec)) pre b p)) ?_
    exact .error
instance : Move Anim.TrackTypeV1.codec := by unfold Anim.TrackTypeV1.codec; infer_instance
instance : Move Anim.Property.codec := by unfold Anim.Property.codec; infer_instance
instance : Move Anim.TrackV1.codec := by unfold Anim.TrackV1.codec; infer_instance
instance : Move Anim.GroupType.codec := by unfold Anim.GroupType.codec; infer_instance
instance : Move Anim.TrackTypeV2.codec := by unfold Anim.TrackTypeV2.codec; infer_instance
instance : Move Anim.CompressionType.codec := by unfold Anim.CompressionType.codec; infer_instance
instance : Move Anim.TrackFlags.codec := by unfold Anim.TrackFlags.codec; infer_instance
instance : Move Anim.TransformFlags.codec := by unfold Anim.TransformFlags.codec; infer_instance
instance : Move Anim.TrackV2.codec := by unfold Anim.TrackV2.codec; infer_instance
instance : Move Anim.Node.codec := by unfold Anim.Node.codec; infer_instance
instance : Move Anim.Group.codec := by unfold Anim.Group.codec; infer_instance
instance : Move Anim.UnkSubItem.codec := by unfold Anim.UnkSubItem.codec; infer_instance
instance : Move Anim.UnkItem1.codec := by unfold Anim.UnkItem1.codec; infer_instance
instance : Move Anim.UnkItem2.codec := by unfold Anim.UnkItem2.codec; infer_instance
instance : Move Anim.UnkData.codec := by unfold Anim.UnkData.codec; infer_instance
instance : Move Anim.V12Data.codec := by unfold Anim.V12Data.codec; infer_instance
instance : Move Anim.V20Data.codec := by unfold Anim.V20Data.codec; infer_instance
instance : Move Anim.V21Data.codec := by unfold Anim.V21Data.codec; infer_instance
instance : MoveF Anim.format where
  align v := by cases v <;> simp only [Anim.format] <;> decide
  write v k L w w1 hk h := by
    cases v with
    | V12 v => exact Move.write (c := Anim.V12Data.codec) v k L w w1 hk h
    | V20 v => exact Move.write (c := Anim.V20Data.codec) v k L w w1 hk h
    | V21 v => exact Move.write (c := Anim.V21Data.codec) v k L w w1 hk h
  read major minor pre b p := by
    simp only [Anim.format]
    refine ite_move (mapRead_move (Move.read (c := Anim.V12Data.codec) pre b p)) ?_
    refine ite_move (mapRead_move (Move.read (c := Anim.V20Data.codec) pre b p)) ?_
    refine ite_move (mapRead_move (Move.read (c := Anim.V21Data.codec) pre b p)) ?_
    exact .error
instance : Move Mesh.BoundingSphere.codec := by unfold Mesh.BoundingSphere.codec; infer_instance
instance : Move Mesh.BoundingVolume.codec := by unfold Mesh.BoundingVolume.codec; infer_instance
instance : Move Mesh.OrientedBoundingBox.codec := by unfold Mesh.OrientedBoundingBox.codec; infer_instance
instance : Move Mesh.BoundingInfo.codec := by unfold Mesh.BoundingInfo.codec; infer_instance
instance : Move Mesh.DrawElementType.codec := by unfold Mesh.DrawElementType.codec; infer_instance
instance : Move Mesh.DepthFlags.codec := by unfold Mesh.DepthFlags.codec; infer_instance
instance {A : Type} {aC : Codec A} [Move aC] : Move (Mesh.MeshObject.codec aC) := by unfold Mesh.MeshObject.codec; infer_instance
instance : Move Mesh.RiggingFlags.codec := by unfold Mesh.RiggingFlags.codec; infer_instance
instance {W2 : Type} {w2C : Codec W2} [Move w2C] : Move (Mesh.BoneBuffer.codec w2C) := by unfold Mesh.BoneBuffer.codec; infer_instance
instance {W3 : Type} {w3C : Codec W3} [Move w3C] : Move (Mesh.RiggingGroup.codec w3C) := by unfold Mesh.RiggingGroup.codec; infer_instance
instance {A : Type} {aC : Codec A} [Move aC] {W1 : Type} {w1C : Codec W1} [Move w1C] : Move (Mesh.MeshInner.codec aC w1C) := by unfold Mesh.MeshInner.codec; infer_instance
instance : Move Mesh.AttributeUsageV8.codec := by unfold Mesh.AttributeUsageV8.codec; infer_instance
instance : Move Mesh.AttributeDataTypeV8.codec := by unfold Mesh.AttributeDataTypeV8.codec; infer_instance
instance : Move Mesh.AttributeV8.codec := by unfold Mesh.AttributeV8.codec; infer_instance
instance : Move Mesh.VertexWeightV8.codec := by unfold Mesh.VertexWeightV8.codec; infer_instance
instance : Move Mesh.AttributeUsageV9.codec := by unfold Mesh.AttributeUsageV9.codec; infer_instance
instance : Move Mesh.AttributeV9.codec := by unfold Mesh.AttributeV9.codec; infer_instance
instance : Move Mesh.AttributeDataTypeV10.codec := by unfold Mesh.AttributeDataTypeV10.codec; infer_instance
instance : Move Mesh.AttributeV10.codec := by unfold Mesh.AttributeV10.codec; infer_instance
instance : MoveF Mesh.format where
  align v := by cases v <;> simp only [Mesh.format] <;> decide
  write v k L w w1 hk h := by
    cases v with
    | V8 v => exact Move.write (c := (struct 8 (padAfterWrite 16 (Mesh.MeshInner.codec Mesh.AttributeV8.codec (array Mesh.VertexWeightV8.codec))))) v k L w w1 hk h
    | V9 v => exact Move.write (c := (struct 8 (padAfterWrite 16 (Mesh.MeshInner.codec Mesh.AttributeV9.codec (array Mesh.VertexWeightV8.codec))))) v k L w w1 hk h
    | V10 v => exact Move.write (c := (struct 8 (padAfterWrite 16 (Mesh.MeshInner.codec Mesh.AttributeV10.codec byteBuffer)))) v k L w w1 hk h
  read major minor pre b p := by
    simp only [Mesh.format]
    refine ite_move (mapRead_move (Move.read (c := (struct 8 (padAfterWrite 16 (Mesh.MeshInner.codec Mesh.AttributeV8.codec (array Mesh.VertexWeightV8.codec))))) pre b p)) ?_
    refine ite_move (mapRead_move (Move.read (c := (struct 8 (padAfterWrite 16 (Mesh.MeshInner.codec Mesh.AttributeV9.codec (array Mesh.VertexWeightV8.codec))))) pre b p)) ?_
    refine ite_move (mapRead_move (Move.read (c := (struct 8 (padAfterWrite 16 (Mesh.MeshInner.codec Mesh.AttributeV10.codec byteBuffer)))) pre b p)) ?_
    exact .error
instance : Move Matl.ParamId.codec := by unfold Matl.ParamId.codec; infer_instance
instance : Move Matl.WrapMode.codec := by unfold Matl.WrapMode.codec; infer_instance
instance : Move Matl.MinFilter.codec := by unfold Matl.MinFilter.codec; infer_instance
instance : Move Matl.MagFilter.codec := by unfold Matl.MagFilter.codec; infer_instance
instance : Move Matl.FilteringType.codec := by unfold Matl.FilteringType.codec; infer_instance
instance : Move Matl.MaxAnisotropy.codec := by unfold Matl.MaxAnisotropy.codec; infer_instance
instance : Move Matl.Sampler.codec := by unfold Matl.Sampler.codec; infer_instance
instance : Move Matl.UvTransform.codec := by unfold Matl.UvTransform.codec; infer_instance
instance : Move Matl.BlendFactor.codec := by unfold Matl.BlendFactor.codec; infer_instance
instance : Move Matl.BlendOperation.codec := by unfold Matl.BlendOperation.codec; infer_instance
instance : Move Matl.BlendStateV15.codec := by unfold Matl.BlendStateV15.codec; infer_instance
instance : Move Matl.CullMode.codec := by unfold Matl.CullMode.codec; infer_instance
instance : Move Matl.RasterizerStateV15.codec := by unfold Matl.RasterizerStateV15.codec; infer_instance
instance : MoveT Matl.ParamV15.tagged where
  align := by decide
  write v k L w w1 hk h := by
    cases v with
    | Float v => exact Move.write (c := (struct 8 f32)) v k L w w1 hk h
    | Boolean v => exact Move.write (c := (struct 8 u32)) v k L w w1 hk h
    | Vector4 v => exact Move.write (c := (struct 8 Vector4.codec)) v k L w w1 hk h
    | Unk7 v => exact Move.write (c := (struct 8 Color4f.codec)) v k L w w1 hk h
    | String v => exact Move.write (c := (struct 8 ssbhString)) v k L w w1 hk h
    | Sampler v => exact Move.write (c := (struct 8 Matl.Sampler.codec)) v k L w w1 hk h
    | UvTransform v => exact Move.write (c := (struct 8 Matl.UvTransform.codec)) v k L w w1 hk h
    | BlendState v => exact Move.write (c := (struct 8 Matl.BlendStateV15.codec)) v k L w w1 hk h
    | RasterizerState v => exact Move.write (c := (struct 8 Matl.RasterizerStateV15.codec)) v k L w w1 hk h
  read tag pre b p := by
    simp only [Matl.ParamV15.tagged]
    refine ite_move (mapRead_move (Move.read (c := (struct 8 f32)) pre b p)) ?_
    refine ite_move (mapRead_move (Move.read (c := (struct 8 u32)) pre b p)) ?_
    refine ite_move (mapRead_move (Move.read (c := (struct 8 Vector4.codec)) pre b p)) ?_
    refine ite_move (mapRead_move (Move.read (c := (struct 8 Color4f.codec)) pre b p)) ?_
    refine ite_move (mapRead_move (Move.read (c := (struct 8 ssbhString)) pre b p)) ?_
    refine ite_move (mapRead_move (Move.read (c := (struct 8 Matl.Sampler.codec)) pre b p)) ?_
    refine ite_move (mapRead_move (Move.read (c := (struct 8 Matl.UvTransform.codec)) pre b p)) ?_
    refine ite_move (mapRead_move (Move.read (c := (struct 8 Matl.BlendStateV15.codec)) pre b p)) ?_
    refine ite_move (mapRead_move (Move.read (c := (struct 8 Matl.RasterizerStateV15.codec)) pre b p)) ?_
    exact .error
instance : Move Matl.AttributeV15.codec := by unfold Matl.AttributeV15.codec; infer_instance
instance : Move Matl.MatlEntryV15.codec := by unfold Matl.MatlEntryV15.codec; infer_instance
instance : Move Matl.BlendStateV16.codec := by unfold Matl.BlendStateV16.codec; infer_instance
instance : Move Matl.FillMode.codec := by unfold Matl.FillMode.codec; infer_instance
instance : Move Matl.RasterizerStateV16.codec := by unfold Matl.RasterizerStateV16.codec; infer_instance
instance : MoveT Matl.ParamV16.tagged where
  align := by decide
  write v k L w w1 hk h := by
    cases v with
    | Float v => exact Move.write (c := (struct 8 f32)) v k L w w1 hk h
    | Boolean v => exact Move.write (c := (struct 8 u32)) v k L w w1 hk h
    | Vector4 v => exact Move.write (c := (struct 8 Vector4.codec)) v k L w w1 hk h
    | Unk7 v => exact Move.write (c := (struct 8 Color4f.codec)) v k L w w1 hk h
    | String v => exact Move.write (c := (struct 8 ssbhString)) v k L w w1 hk h
    | Sampler v => exact Move.write (c := (struct 8 Matl.Sampler.codec)) v k L w w1 hk h
    | UvTransform v => exact Move.write (c := (struct 8 Matl.UvTransform.codec)) v k L w w1 hk h
    | BlendState v => exact Move.write (c := (struct 8 Matl.BlendStateV16.codec)) v k L w w1 hk h
    | RasterizerState v => exact Move.write (c := (struct 8 Matl.RasterizerStateV16.codec)) v k L w w1 hk h
  read tag pre b p := by
    simp only [Matl.ParamV16.tagged]
    refine ite_move (mapRead_move (Move.read (c := (struct 8 f32)) pre b p)) ?_
    refine ite_move (mapRead_move (Move.read (c := (struct 8 u32)) pre b p)) ?_
    refine ite_move (mapRead_move (Move.read (c := (struct 8 Vector4.codec)) pre b p)) ?_
    refine ite_move (mapRead_move (Move.read (c := (struct 8 Color4f.codec)) pre b p)) ?_
    refine ite_move (mapRead_move (Move.read (c := (struct 8 ssbhString)) pre b p)) ?_
    refine ite_move (mapRead_move (Move.read (c := (struct 8 Matl.Sampler.codec)) pre b p)) ?_
    refine ite_move (mapRead_move (Move.read (c := (struct 8 Matl.UvTransform.codec)) pre b p)) ?_
    refine ite_move (mapRead_move (Move.read (c := (struct 8 Matl.BlendStateV16.codec)) pre b p)) ?_
    refine ite_move (mapRead_move (Move.read (c := (struct 8 Matl.RasterizerStateV16.codec)) pre b p)) ?_
    exact .error
instance : Move Matl.AttributeV16.codec := by unfold Matl.AttributeV16.codec; infer_instance
instance : Move Matl.MatlEntryV16.codec := by unfold Matl.MatlEntryV16.codec; infer_instance
instance : Move Matl.V15Data.codec := by unfold Matl.V15Data.codec; infer_instance
instance : Move Matl.V16Data.codec := by unfold Matl.V16Data.codec; infer_instance
instance : MoveF Matl.format where
  align v := by cases v <;> simp only [Matl.format] <;> decide
  write v k L w w1 hk h := by
    cases v with
    | V15 v => exact Move.write (c := Matl.V15Data.codec) v k L w w1 hk h
    | V16 v => exact Move.write (c := Matl.V16Data.codec) v k L w w1 hk h
  read major minor pre b p := by
    simp only [Matl.format]
    refine ite_move (mapRead_move (Move.read (c := Matl.V15Data.codec) pre b p)) ?_
    refine ite_move (mapRead_move (Move.read (c := Matl.V16Data.codec) pre b p)) ?_
    exact .error
instance : Move Nrpd.UnkFormat.codec := by unfold Nrpd.UnkFormat.codec; infer_instance
instance : Move Nrpd.Framebuffer0.codec := by unfold Nrpd.Framebuffer0.codec; infer_instance
instance : Move Nrpd.Framebuffer1.codec := by unfold Nrpd.Framebuffer1.codec; infer_instance
instance : Move Nrpd.UniformBuffer.codec := by unfold Nrpd.UniformBuffer.codec; infer_instance
instance : Move Nrpd.Framebuffer3.codec := by unfold Nrpd.Framebuffer3.codec; infer_instance
instance : Move Nrpd.Framebuffer4.codec := by unfold Nrpd.Framebuffer4.codec; infer_instance
instance : MoveT Nrpd.FrameBuffer.tagged where
  align := by decide
  write v k L w w1 hk h := by
    cases v with
    | Framebuffer0 v => exact Move.write (c := (struct 8 Nrpd.Framebuffer0.codec)) v k L w w1 hk h
    | Framebuffer1 v => exact Move.write (c := (struct 8 Nrpd.Framebuffer1.codec)) v k L w w1 hk h
    | UniformBuffer v => exact Move.write (c := (struct 8 Nrpd.UniformBuffer.codec)) v k L w w1 hk h
    | Framebuffer3 v => exact Move.write (c := (struct 8 Nrpd.Framebuffer3.codec)) v k L w w1 hk h
    | Framebuffer4 v => exact Move.write (c := (struct 8 Nrpd.Framebuffer4.codec)) v k L w w1 hk h
  read tag pre b p := by
    simp only [Nrpd.FrameBuffer.tagged]
    refine ite_move (mapRead_move (Move.read (c := (struct 8 Nrpd.Framebuffer0.codec)) pre b p)) ?_
    refine ite_move (mapRead_move (Move.read (c := (struct 8 Nrpd.Framebuffer1.codec)) pre b p)) ?_
    refine ite_move (mapRead_move (Move.read (c := (struct 8 Nrpd.UniformBuffer.codec)) pre b p)) ?_
    refine ite_move (mapRead_move (Move.read (c := (struct 8 Nrpd.Framebuffer3.codec)) pre b p)) ?_
    refine ite_move (mapRead_move (Move.read (c := (struct 8 Nrpd.Framebuffer4.codec)) pre b p)) ?_
    exact .error
instance : Move Nrpd.NrpdSampler.codec := by unfold Nrpd.NrpdSampler.codec; infer_instance
instance : Move Nrpd.NrpdRasterizerState.codec := by unfold Nrpd.NrpdRasterizerState.codec; infer_instance
instance : Move Nrpd.DepthState.codec := by unfold Nrpd.DepthState.codec; infer_instance
instance : Move Nrpd.NrpdBlendState.codec := by unfold Nrpd.NrpdBlendState.codec; infer_instance
instance : MoveT Nrpd.State.tagged where
  align := by decide
  write v k L w w1 hk h := by
    cases v with
    | Sampler v => exact Move.write (c := (struct 8 Nrpd.NrpdSampler.codec)) v k L w w1 hk h
    | RasterizerState v => exact Move.write (c := (struct 8 Nrpd.NrpdRasterizerState.codec)) v k L w w1 hk h
    | DepthState v => exact Move.write (c := (struct 8 Nrpd.DepthState.codec)) v k L w w1 hk h
    | BlendState v => exact Move.write (c := (struct 8 Nrpd.NrpdBlendState.codec)) v k L w w1 hk h
  read tag pre b p := by
    simp only [Nrpd.State.tagged]
    refine ite_move (mapRead_move (Move.read (c := (struct 8 Nrpd.NrpdSampler.codec)) pre b p)) ?_
    refine ite_move (mapRead_move (Move.read (c := (struct 8 Nrpd.NrpdRasterizerState.codec)) pre b p)) ?_
    refine ite_move (mapRead_move (Move.read (c := (struct 8 Nrpd.DepthState.codec)) pre b p)) ?_
    refine ite_move (mapRead_move (Move.read (c := (struct 8 Nrpd.NrpdBlendState.codec)) pre b p)) ?_
    exact .error
instance : Move Nrpd.RenderPassData0.codec := by unfold Nrpd.RenderPassData0.codec; infer_instance
instance : Move Nrpd.RenderPassData1.codec := by unfold Nrpd.RenderPassData1.codec; infer_instance
instance : Move Nrpd.RenderPassData2.codec := by unfold Nrpd.RenderPassData2.codec; infer_instance
instance : Move Nrpd.Unk8Data.codec := by unfold Nrpd.Unk8Data.codec; infer_instance
instance : Move Nrpd.RenderPassData3.codec := by unfold Nrpd.RenderPassData3.codec; infer_instance
instance : Move Nrpd.RenderPassData8.codec := by unfold Nrpd.RenderPassData8.codec; infer_instance
instance : Move Nrpd.ColorClear.codec := by unfold Nrpd.ColorClear.codec; infer_instance
instance : Move Nrpd.DepthStencilClear.codec := by unfold Nrpd.DepthStencilClear.codec; infer_instance
instance : Move Nrpd.Viewport.codec := by unfold Nrpd.Viewport.codec; infer_instance
instance : Move Nrpd.RenderPassData13.codec := by unfold Nrpd.RenderPassData13.codec; infer_instance
instance : Move Nrpd.StringPair.codec := by unfold Nrpd.StringPair.codec; infer_instance
instance : Move Nrpd.RenderPassData19.codec := by unfold Nrpd.RenderPassData19.codec; infer_instance
instance : MoveT Nrpd.RenderPassData.tagged where
  align := by decide
  write v k L w w1 hk h := by
    cases v with
    | FramebufferRtp v => exact Move.write (c := (struct 8 Nrpd.RenderPassData0.codec)) v k L w w1 hk h
    | PassUnk1 v => exact Move.write (c := (struct 8 Nrpd.RenderPassData1.codec)) v k L w w1 hk h
    | UnkTexture1 v => exact Move.write (c := (struct 8 Nrpd.RenderPassData2.codec)) v k L w w1 hk h
    | UnkLight v => exact Move.write (c := (struct 8 Nrpd.RenderPassData3.codec)) v k L w w1 hk h
    | Unk8 v => exact Move.write (c := (struct 8 Nrpd.RenderPassData8.codec)) v k L w w1 hk h
    | ColorClear v => exact Move.write (c := (struct 8 Nrpd.ColorClear.codec)) v k L w w1 hk h
    | DepthStencilClear v => exact Move.write (c := (struct 8 Nrpd.DepthStencilClear.codec)) v k L w w1 hk h
    | Viewport v => exact Move.write (c := (struct 8 Nrpd.Viewport.codec)) v k L w w1 hk h
    | Sampler v => exact Move.write (c := (struct 8 Nrpd.RenderPassData13.codec)) v k L w w1 hk h
    | BlendState v => exact Move.write (c := (struct 8 Nrpd.StringPair.codec)) v k L w w1 hk h
    | RasterizerState v => exact Move.write (c := (struct 8 Nrpd.StringPair.codec)) v k L w w1 hk h
    | DepthStencilState v => exact Move.write (c := (struct 8 Nrpd.StringPair.codec)) v k L w w1 hk h
    | FramebufferRenderTarget v => exact Move.write (c := (struct 8 ssbhString)) v k L w w1 hk h
    | FramebufferDepthStencil v => exact Move.write (c := (struct 8 ssbhString)) v k L w w1 hk h
    | UnkTexture2 v => exact Move.write (c := (struct 8 Nrpd.RenderPassData19.codec)) v k L w w1 hk h
  read tag pre b p := by
    simp only [Nrpd.RenderPassData.tagged]
    refine ite_move (mapRead_move (Move.read (c := (struct 8 Nrpd.RenderPassData0.codec)) pre b p)) ?_
    refine ite_move (mapRead_move (Move.read (c := (struct 8 Nrpd.RenderPassData1.codec)) pre b p)) ?_
    refine ite_move (mapRead_move (Move.read (c := (struct 8 Nrpd.RenderPassData2.codec)) pre b p)) ?_
    refine ite_move (mapRead_move (Move.read (c := (struct 8 Nrpd.RenderPassData3.codec)) pre b p)) ?_
    refine ite_move (mapRead_move (Move.read (c := (struct 8 Nrpd.RenderPassData8.codec)) pre b p)) ?_
    refine ite_move (mapRead_move (Move.read (c := (struct 8 Nrpd.ColorClear.codec)) pre b p)) ?_
    refine ite_move (mapRead_move (Move.read (c := (struct 8 Nrpd.DepthStencilClear.codec)) pre b p)) ?_
    refine ite_move (mapRead_move (Move.read (c := (struct 8 Nrpd.Viewport.codec)) pre b p)) ?_
    refine ite_move (mapRead_move (Move.read (c := (struct 8 Nrpd.RenderPassData13.codec)) pre b p)) ?_
    refine ite_move (mapRead_move (Move.read (c := (struct 8 Nrpd.StringPair.codec)) pre b p)) ?_
    refine ite_move (mapRead_move (Move.read (c := (struct 8 Nrpd.StringPair.codec)) pre b p)) ?_
    refine ite_move (mapRead_move (Move.read (c := (struct 8 Nrpd.StringPair.codec)) pre b p)) ?_
    refine ite_move (mapRead_move (Move.read (c := (struct 8 ssbhString)) pre b p)) ?_
    refine ite_move (mapRead_move (Move.read (c := (struct 8 ssbhString)) pre b p)) ?_
    refine ite_move (mapRead_move (Move.read (c := (struct 8 Nrpd.RenderPassData19.codec)) pre b p)) ?_
    exact .error
instance : Move Nrpd.Unk3Data.codec := by unfold Nrpd.Unk3Data.codec; infer_instance
instance : MoveT Nrpd.RenderPassUnkData.tagged where
  align := by decide
  write v k L w w1 hk h := by
    cases v with
    | UnkDataUnk0 v => exact Move.write (c := (struct 8 unitC)) v k L w w1 hk h
    | UnkDataUnk3 v => exact Move.write (c := (struct 8 Nrpd.Unk3Data.codec)) v k L w w1 hk h
  read tag pre b p := by
    simp only [Nrpd.RenderPassUnkData.tagged]
    refine ite_move (mapRead_move (Move.read (c := (struct 8 unitC)) pre b p)) ?_
    refine ite_move (mapRead_move (Move.read (c := (struct 8 Nrpd.Unk3Data.codec)) pre b p)) ?_
    exact .error
instance : Move Nrpd.RenderPassContainer.codec := by unfold Nrpd.RenderPassContainer.codec; infer_instance
instance : Move Nrpd.UnkItem20.codec := by unfold Nrpd.UnkItem20.codec; infer_instance
instance : Move Nrpd.UnkItem21.codec := by unfold Nrpd.UnkItem21.codec; infer_instance
instance : Move Nrpd.UnkItem22.codec := by unfold Nrpd.UnkItem22.codec; infer_instance
instance : Move Nrpd.UnkItem24.codec := by unfold Nrpd.UnkItem24.codec; infer_instance
instance : MoveT Nrpd.UnkItem2.tagged where
  align := by decide
  write v k L w w1 hk h := by
    cases v with
    | UnkItem20 v => exact Move.write (c := (struct 8 Nrpd.UnkItem20.codec)) v k L w w1 hk h
    | UnkItem21 v => exact Move.write (c := (struct 8 Nrpd.UnkItem21.codec)) v k L w w1 hk h
    | UnkItem22 v => exact Move.write (c := (struct 8 Nrpd.UnkItem22.codec)) v k L w w1 hk h
    | UnkItem24 v => exact Move.write (c := (struct 8 Nrpd.UnkItem24.codec)) v k L w w1 hk h
  read tag pre b p := by
    simp only [Nrpd.UnkItem2.tagged]
    refine ite_move (mapRead_move (Move.read (c := (struct 8 Nrpd.UnkItem20.codec)) pre b p)) ?_
    refine ite_move (mapRead_move (Move.read (c := (struct 8 Nrpd.UnkItem21.codec)) pre b p)) ?_
    refine ite_move (mapRead_move (Move.read (c := (struct 8 Nrpd.UnkItem22.codec)) pre b p)) ?_
    refine ite_move (mapRead_move (Move.read (c := (struct 8 Nrpd.UnkItem24.codec)) pre b p)) ?_
    exact .error
instance : Move Nrpd.UnkItem3.codec := by unfold Nrpd.UnkItem3.codec; infer_instance
instance : Move Nrpd.UnkItem1.codec := by unfold Nrpd.UnkItem1.codec; infer_instance
instance : Move Nrpd.V16Data.codec := by unfold Nrpd.V16Data.codec; infer_instance
instance : MoveF Nrpd.format where
  align v := by cases v <;> simp only [Nrpd.format] <;> decide
  write v k L w w1 hk h := by
    cases v with
    | V16 v => exact Move.write (c := Nrpd.V16Data.codec) v k L w w1 hk h
  read major minor pre b p := by
    simp only [Nrpd.format]
    refine ite_move (mapRead_move (Move.read (c := Nrpd.V16Data.codec) pre b p)) ?_
    exact .error

end Verif
