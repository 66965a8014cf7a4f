import Verif.Lib.Cut
import Verif.Formats.Ssbh
/-!
# The ten formats with more or less input

Written by tools/gen_cut.py.
-/

namespace Verif

/-- A format whose reader does not mind more input. -/
class ExtF (f : Format α) : Prop where
  read : ∀ major minor b rest p, ExtR (f.read major minor b p) (f.read major minor (b ++ rest) p)

/-- A format which needs everything that was written but padding. -/
class CutFormat (f : Format α) : Prop where
  align : ∀ v, f.alignAfter v ≤ 8
  cut : ∀ v, CutAt (f.codec v) False v

instance : Ext Vector3.codec := by unfold Vector3.codec; infer_instance
instance : CutF Vector3.codec := by unfold Vector3.codec; infer_instance
instance : Ext Matrix3x3.codec := by unfold Matrix3x3.codec; infer_instance
instance : CutF Matrix3x3.codec := by unfold Matrix3x3.codec; infer_instance
instance : Ext Vector4.codec := by unfold Vector4.codec; infer_instance
instance : CutF Vector4.codec := by unfold Vector4.codec; infer_instance
instance : Ext Color4f.codec := by unfold Color4f.codec; infer_instance
instance : CutF Color4f.codec := by unfold Color4f.codec; infer_instance
instance : Ext Matrix4x4.codec := by unfold Matrix4x4.codec; infer_instance
instance : CutF Matrix4x4.codec := by unfold Matrix4x4.codec; infer_instance
instance : Ext Nlst.V10Data.codec := by unfold Nlst.V10Data.codec; infer_instance
instance : CutF Nlst.V10Data.codec := by unfold Nlst.V10Data.codec; infer_instance
instance : ExtF Nlst.format where
  read major minor b rest p := by
    simp only [Nlst.format]
    refine ite_ext (mapRead_ext (Ext.read (c := Nlst.V10Data.codec) b rest p)) ?_
    exact .error
instance : CutFormat Nlst.format where
  align v := by cases v <;> simp only [Nlst.format] <;> decide
  cut v := by
    cases v with
    | V10 v => exact variant_cut (a := Nlst.V10Data.codec) (f := Nlst.V10) (fun _ => rfl) (fun _ _ => rfl)
instance : Ext Shdr.ShaderStage.codec := by unfold Shdr.ShaderStage.codec; infer_instance
instance : CutF Shdr.ShaderStage.codec := by unfold Shdr.ShaderStage.codec; infer_instance
instance : Ends Shdr.ShaderStage.codec := by unfold Shdr.ShaderStage.codec; infer_instance
instance : Ext Shdr.Shader.codec := by unfold Shdr.Shader.codec; infer_instance
instance : CutF Shdr.Shader.codec := by unfold Shdr.Shader.codec; infer_instance
instance : Ext Shdr.V12Data.codec := by unfold Shdr.V12Data.codec; infer_instance
instance : CutF Shdr.V12Data.codec := by unfold Shdr.V12Data.codec; infer_instance
instance : ExtF Shdr.format where
  read major minor b rest p := by
    simp only [Shdr.format]
    refine ite_ext (mapRead_ext (Ext.read (c := Shdr.V12Data.codec) b rest p)) ?_
    exact .error
instance : CutFormat Shdr.format where
  align v := by cases v <;> simp only [Shdr.format] <;> decide
  cut v := by
    cases v with
    | V12 v => exact variant_cut (a := Shdr.V12Data.codec) (f := Shdr.V12) (fun _ => rfl) (fun _ _ => rfl)
instance : Ext Modl.ModlEntry.codec := by unfold Modl.ModlEntry.codec; infer_instance
instance : CutF Modl.ModlEntry.codec := by unfold Modl.ModlEntry.codec; infer_instance
instance : Ext Modl.V17Data.codec := by unfold Modl.V17Data.codec; infer_instance
instance : CutF Modl.V17Data.codec := by unfold Modl.V17Data.codec; infer_instance
instance : ExtF Modl.format where
  read major minor b rest p := by
    simp only [Modl.format]
    refine ite_ext (mapRead_ext (Ext.read (c := Modl.V17Data.codec) b rest p)) ?_
    exact .error
instance : CutFormat Modl.format where
  align v := by cases v <;> simp only [Modl.format] <;> decide
  cut v := by
    cases v with
    | V17 v => exact variant_cut (a := Modl.V17Data.codec) (f := Modl.V17) (fun _ => rfl) (fun _ _ => rfl)
instance : Ext Skel.BillboardType.codec := by unfold Skel.BillboardType.codec; infer_instance
instance : CutF Skel.BillboardType.codec := by unfold Skel.BillboardType.codec; infer_instance
instance : Ends Skel.BillboardType.codec := by unfold Skel.BillboardType.codec; infer_instance
instance : Ext Skel.SkelEntryFlags.codec := by unfold Skel.SkelEntryFlags.codec; infer_instance
instance : CutF Skel.SkelEntryFlags.codec := by unfold Skel.SkelEntryFlags.codec; infer_instance
instance : Ext Skel.SkelBoneEntry.codec := by unfold Skel.SkelBoneEntry.codec; infer_instance
instance : CutF Skel.SkelBoneEntry.codec := by unfold Skel.SkelBoneEntry.codec; infer_instance
instance : Ext Skel.V10Data.codec := by unfold Skel.V10Data.codec; infer_instance
instance : CutF Skel.V10Data.codec := by unfold Skel.V10Data.codec; infer_instance
instance : ExtF Skel.format where
  read major minor b rest p := by
    simp only [Skel.format]
    refine ite_ext (mapRead_ext (Ext.read (c := Skel.V10Data.codec) b rest p)) ?_
    exact .error
instance : CutFormat Skel.format where
  align v := by cases v <;> simp only [Skel.format] <;> decide
  cut v := by
    cases v with
    | V10 v => exact variant_cut (a := Skel.V10Data.codec) (f := Skel.V10) (fun _ => rfl) (fun _ _ => rfl)
instance : Ext Hlpb.AimConstraint.codec := by unfold Hlpb.AimConstraint.codec; infer_instance
instance : CutF Hlpb.AimConstraint.codec := by unfold Hlpb.AimConstraint.codec; infer_instance
instance : Ext Hlpb.OrientConstraint.codec := by unfold Hlpb.OrientConstraint.codec; infer_instance
instance : CutF Hlpb.OrientConstraint.codec := by unfold Hlpb.OrientConstraint.codec; infer_instance
instance : Ext Hlpb.ConstraintType.codec := by unfold Hlpb.ConstraintType.codec; infer_instance
instance : CutF Hlpb.ConstraintType.codec := by unfold Hlpb.ConstraintType.codec; infer_instance
instance : Ends Hlpb.ConstraintType.codec := by unfold Hlpb.ConstraintType.codec; infer_instance
instance : Ext Hlpb.V11Data.codec := by unfold Hlpb.V11Data.codec; infer_instance
instance : CutF Hlpb.V11Data.codec := by unfold Hlpb.V11Data.codec; infer_instance
instance : ExtF Hlpb.format where
  read major minor b rest p := by
    simp only [Hlpb.format]
    refine ite_ext (mapRead_ext (Ext.read (c := Hlpb.V11Data.codec) b rest p)) ?_
    exact .error
instance : CutFormat Hlpb.format where
  align v := by cases v <;> simp only [Hlpb.format] <;> decide
  cut v := by
    cases v with
    | V11 v => exact variant_cut (a := Hlpb.V11Data.codec) (f := Hlpb.V11) (fun _ => rfl) (fun _ _ => rfl)
instance : Ext Nufx.ShaderStages.codec := by unfold Nufx.ShaderStages.codec; infer_instance
instance : CutF Nufx.ShaderStages.codec := by unfold Nufx.ShaderStages.codec; infer_instance
instance : Ext Nufx.MaterialParameter.codec := by unfold Nufx.MaterialParameter.codec; infer_instance
instance : CutF Nufx.MaterialParameter.codec := by unfold Nufx.MaterialParameter.codec; infer_instance
instance : Ext Nufx.ShaderProgramV0.codec := by unfold Nufx.ShaderProgramV0.codec; infer_instance
instance : CutF Nufx.ShaderProgramV0.codec := by unfold Nufx.ShaderProgramV0.codec; infer_instance
instance : Ext Nufx.UnkItem.codec := by unfold Nufx.UnkItem.codec; infer_instance
instance : CutF Nufx.UnkItem.codec := by unfold Nufx.UnkItem.codec; infer_instance
instance : Ext Nufx.NufxV0.codec := by unfold Nufx.NufxV0.codec; infer_instance
instance : CutF Nufx.NufxV0.codec := by unfold Nufx.NufxV0.codec; infer_instance
instance : Ext Nufx.VertexAttribute.codec := by unfold Nufx.VertexAttribute.codec; infer_instance
instance : CutF Nufx.VertexAttribute.codec := by unfold Nufx.VertexAttribute.codec; infer_instance
instance : Ext Nufx.ShaderProgramV1.codec := by unfold Nufx.ShaderProgramV1.codec; infer_instance
instance : CutF Nufx.ShaderProgramV1.codec := by unfold Nufx.ShaderProgramV1.codec; infer_instance
instance : Ext Nufx.NufxV1.codec := by unfold Nufx.NufxV1.codec; infer_instance
instance : CutF Nufx.NufxV1.codec := by unfold Nufx.NufxV1.codec; infer_instance
instance : ExtF Nufx.format where
  read major minor b rest p := by
    simp only [Nufx.format]
    refine ite_ext (mapRead_ext (Ext.read (c := (struct 8 Nufx.NufxV0.codec)) b rest p)) ?_
    refine ite_ext (mapRead_ext (Ext.read (c := (struct 8 Nufx.NufxV1.codec)) b rest p)) ?_
    exact .error
instance : CutFormat Nufx.format where
  align v := by cases v <;> simp only [Nufx.format] <;> decide
  cut v := by
    cases v with
    | V0 v => exact variant_cut (a := (struct 8 Nufx.NufxV0.codec)) (f := Nufx.V0) (fun _ => rfl) (fun _ _ => rfl)
    | V1 v => exact variant_cut (a := (struct 8 Nufx.NufxV1.codec)) (f := Nufx.V1) (fun _ => rfl) (fun _ _ => rfl)
instance : Ext Anim.TrackTypeV1.codec := by unfold Anim.TrackTypeV1.codec; infer_instance
instance : CutF Anim.TrackTypeV1.codec := by unfold Anim.TrackTypeV1.codec; infer_instance
instance : Ends Anim.TrackTypeV1.codec := by unfold Anim.TrackTypeV1.codec; infer_instance
instance : Ext Anim.Property.codec := by unfold Anim.Property.codec; infer_instance
instance : CutF Anim.Property.codec := by unfold Anim.Property.codec; infer_instance
instance : Ext Anim.TrackV1.codec := by unfold Anim.TrackV1.codec; infer_instance
instance : CutF Anim.TrackV1.codec := by unfold Anim.TrackV1.codec; infer_instance
instance : Ext Anim.GroupType.codec := by unfold Anim.GroupType.codec; infer_instance
instance : CutF Anim.GroupType.codec := by unfold Anim.GroupType.codec; infer_instance
instance : Ends Anim.GroupType.codec := by unfold Anim.GroupType.codec; infer_instance
instance : Ext Anim.TrackTypeV2.codec := by unfold Anim.TrackTypeV2.codec; infer_instance
instance : CutF Anim.TrackTypeV2.codec := by unfold Anim.TrackTypeV2.codec; infer_instance
instance : Ends Anim.TrackTypeV2.codec := by unfold Anim.TrackTypeV2.codec; infer_instance
instance : Ext Anim.CompressionType.codec := by unfold Anim.CompressionType.codec; infer_instance
instance : CutF Anim.CompressionType.codec := by unfold Anim.CompressionType.codec; infer_instance
instance : Ends Anim.CompressionType.codec := by unfold Anim.CompressionType.codec; infer_instance
instance : Ext Anim.TrackFlags.codec := by unfold Anim.TrackFlags.codec; infer_instance
instance : CutF Anim.TrackFlags.codec := by unfold Anim.TrackFlags.codec; infer_instance
instance : Ext Anim.TransformFlags.codec := by unfold Anim.TransformFlags.codec; infer_instance
instance : CutF Anim.TransformFlags.codec := by unfold Anim.TransformFlags.codec; infer_instance
instance : Ends Anim.TransformFlags.codec := by unfold Anim.TransformFlags.codec; infer_instance
instance : Ext Anim.TrackV2.codec := by unfold Anim.TrackV2.codec; infer_instance
instance : CutF Anim.TrackV2.codec := by unfold Anim.TrackV2.codec; infer_instance
instance : Ext Anim.Node.codec := by unfold Anim.Node.codec; infer_instance
instance : CutF Anim.Node.codec := by unfold Anim.Node.codec; infer_instance
instance : Ext Anim.Group.codec := by unfold Anim.Group.codec; infer_instance
instance : CutF Anim.Group.codec := by unfold Anim.Group.codec; infer_instance
instance : Ext Anim.UnkSubItem.codec := by unfold Anim.UnkSubItem.codec; infer_instance
instance : CutF Anim.UnkSubItem.codec := by unfold Anim.UnkSubItem.codec; infer_instance
instance : Ext Anim.UnkItem1.codec := by unfold Anim.UnkItem1.codec; infer_instance
instance : CutF Anim.UnkItem1.codec := by unfold Anim.UnkItem1.codec; infer_instance
instance : Ext Anim.UnkItem2.codec := by unfold Anim.UnkItem2.codec; infer_instance
instance : CutF Anim.UnkItem2.codec := by unfold Anim.UnkItem2.codec; infer_instance
instance : Ext Anim.UnkData.codec := by unfold Anim.UnkData.codec; infer_instance
instance : CutF Anim.UnkData.codec := by unfold Anim.UnkData.codec; infer_instance
instance : Ext Anim.V12Data.codec := by unfold Anim.V12Data.codec; infer_instance
instance : CutF Anim.V12Data.codec := by unfold Anim.V12Data.codec; infer_instance
instance : Ext Anim.V20Data.codec := by unfold Anim.V20Data.codec; infer_instance
instance : CutF Anim.V20Data.codec := by unfold Anim.V20Data.codec; infer_instance
instance : Ext Anim.V21Data.codec := by unfold Anim.V21Data.codec; infer_instance
instance : CutF Anim.V21Data.codec := by unfold Anim.V21Data.codec; infer_instance
instance : ExtF Anim.format where
  read major minor b rest p := by
    simp only [Anim.format]
    refine ite_ext (mapRead_ext (Ext.read (c := Anim.V12Data.codec) b rest p)) ?_
    refine ite_ext (mapRead_ext (Ext.read (c := Anim.V20Data.codec) b rest p)) ?_
    refine ite_ext (mapRead_ext (Ext.read (c := Anim.V21Data.codec) b rest p)) ?_
    exact .error
instance : CutFormat Anim.format where
  align v := by cases v <;> simp only [Anim.format] <;> decide
  cut v := by
    cases v with
    | V12 v => exact variant_cut (a := Anim.V12Data.codec) (f := Anim.V12) (fun _ => rfl) (fun _ _ => rfl)
    | V20 v => exact variant_cut (a := Anim.V20Data.codec) (f := Anim.V20) (fun _ => rfl) (fun _ _ => rfl)
    | V21 v => exact variant_cut (a := Anim.V21Data.codec) (f := Anim.V21) (fun _ => rfl) (fun _ _ => rfl)
instance : Ext Mesh.BoundingSphere.codec := by unfold Mesh.BoundingSphere.codec; infer_instance
instance : CutF Mesh.BoundingSphere.codec := by unfold Mesh.BoundingSphere.codec; infer_instance
instance : Ext Mesh.BoundingVolume.codec := by unfold Mesh.BoundingVolume.codec; infer_instance
instance : CutF Mesh.BoundingVolume.codec := by unfold Mesh.BoundingVolume.codec; infer_instance
instance : Ext Mesh.OrientedBoundingBox.codec := by unfold Mesh.OrientedBoundingBox.codec; infer_instance
instance : CutF Mesh.OrientedBoundingBox.codec := by unfold Mesh.OrientedBoundingBox.codec; infer_instance
instance : Ext Mesh.BoundingInfo.codec := by unfold Mesh.BoundingInfo.codec; infer_instance
instance : CutF Mesh.BoundingInfo.codec := by unfold Mesh.BoundingInfo.codec; infer_instance
instance : Ext Mesh.DrawElementType.codec := by unfold Mesh.DrawElementType.codec; infer_instance
instance : CutF Mesh.DrawElementType.codec := by unfold Mesh.DrawElementType.codec; infer_instance
instance : Ends Mesh.DrawElementType.codec := by unfold Mesh.DrawElementType.codec; infer_instance
instance : Ext Mesh.DepthFlags.codec := by unfold Mesh.DepthFlags.codec; infer_instance
instance : CutF Mesh.DepthFlags.codec := by unfold Mesh.DepthFlags.codec; infer_instance
instance {A : Type} {aC : Codec A} [Ext aC] : Ext (Mesh.MeshObject.codec aC) := by unfold Mesh.MeshObject.codec; infer_instance
instance {A : Type} {aC : Codec A} [CutF aC] : CutF (Mesh.MeshObject.codec aC) := by unfold Mesh.MeshObject.codec; infer_instance
instance : Ext Mesh.RiggingFlags.codec := by unfold Mesh.RiggingFlags.codec; infer_instance
instance : CutF Mesh.RiggingFlags.codec := by unfold Mesh.RiggingFlags.codec; infer_instance
instance {W2 : Type} {w2C : Codec W2} [Ext w2C] : Ext (Mesh.BoneBuffer.codec w2C) := by unfold Mesh.BoneBuffer.codec; infer_instance
instance {W2 : Type} {w2C : Codec W2} [CutF w2C] : CutF (Mesh.BoneBuffer.codec w2C) := by unfold Mesh.BoneBuffer.codec; infer_instance
instance {W3 : Type} {w3C : Codec W3} [Ext w3C] : Ext (Mesh.RiggingGroup.codec w3C) := by unfold Mesh.RiggingGroup.codec; infer_instance
instance {W3 : Type} {w3C : Codec W3} [CutF w3C] : CutF (Mesh.RiggingGroup.codec w3C) := by unfold Mesh.RiggingGroup.codec; infer_instance
instance {A : Type} {aC : Codec A} [Ext aC] {W1 : Type} {w1C : Codec W1} [Ext w1C] : Ext (Mesh.MeshInner.codec aC w1C) := by unfold Mesh.MeshInner.codec; infer_instance
instance {A : Type} {aC : Codec A} [CutF aC] {W1 : Type} {w1C : Codec W1} [CutF w1C] : CutF (Mesh.MeshInner.codec aC w1C) := by unfold Mesh.MeshInner.codec; infer_instance
instance {A : Type} {aC : Codec A} {W1 : Type} {w1C : Codec W1} : Ends (Mesh.MeshInner.codec aC w1C) := by unfold Mesh.MeshInner.codec; infer_instance
instance : Ext Mesh.AttributeUsageV8.codec := by unfold Mesh.AttributeUsageV8.codec; infer_instance
instance : CutF Mesh.AttributeUsageV8.codec := by unfold Mesh.AttributeUsageV8.codec; infer_instance
instance : Ends Mesh.AttributeUsageV8.codec := by unfold Mesh.AttributeUsageV8.codec; infer_instance
instance : Ext Mesh.AttributeDataTypeV8.codec := by unfold Mesh.AttributeDataTypeV8.codec; infer_instance
instance : CutF Mesh.AttributeDataTypeV8.codec := by unfold Mesh.AttributeDataTypeV8.codec; infer_instance
instance : Ends Mesh.AttributeDataTypeV8.codec := by unfold Mesh.AttributeDataTypeV8.codec; infer_instance
instance : Ext Mesh.AttributeV8.codec := by unfold Mesh.AttributeV8.codec; infer_instance
instance : CutF Mesh.AttributeV8.codec := by unfold Mesh.AttributeV8.codec; infer_instance
instance : Ext Mesh.VertexWeightV8.codec := by unfold Mesh.VertexWeightV8.codec; infer_instance
instance : CutF Mesh.VertexWeightV8.codec := by unfold Mesh.VertexWeightV8.codec; infer_instance
instance : Ext Mesh.AttributeUsageV9.codec := by unfold Mesh.AttributeUsageV9.codec; infer_instance
instance : CutF Mesh.AttributeUsageV9.codec := by unfold Mesh.AttributeUsageV9.codec; infer_instance
instance : Ends Mesh.AttributeUsageV9.codec := by unfold Mesh.AttributeUsageV9.codec; infer_instance
instance : Ext Mesh.AttributeV9.codec := by unfold Mesh.AttributeV9.codec; infer_instance
instance : CutF Mesh.AttributeV9.codec := by unfold Mesh.AttributeV9.codec; infer_instance
instance : Ext Mesh.AttributeDataTypeV10.codec := by unfold Mesh.AttributeDataTypeV10.codec; infer_instance
instance : CutF Mesh.AttributeDataTypeV10.codec := by unfold Mesh.AttributeDataTypeV10.codec; infer_instance
instance : Ends Mesh.AttributeDataTypeV10.codec := by unfold Mesh.AttributeDataTypeV10.codec; infer_instance
instance : Ext Mesh.AttributeV10.codec := by unfold Mesh.AttributeV10.codec; infer_instance
instance : CutF Mesh.AttributeV10.codec := by unfold Mesh.AttributeV10.codec; infer_instance
instance : ExtF Mesh.format where
  read major minor b rest p := by
    simp only [Mesh.format]
    refine ite_ext (mapRead_ext (Ext.read (c := (struct 8 (padAfterWrite 16 (Mesh.MeshInner.codec Mesh.AttributeV8.codec (array Mesh.VertexWeightV8.codec))))) b rest p)) ?_
    refine ite_ext (mapRead_ext (Ext.read (c := (struct 8 (padAfterWrite 16 (Mesh.MeshInner.codec Mesh.AttributeV9.codec (array Mesh.VertexWeightV8.codec))))) b rest p)) ?_
    refine ite_ext (mapRead_ext (Ext.read (c := (struct 8 (padAfterWrite 16 (Mesh.MeshInner.codec Mesh.AttributeV10.codec byteBuffer)))) b rest p)) ?_
    exact .error
instance : CutFormat Mesh.format where
  align v := by cases v <;> simp only [Mesh.format] <;> decide
  cut v := by
    cases v with
    | V8 v => exact variant_cut (a := (struct 8 (padAfterWrite 16 (Mesh.MeshInner.codec Mesh.AttributeV8.codec (array Mesh.VertexWeightV8.codec))))) (f := Mesh.V8) (fun _ => rfl) (fun _ _ => rfl)
    | V9 v => exact variant_cut (a := (struct 8 (padAfterWrite 16 (Mesh.MeshInner.codec Mesh.AttributeV9.codec (array Mesh.VertexWeightV8.codec))))) (f := Mesh.V9) (fun _ => rfl) (fun _ _ => rfl)
    | V10 v => exact variant_cut (a := (struct 8 (padAfterWrite 16 (Mesh.MeshInner.codec Mesh.AttributeV10.codec byteBuffer)))) (f := Mesh.V10) (fun _ => rfl) (fun _ _ => rfl)
instance : Ext Matl.ParamId.codec := by unfold Matl.ParamId.codec; infer_instance
instance : CutF Matl.ParamId.codec := by unfold Matl.ParamId.codec; infer_instance
instance : Ends Matl.ParamId.codec := by unfold Matl.ParamId.codec; infer_instance
instance : Ext Matl.WrapMode.codec := by unfold Matl.WrapMode.codec; infer_instance
instance : CutF Matl.WrapMode.codec := by unfold Matl.WrapMode.codec; infer_instance
instance : Ends Matl.WrapMode.codec := by unfold Matl.WrapMode.codec; infer_instance
instance : Ext Matl.MinFilter.codec := by unfold Matl.MinFilter.codec; infer_instance
instance : CutF Matl.MinFilter.codec := by unfold Matl.MinFilter.codec; infer_instance
instance : Ends Matl.MinFilter.codec := by unfold Matl.MinFilter.codec; infer_instance
instance : Ext Matl.MagFilter.codec := by unfold Matl.MagFilter.codec; infer_instance
instance : CutF Matl.MagFilter.codec := by unfold Matl.MagFilter.codec; infer_instance
instance : Ends Matl.MagFilter.codec := by unfold Matl.MagFilter.codec; infer_instance
instance : Ext Matl.FilteringType.codec := by unfold Matl.FilteringType.codec; infer_instance
instance : CutF Matl.FilteringType.codec := by unfold Matl.FilteringType.codec; infer_instance
instance : Ends Matl.FilteringType.codec := by unfold Matl.FilteringType.codec; infer_instance
instance : Ext Matl.MaxAnisotropy.codec := by unfold Matl.MaxAnisotropy.codec; infer_instance
instance : CutF Matl.MaxAnisotropy.codec := by unfold Matl.MaxAnisotropy.codec; infer_instance
instance : Ends Matl.MaxAnisotropy.codec := by unfold Matl.MaxAnisotropy.codec; infer_instance
instance : Ext Matl.Sampler.codec := by unfold Matl.Sampler.codec; infer_instance
instance : CutF Matl.Sampler.codec := by unfold Matl.Sampler.codec; infer_instance
instance : Ext Matl.UvTransform.codec := by unfold Matl.UvTransform.codec; infer_instance
instance : CutF Matl.UvTransform.codec := by unfold Matl.UvTransform.codec; infer_instance
instance : Ext Matl.BlendFactor.codec := by unfold Matl.BlendFactor.codec; infer_instance
instance : CutF Matl.BlendFactor.codec := by unfold Matl.BlendFactor.codec; infer_instance
instance : Ends Matl.BlendFactor.codec := by unfold Matl.BlendFactor.codec; infer_instance
instance : Ext Matl.BlendOperation.codec := by unfold Matl.BlendOperation.codec; infer_instance
instance : CutF Matl.BlendOperation.codec := by unfold Matl.BlendOperation.codec; infer_instance
instance : Ends Matl.BlendOperation.codec := by unfold Matl.BlendOperation.codec; infer_instance
instance : Ext Matl.BlendStateV15.codec := by unfold Matl.BlendStateV15.codec; infer_instance
instance : CutF Matl.BlendStateV15.codec := by unfold Matl.BlendStateV15.codec; infer_instance
instance : Ext Matl.CullMode.codec := by unfold Matl.CullMode.codec; infer_instance
instance : CutF Matl.CullMode.codec := by unfold Matl.CullMode.codec; infer_instance
instance : Ends Matl.CullMode.codec := by unfold Matl.CullMode.codec; infer_instance
instance : Ext Matl.RasterizerStateV15.codec := by unfold Matl.RasterizerStateV15.codec; infer_instance
instance : CutF Matl.RasterizerStateV15.codec := by unfold Matl.RasterizerStateV15.codec; infer_instance
instance : ExtT Matl.ParamV15.tagged where
  read tag b rest p := by
    simp only [Matl.ParamV15.tagged]
    refine ite_ext (mapRead_ext (Ext.read (c := (struct 8 f32)) b rest p)) ?_
    refine ite_ext (mapRead_ext (Ext.read (c := (struct 8 u32)) b rest p)) ?_
    refine ite_ext (mapRead_ext (Ext.read (c := (struct 8 Vector4.codec)) b rest p)) ?_
    refine ite_ext (mapRead_ext (Ext.read (c := (struct 8 Color4f.codec)) b rest p)) ?_
    refine ite_ext (mapRead_ext (Ext.read (c := (struct 8 ssbhString)) b rest p)) ?_
    refine ite_ext (mapRead_ext (Ext.read (c := (struct 8 Matl.Sampler.codec)) b rest p)) ?_
    refine ite_ext (mapRead_ext (Ext.read (c := (struct 8 Matl.UvTransform.codec)) b rest p)) ?_
    refine ite_ext (mapRead_ext (Ext.read (c := (struct 8 Matl.BlendStateV15.codec)) b rest p)) ?_
    refine ite_ext (mapRead_ext (Ext.read (c := (struct 8 Matl.RasterizerStateV15.codec)) b rest p)) ?_
    exact .error
instance : CutT Matl.ParamV15.tagged where
  align := by decide
  cut v := by
    cases v with
    | Float v => exact variant_cut (a := (struct 8 f32)) (f := Matl.ParamV15.Float) (fun _ => rfl) (fun _ _ => rfl)
    | Boolean v => exact variant_cut (a := (struct 8 u32)) (f := Matl.ParamV15.Boolean) (fun _ => rfl) (fun _ _ => rfl)
    | Vector4 v => exact variant_cut (a := (struct 8 Vector4.codec)) (f := Matl.ParamV15.Vector4) (fun _ => rfl) (fun _ _ => rfl)
    | Unk7 v => exact variant_cut (a := (struct 8 Color4f.codec)) (f := Matl.ParamV15.Unk7) (fun _ => rfl) (fun _ _ => rfl)
    | String v => exact variant_cut (a := (struct 8 ssbhString)) (f := Matl.ParamV15.String) (fun _ => rfl) (fun _ _ => rfl)
    | Sampler v => exact variant_cut (a := (struct 8 Matl.Sampler.codec)) (f := Matl.ParamV15.Sampler) (fun _ => rfl) (fun _ _ => rfl)
    | UvTransform v => exact variant_cut (a := (struct 8 Matl.UvTransform.codec)) (f := Matl.ParamV15.UvTransform) (fun _ => rfl) (fun _ _ => rfl)
    | BlendState v => exact variant_cut (a := (struct 8 Matl.BlendStateV15.codec)) (f := Matl.ParamV15.BlendState) (fun _ => rfl) (fun _ _ => rfl)
    | RasterizerState v => exact variant_cut (a := (struct 8 Matl.RasterizerStateV15.codec)) (f := Matl.ParamV15.RasterizerState) (fun _ => rfl) (fun _ _ => rfl)
instance : Ext Matl.AttributeV15.codec := by unfold Matl.AttributeV15.codec; infer_instance
instance : CutF Matl.AttributeV15.codec := by unfold Matl.AttributeV15.codec; infer_instance
instance : Ext Matl.MatlEntryV15.codec := by unfold Matl.MatlEntryV15.codec; infer_instance
instance : CutF Matl.MatlEntryV15.codec := by unfold Matl.MatlEntryV15.codec; infer_instance
instance : Ext Matl.BlendStateV16.codec := by unfold Matl.BlendStateV16.codec; infer_instance
instance : CutP Matl.BlendStateV16.codec := by unfold Matl.BlendStateV16.codec; infer_instance
instance : Ext Matl.FillMode.codec := by unfold Matl.FillMode.codec; infer_instance
instance : CutF Matl.FillMode.codec := by unfold Matl.FillMode.codec; infer_instance
instance : Ends Matl.FillMode.codec := by unfold Matl.FillMode.codec; infer_instance
instance : Ext Matl.RasterizerStateV16.codec := by unfold Matl.RasterizerStateV16.codec; infer_instance
instance : CutP Matl.RasterizerStateV16.codec := by unfold Matl.RasterizerStateV16.codec; infer_instance
instance : ExtT Matl.ParamV16.tagged where
  read tag b rest p := by
    simp only [Matl.ParamV16.tagged]
    refine ite_ext (mapRead_ext (Ext.read (c := (struct 8 f32)) b rest p)) ?_
    refine ite_ext (mapRead_ext (Ext.read (c := (struct 8 u32)) b rest p)) ?_
    refine ite_ext (mapRead_ext (Ext.read (c := (struct 8 Vector4.codec)) b rest p)) ?_
    refine ite_ext (mapRead_ext (Ext.read (c := (struct 8 Color4f.codec)) b rest p)) ?_
    refine ite_ext (mapRead_ext (Ext.read (c := (struct 8 ssbhString)) b rest p)) ?_
    refine ite_ext (mapRead_ext (Ext.read (c := (struct 8 Matl.Sampler.codec)) b rest p)) ?_
    refine ite_ext (mapRead_ext (Ext.read (c := (struct 8 Matl.UvTransform.codec)) b rest p)) ?_
    refine ite_ext (mapRead_ext (Ext.read (c := (struct 8 Matl.BlendStateV16.codec)) b rest p)) ?_
    refine ite_ext (mapRead_ext (Ext.read (c := (struct 8 Matl.RasterizerStateV16.codec)) b rest p)) ?_
    exact .error
instance : CutT Matl.ParamV16.tagged where
  align := by decide
  cut v := by
    cases v with
    | Float v => exact variant_cut (a := (struct 8 f32)) (f := Matl.ParamV16.Float) (fun _ => rfl) (fun _ _ => rfl)
    | Boolean v => exact variant_cut (a := (struct 8 u32)) (f := Matl.ParamV16.Boolean) (fun _ => rfl) (fun _ _ => rfl)
    | Vector4 v => exact variant_cut (a := (struct 8 Vector4.codec)) (f := Matl.ParamV16.Vector4) (fun _ => rfl) (fun _ _ => rfl)
    | Unk7 v => exact variant_cut (a := (struct 8 Color4f.codec)) (f := Matl.ParamV16.Unk7) (fun _ => rfl) (fun _ _ => rfl)
    | String v => exact variant_cut (a := (struct 8 ssbhString)) (f := Matl.ParamV16.String) (fun _ => rfl) (fun _ _ => rfl)
    | Sampler v => exact variant_cut (a := (struct 8 Matl.Sampler.codec)) (f := Matl.ParamV16.Sampler) (fun _ => rfl) (fun _ _ => rfl)
    | UvTransform v => exact variant_cut (a := (struct 8 Matl.UvTransform.codec)) (f := Matl.ParamV16.UvTransform) (fun _ => rfl) (fun _ _ => rfl)
    | BlendState v => exact variant_cut (a := (struct 8 Matl.BlendStateV16.codec)) (f := Matl.ParamV16.BlendState) (fun _ => rfl) (fun _ _ => rfl)
    | RasterizerState v => exact variant_cut (a := (struct 8 Matl.RasterizerStateV16.codec)) (f := Matl.ParamV16.RasterizerState) (fun _ => rfl) (fun _ _ => rfl)
instance : Ext Matl.AttributeV16.codec := by unfold Matl.AttributeV16.codec; infer_instance
instance : CutF Matl.AttributeV16.codec := by unfold Matl.AttributeV16.codec; infer_instance
instance : Ext Matl.MatlEntryV16.codec := by unfold Matl.MatlEntryV16.codec; infer_instance
instance : CutF Matl.MatlEntryV16.codec := by unfold Matl.MatlEntryV16.codec; infer_instance
instance : Ext Matl.V15Data.codec := by unfold Matl.V15Data.codec; infer_instance
instance : CutF Matl.V15Data.codec := by unfold Matl.V15Data.codec; infer_instance
instance : Ext Matl.V16Data.codec := by unfold Matl.V16Data.codec; infer_instance
instance : CutF Matl.V16Data.codec := by unfold Matl.V16Data.codec; infer_instance
instance : ExtF Matl.format where
  read major minor b rest p := by
    simp only [Matl.format]
    refine ite_ext (mapRead_ext (Ext.read (c := Matl.V15Data.codec) b rest p)) ?_
    refine ite_ext (mapRead_ext (Ext.read (c := Matl.V16Data.codec) b rest p)) ?_
    exact .error
instance : CutFormat Matl.format where
  align v := by cases v <;> simp only [Matl.format] <;> decide
  cut v := by
    cases v with
    | V15 v => exact variant_cut (a := Matl.V15Data.codec) (f := Matl.V15) (fun _ => rfl) (fun _ _ => rfl)
    | V16 v => exact variant_cut (a := Matl.V16Data.codec) (f := Matl.V16) (fun _ => rfl) (fun _ _ => rfl)
instance : Ext Nrpd.UnkFormat.codec := by unfold Nrpd.UnkFormat.codec; infer_instance
instance : CutF Nrpd.UnkFormat.codec := by unfold Nrpd.UnkFormat.codec; infer_instance
instance : Ends Nrpd.UnkFormat.codec := by unfold Nrpd.UnkFormat.codec; infer_instance
instance : Ext Nrpd.Framebuffer0.codec := by unfold Nrpd.Framebuffer0.codec; infer_instance
instance : CutF Nrpd.Framebuffer0.codec := by unfold Nrpd.Framebuffer0.codec; infer_instance
instance : Ext Nrpd.Framebuffer1.codec := by unfold Nrpd.Framebuffer1.codec; infer_instance
instance : CutF Nrpd.Framebuffer1.codec := by unfold Nrpd.Framebuffer1.codec; infer_instance
instance : Ext Nrpd.UniformBuffer.codec := by unfold Nrpd.UniformBuffer.codec; infer_instance
instance : CutF Nrpd.UniformBuffer.codec := by unfold Nrpd.UniformBuffer.codec; infer_instance
instance : Ext Nrpd.Framebuffer3.codec := by unfold Nrpd.Framebuffer3.codec; infer_instance
instance : CutF Nrpd.Framebuffer3.codec := by unfold Nrpd.Framebuffer3.codec; infer_instance
instance : Ext Nrpd.Framebuffer4.codec := by unfold Nrpd.Framebuffer4.codec; infer_instance
instance : CutF Nrpd.Framebuffer4.codec := by unfold Nrpd.Framebuffer4.codec; infer_instance
instance : ExtT Nrpd.FrameBuffer.tagged where
  read tag b rest p := by
    simp only [Nrpd.FrameBuffer.tagged]
    refine ite_ext (mapRead_ext (Ext.read (c := (struct 8 Nrpd.Framebuffer0.codec)) b rest p)) ?_
    refine ite_ext (mapRead_ext (Ext.read (c := (struct 8 Nrpd.Framebuffer1.codec)) b rest p)) ?_
    refine ite_ext (mapRead_ext (Ext.read (c := (struct 8 Nrpd.UniformBuffer.codec)) b rest p)) ?_
    refine ite_ext (mapRead_ext (Ext.read (c := (struct 8 Nrpd.Framebuffer3.codec)) b rest p)) ?_
    refine ite_ext (mapRead_ext (Ext.read (c := (struct 8 Nrpd.Framebuffer4.codec)) b rest p)) ?_
    exact .error
instance : CutT Nrpd.FrameBuffer.tagged where
  align := by decide
  cut v := by
    cases v with
    | Framebuffer0 v => exact variant_cut (a := (struct 8 Nrpd.Framebuffer0.codec)) (f := Nrpd.FrameBuffer.Framebuffer0) (fun _ => rfl) (fun _ _ => rfl)
    | Framebuffer1 v => exact variant_cut (a := (struct 8 Nrpd.Framebuffer1.codec)) (f := Nrpd.FrameBuffer.Framebuffer1) (fun _ => rfl) (fun _ _ => rfl)
    | UniformBuffer v => exact variant_cut (a := (struct 8 Nrpd.UniformBuffer.codec)) (f := Nrpd.FrameBuffer.UniformBuffer) (fun _ => rfl) (fun _ _ => rfl)
    | Framebuffer3 v => exact variant_cut (a := (struct 8 Nrpd.Framebuffer3.codec)) (f := Nrpd.FrameBuffer.Framebuffer3) (fun _ => rfl) (fun _ _ => rfl)
    | Framebuffer4 v => exact variant_cut (a := (struct 8 Nrpd.Framebuffer4.codec)) (f := Nrpd.FrameBuffer.Framebuffer4) (fun _ => rfl) (fun _ _ => rfl)
instance : Ext Nrpd.NrpdSampler.codec := by unfold Nrpd.NrpdSampler.codec; infer_instance
instance : CutF Nrpd.NrpdSampler.codec := by unfold Nrpd.NrpdSampler.codec; infer_instance
instance : Ext Nrpd.NrpdRasterizerState.codec := by unfold Nrpd.NrpdRasterizerState.codec; infer_instance
instance : CutF Nrpd.NrpdRasterizerState.codec := by unfold Nrpd.NrpdRasterizerState.codec; infer_instance
instance : Ext Nrpd.DepthState.codec := by unfold Nrpd.DepthState.codec; infer_instance
instance : CutF Nrpd.DepthState.codec := by unfold Nrpd.DepthState.codec; infer_instance
instance : Ext Nrpd.NrpdBlendState.codec := by unfold Nrpd.NrpdBlendState.codec; infer_instance
instance : CutF Nrpd.NrpdBlendState.codec := by unfold Nrpd.NrpdBlendState.codec; infer_instance
instance : ExtT Nrpd.State.tagged where
  read tag b rest p := by
    simp only [Nrpd.State.tagged]
    refine ite_ext (mapRead_ext (Ext.read (c := (struct 8 Nrpd.NrpdSampler.codec)) b rest p)) ?_
    refine ite_ext (mapRead_ext (Ext.read (c := (struct 8 Nrpd.NrpdRasterizerState.codec)) b rest p)) ?_
    refine ite_ext (mapRead_ext (Ext.read (c := (struct 8 Nrpd.DepthState.codec)) b rest p)) ?_
    refine ite_ext (mapRead_ext (Ext.read (c := (struct 8 Nrpd.NrpdBlendState.codec)) b rest p)) ?_
    exact .error
instance : CutT Nrpd.State.tagged where
  align := by decide
  cut v := by
    cases v with
    | Sampler v => exact variant_cut (a := (struct 8 Nrpd.NrpdSampler.codec)) (f := Nrpd.State.Sampler) (fun _ => rfl) (fun _ _ => rfl)
    | RasterizerState v => exact variant_cut (a := (struct 8 Nrpd.NrpdRasterizerState.codec)) (f := Nrpd.State.RasterizerState) (fun _ => rfl) (fun _ _ => rfl)
    | DepthState v => exact variant_cut (a := (struct 8 Nrpd.DepthState.codec)) (f := Nrpd.State.DepthState) (fun _ => rfl) (fun _ _ => rfl)
    | BlendState v => exact variant_cut (a := (struct 8 Nrpd.NrpdBlendState.codec)) (f := Nrpd.State.BlendState) (fun _ => rfl) (fun _ _ => rfl)
instance : Ext Nrpd.RenderPassData0.codec := by unfold Nrpd.RenderPassData0.codec; infer_instance
instance : CutF Nrpd.RenderPassData0.codec := by unfold Nrpd.RenderPassData0.codec; infer_instance
instance : Ext Nrpd.RenderPassData1.codec := by unfold Nrpd.RenderPassData1.codec; infer_instance
instance : CutF Nrpd.RenderPassData1.codec := by unfold Nrpd.RenderPassData1.codec; infer_instance
instance : Ext Nrpd.RenderPassData2.codec := by unfold Nrpd.RenderPassData2.codec; infer_instance
instance : CutF Nrpd.RenderPassData2.codec := by unfold Nrpd.RenderPassData2.codec; infer_instance
instance : Ext Nrpd.Unk8Data.codec := by unfold Nrpd.Unk8Data.codec; infer_instance
instance : CutF Nrpd.Unk8Data.codec := by unfold Nrpd.Unk8Data.codec; infer_instance
instance : Ext Nrpd.RenderPassData3.codec := by unfold Nrpd.RenderPassData3.codec; infer_instance
instance : CutF Nrpd.RenderPassData3.codec := by unfold Nrpd.RenderPassData3.codec; infer_instance
instance : Ext Nrpd.RenderPassData8.codec := by unfold Nrpd.RenderPassData8.codec; infer_instance
instance : CutF Nrpd.RenderPassData8.codec := by unfold Nrpd.RenderPassData8.codec; infer_instance
instance : Ext Nrpd.ColorClear.codec := by unfold Nrpd.ColorClear.codec; infer_instance
instance : CutF Nrpd.ColorClear.codec := by unfold Nrpd.ColorClear.codec; infer_instance
instance : Ext Nrpd.DepthStencilClear.codec := by unfold Nrpd.DepthStencilClear.codec; infer_instance
instance : CutF Nrpd.DepthStencilClear.codec := by unfold Nrpd.DepthStencilClear.codec; infer_instance
instance : Ext Nrpd.Viewport.codec := by unfold Nrpd.Viewport.codec; infer_instance
instance : CutF Nrpd.Viewport.codec := by unfold Nrpd.Viewport.codec; infer_instance
instance : Ext Nrpd.RenderPassData13.codec := by unfold Nrpd.RenderPassData13.codec; infer_instance
instance : CutF Nrpd.RenderPassData13.codec := by unfold Nrpd.RenderPassData13.codec; infer_instance
instance : Ext Nrpd.StringPair.codec := by unfold Nrpd.StringPair.codec; infer_instance
instance : CutF Nrpd.StringPair.codec := by unfold Nrpd.StringPair.codec; infer_instance
instance : Ext Nrpd.RenderPassData19.codec := by unfold Nrpd.RenderPassData19.codec; infer_instance
instance : CutF Nrpd.RenderPassData19.codec := by unfold Nrpd.RenderPassData19.codec; infer_instance
instance : ExtT Nrpd.RenderPassData.tagged where
  read tag b rest p := by
    simp only [Nrpd.RenderPassData.tagged]
    refine ite_ext (mapRead_ext (Ext.read (c := (struct 8 Nrpd.RenderPassData0.codec)) b rest p)) ?_
    refine ite_ext (mapRead_ext (Ext.read (c := (struct 8 Nrpd.RenderPassData1.codec)) b rest p)) ?_
    refine ite_ext (mapRead_ext (Ext.read (c := (struct 8 Nrpd.RenderPassData2.codec)) b rest p)) ?_
    refine ite_ext (mapRead_ext (Ext.read (c := (struct 8 Nrpd.RenderPassData3.codec)) b rest p)) ?_
    refine ite_ext (mapRead_ext (Ext.read (c := (struct 8 Nrpd.RenderPassData8.codec)) b rest p)) ?_
    refine ite_ext (mapRead_ext (Ext.read (c := (struct 8 Nrpd.ColorClear.codec)) b rest p)) ?_
    refine ite_ext (mapRead_ext (Ext.read (c := (struct 8 Nrpd.DepthStencilClear.codec)) b rest p)) ?_
    refine ite_ext (mapRead_ext (Ext.read (c := (struct 8 Nrpd.Viewport.codec)) b rest p)) ?_
    refine ite_ext (mapRead_ext (Ext.read (c := (struct 8 Nrpd.RenderPassData13.codec)) b rest p)) ?_
    refine ite_ext (mapRead_ext (Ext.read (c := (struct 8 Nrpd.StringPair.codec)) b rest p)) ?_
    refine ite_ext (mapRead_ext (Ext.read (c := (struct 8 Nrpd.StringPair.codec)) b rest p)) ?_
    refine ite_ext (mapRead_ext (Ext.read (c := (struct 8 Nrpd.StringPair.codec)) b rest p)) ?_
    refine ite_ext (mapRead_ext (Ext.read (c := (struct 8 ssbhString)) b rest p)) ?_
    refine ite_ext (mapRead_ext (Ext.read (c := (struct 8 ssbhString)) b rest p)) ?_
    refine ite_ext (mapRead_ext (Ext.read (c := (struct 8 Nrpd.RenderPassData19.codec)) b rest p)) ?_
    exact .error
instance : CutT Nrpd.RenderPassData.tagged where
  align := by decide
  cut v := by
    cases v with
    | FramebufferRtp v => exact variant_cut (a := (struct 8 Nrpd.RenderPassData0.codec)) (f := Nrpd.RenderPassData.FramebufferRtp) (fun _ => rfl) (fun _ _ => rfl)
    | PassUnk1 v => exact variant_cut (a := (struct 8 Nrpd.RenderPassData1.codec)) (f := Nrpd.RenderPassData.PassUnk1) (fun _ => rfl) (fun _ _ => rfl)
    | UnkTexture1 v => exact variant_cut (a := (struct 8 Nrpd.RenderPassData2.codec)) (f := Nrpd.RenderPassData.UnkTexture1) (fun _ => rfl) (fun _ _ => rfl)
    | UnkLight v => exact variant_cut (a := (struct 8 Nrpd.RenderPassData3.codec)) (f := Nrpd.RenderPassData.UnkLight) (fun _ => rfl) (fun _ _ => rfl)
    | Unk8 v => exact variant_cut (a := (struct 8 Nrpd.RenderPassData8.codec)) (f := Nrpd.RenderPassData.Unk8) (fun _ => rfl) (fun _ _ => rfl)
    | ColorClear v => exact variant_cut (a := (struct 8 Nrpd.ColorClear.codec)) (f := Nrpd.RenderPassData.ColorClear) (fun _ => rfl) (fun _ _ => rfl)
    | DepthStencilClear v => exact variant_cut (a := (struct 8 Nrpd.DepthStencilClear.codec)) (f := Nrpd.RenderPassData.DepthStencilClear) (fun _ => rfl) (fun _ _ => rfl)
    | Viewport v => exact variant_cut (a := (struct 8 Nrpd.Viewport.codec)) (f := Nrpd.RenderPassData.Viewport) (fun _ => rfl) (fun _ _ => rfl)
    | Sampler v => exact variant_cut (a := (struct 8 Nrpd.RenderPassData13.codec)) (f := Nrpd.RenderPassData.Sampler) (fun _ => rfl) (fun _ _ => rfl)
    | BlendState v => exact variant_cut (a := (struct 8 Nrpd.StringPair.codec)) (f := Nrpd.RenderPassData.BlendState) (fun _ => rfl) (fun _ _ => rfl)
    | RasterizerState v => exact variant_cut (a := (struct 8 Nrpd.StringPair.codec)) (f := Nrpd.RenderPassData.RasterizerState) (fun _ => rfl) (fun _ _ => rfl)
    | DepthStencilState v => exact variant_cut (a := (struct 8 Nrpd.StringPair.codec)) (f := Nrpd.RenderPassData.DepthStencilState) (fun _ => rfl) (fun _ _ => rfl)
    | FramebufferRenderTarget v => exact variant_cut (a := (struct 8 ssbhString)) (f := Nrpd.RenderPassData.FramebufferRenderTarget) (fun _ => rfl) (fun _ _ => rfl)
    | FramebufferDepthStencil v => exact variant_cut (a := (struct 8 ssbhString)) (f := Nrpd.RenderPassData.FramebufferDepthStencil) (fun _ => rfl) (fun _ _ => rfl)
    | UnkTexture2 v => exact variant_cut (a := (struct 8 Nrpd.RenderPassData19.codec)) (f := Nrpd.RenderPassData.UnkTexture2) (fun _ => rfl) (fun _ _ => rfl)
instance : Ext Nrpd.Unk3Data.codec := by unfold Nrpd.Unk3Data.codec; infer_instance
instance : CutF Nrpd.Unk3Data.codec := by unfold Nrpd.Unk3Data.codec; infer_instance
instance : ExtT Nrpd.RenderPassUnkData.tagged where
  read tag b rest p := by
    simp only [Nrpd.RenderPassUnkData.tagged]
    refine ite_ext (mapRead_ext (Ext.read (c := (struct 8 unitC)) b rest p)) ?_
    refine ite_ext (mapRead_ext (Ext.read (c := (struct 8 Nrpd.Unk3Data.codec)) b rest p)) ?_
    exact .error
instance : CutT Nrpd.RenderPassUnkData.tagged where
  align := by decide
  cut v := by
    cases v with
    | UnkDataUnk0 v => exact variant_cut (a := (struct 8 unitC)) (f := Nrpd.RenderPassUnkData.UnkDataUnk0) (fun _ => rfl) (fun _ _ => rfl)
    | UnkDataUnk3 v => exact variant_cut (a := (struct 8 Nrpd.Unk3Data.codec)) (f := Nrpd.RenderPassUnkData.UnkDataUnk3) (fun _ => rfl) (fun _ _ => rfl)
instance : Ext Nrpd.RenderPassContainer.codec := by unfold Nrpd.RenderPassContainer.codec; infer_instance
instance : CutF Nrpd.RenderPassContainer.codec := by unfold Nrpd.RenderPassContainer.codec; infer_instance
instance : Ext Nrpd.UnkItem20.codec := by unfold Nrpd.UnkItem20.codec; infer_instance
instance : CutF Nrpd.UnkItem20.codec := by unfold Nrpd.UnkItem20.codec; infer_instance
instance : Ext Nrpd.UnkItem21.codec := by unfold Nrpd.UnkItem21.codec; infer_instance
instance : CutF Nrpd.UnkItem21.codec := by unfold Nrpd.UnkItem21.codec; infer_instance
instance : Ext Nrpd.UnkItem22.codec := by unfold Nrpd.UnkItem22.codec; infer_instance
instance : CutF Nrpd.UnkItem22.codec := by unfold Nrpd.UnkItem22.codec; infer_instance
instance : Ext Nrpd.UnkItem24.codec := by unfold Nrpd.UnkItem24.codec; infer_instance
instance : CutF Nrpd.UnkItem24.codec := by unfold Nrpd.UnkItem24.codec; infer_instance
instance : ExtT Nrpd.UnkItem2.tagged where
  read tag b rest p := by
    simp only [Nrpd.UnkItem2.tagged]
    refine ite_ext (mapRead_ext (Ext.read (c := (struct 8 Nrpd.UnkItem20.codec)) b rest p)) ?_
    refine ite_ext (mapRead_ext (Ext.read (c := (struct 8 Nrpd.UnkItem21.codec)) b rest p)) ?_
    refine ite_ext (mapRead_ext (Ext.read (c := (struct 8 Nrpd.UnkItem22.codec)) b rest p)) ?_
    refine ite_ext (mapRead_ext (Ext.read (c := (struct 8 Nrpd.UnkItem24.codec)) b rest p)) ?_
    exact .error
instance : CutT Nrpd.UnkItem2.tagged where
  align := by decide
  cut v := by
    cases v with
    | UnkItem20 v => exact variant_cut (a := (struct 8 Nrpd.UnkItem20.codec)) (f := Nrpd.UnkItem2.UnkItem20) (fun _ => rfl) (fun _ _ => rfl)
    | UnkItem21 v => exact variant_cut (a := (struct 8 Nrpd.UnkItem21.codec)) (f := Nrpd.UnkItem2.UnkItem21) (fun _ => rfl) (fun _ _ => rfl)
    | UnkItem22 v => exact variant_cut (a := (struct 8 Nrpd.UnkItem22.codec)) (f := Nrpd.UnkItem2.UnkItem22) (fun _ => rfl) (fun _ _ => rfl)
    | UnkItem24 v => exact variant_cut (a := (struct 8 Nrpd.UnkItem24.codec)) (f := Nrpd.UnkItem2.UnkItem24) (fun _ => rfl) (fun _ _ => rfl)
instance : Ext Nrpd.UnkItem3.codec := by unfold Nrpd.UnkItem3.codec; infer_instance
instance : CutF Nrpd.UnkItem3.codec := by unfold Nrpd.UnkItem3.codec; infer_instance
instance : Ext Nrpd.UnkItem1.codec := by unfold Nrpd.UnkItem1.codec; infer_instance
instance : CutF Nrpd.UnkItem1.codec := by unfold Nrpd.UnkItem1.codec; infer_instance
instance : Ext Nrpd.V16Data.codec := by unfold Nrpd.V16Data.codec; infer_instance
instance : CutF Nrpd.V16Data.codec := by unfold Nrpd.V16Data.codec; infer_instance
instance : ExtF Nrpd.format where
  read major minor b rest p := by
    simp only [Nrpd.format]
    refine ite_ext (mapRead_ext (Ext.read (c := Nrpd.V16Data.codec) b rest p)) ?_
    exact .error
instance : CutFormat Nrpd.format where
  align v := by cases v <;> simp only [Nrpd.format] <;> decide
  cut v := by
    cases v with
    | V16 v => exact variant_cut (a := Nrpd.V16Data.codec) (f := Nrpd.V16) (fun _ => rfl) (fun _ _ => rfl)

end Verif
