import Verif.Layout.Laws
import Verif.Layout.Formats
/-!
# The readers follow the layouts

Written by tools/gen_layout.py from the Rust definitions.
-/

namespace Verif

instance : Lays Vector3.codec Vector3.layout := by
  unfold Vector3.codec; exact record_lays (fun _ => rfl) rfl (fun _ _ _ => Iff.rfl)

instance : Lays Matrix3x3.codec Matrix3x3.layout := by
  unfold Matrix3x3.codec; exact record_lays (fun _ => rfl) rfl (fun _ _ _ => Iff.rfl)

instance : Lays Vector4.codec Vector4.layout := by
  unfold Vector4.codec; exact record_lays (fun _ => rfl) rfl (fun _ _ _ => Iff.rfl)

instance : Lays Color4f.codec Color4f.layout := by
  unfold Color4f.codec; exact record_lays (fun _ => rfl) rfl (fun _ _ _ => Iff.rfl)

instance : Lays Matrix4x4.codec Matrix4x4.layout := by
  unfold Matrix4x4.codec; exact record_lays (fun _ => rfl) rfl (fun _ _ _ => Iff.rfl)

instance : Lays Nlst.V10Data.codec Nlst.V10Data.layout := by
  unfold Nlst.V10Data.codec; exact record_lays (fun _ => rfl) rfl (fun _ _ _ => Iff.rfl)

instance : LaysFile Nlst := ⟨Nlst.FileAt, by
  intro b v
  rw [format_lays rfl]
  simp only [SsbhType.format, Nlst.format, tag_step, exists_error]
  cases v with
  | V10 v =>
    rw [two_numbers (M := 1) (N := 0) (P := Nlst.V10Data.layout.stored b 24 v)]
    · simp only [and_assoc]; rfl
    · intro major minor
      by_cases h1 : major = 1 <;> by_cases h2 : minor = 0 <;> simp [h1, h2]⟩

instance : Lays Shdr.ShaderStage.codec Shdr.ShaderStage.layout := reprEnum_lays (by decide)

instance : Lays Shdr.Shader.codec Shdr.Shader.layout := by
  unfold Shdr.Shader.codec; exact record_padAfter_lays (fun _ => rfl) rfl (fun _ _ _ => Iff.rfl)

instance : Lays Shdr.V12Data.codec Shdr.V12Data.layout := by
  unfold Shdr.V12Data.codec; exact record_lays (fun _ => rfl) rfl (fun _ _ _ => Iff.rfl)

instance : LaysFile Shdr := ⟨Shdr.FileAt, by
  intro b v
  rw [format_lays rfl]
  simp only [SsbhType.format, Shdr.format, tag_step, exists_error]
  cases v with
  | V12 v =>
    rw [two_numbers (M := 1) (N := 2) (P := Shdr.V12Data.layout.stored b 24 v)]
    · simp only [and_assoc]; rfl
    · intro major minor
      by_cases h1 : major = 1 <;> by_cases h2 : minor = 2 <;> simp [h1, h2]⟩

instance : Lays Modl.ModlEntry.codec Modl.ModlEntry.layout := by
  unfold Modl.ModlEntry.codec; exact record_lays (fun _ => rfl) rfl (fun _ _ _ => Iff.rfl)

instance : Lays Modl.V17Data.codec Modl.V17Data.layout := by
  unfold Modl.V17Data.codec; exact record_lays (fun _ => rfl) rfl (fun _ _ _ => Iff.rfl)

instance : LaysFile Modl := ⟨Modl.FileAt, by
  intro b v
  rw [format_lays rfl]
  simp only [SsbhType.format, Modl.format, tag_step, exists_error]
  cases v with
  | V17 v =>
    rw [two_numbers (M := 1) (N := 7) (P := Modl.V17Data.layout.stored b 24 v)]
    · simp only [and_assoc]; rfl
    · intro major minor
      by_cases h1 : major = 1 <;> by_cases h2 : minor = 7 <;> simp [h1, h2]⟩

instance : Lays Skel.BillboardType.codec Skel.BillboardType.layout := reprEnum_lays (by decide)

instance : Lays Skel.SkelEntryFlags.codec Skel.SkelEntryFlags.layout := by
  unfold Skel.SkelEntryFlags.codec; exact record_padAfter_lays (fun _ => rfl) rfl (fun _ _ _ => Iff.rfl)

instance : Lays Skel.SkelBoneEntry.codec Skel.SkelBoneEntry.layout := by
  unfold Skel.SkelBoneEntry.codec; exact record_lays (fun _ => rfl) rfl (fun _ _ _ => Iff.rfl)

instance : Lays Skel.V10Data.codec Skel.V10Data.layout := by
  unfold Skel.V10Data.codec; exact record_lays (fun _ => rfl) rfl (fun _ _ _ => Iff.rfl)

instance : LaysFile Skel := ⟨Skel.FileAt, by
  intro b v
  rw [format_lays rfl]
  simp only [SsbhType.format, Skel.format, tag_step, exists_error]
  cases v with
  | V10 v =>
    rw [two_numbers (M := 1) (N := 0) (P := Skel.V10Data.layout.stored b 24 v)]
    · simp only [and_assoc]; rfl
    · intro major minor
      by_cases h1 : major = 1 <;> by_cases h2 : minor = 0 <;> simp [h1, h2]⟩

instance : Lays Hlpb.AimConstraint.codec Hlpb.AimConstraint.layout := by
  unfold Hlpb.AimConstraint.codec; exact record_lays (fun _ => rfl) rfl (fun _ _ _ => Iff.rfl)

instance : Lays Hlpb.OrientConstraint.codec Hlpb.OrientConstraint.layout := by
  unfold Hlpb.OrientConstraint.codec; exact record_lays (fun _ => rfl) rfl (fun _ _ _ => Iff.rfl)

instance : Lays Hlpb.ConstraintType.codec Hlpb.ConstraintType.layout := reprEnum_lays (by decide)

instance : Lays Hlpb.V11Data.codec Hlpb.V11Data.layout := by
  unfold Hlpb.V11Data.codec; exact record_lays (fun _ => rfl) rfl (fun _ _ _ => Iff.rfl)

instance : LaysFile Hlpb := ⟨Hlpb.FileAt, by
  intro b v
  rw [format_lays rfl]
  simp only [SsbhType.format, Hlpb.format, tag_step, exists_error]
  cases v with
  | V11 v =>
    rw [two_numbers (M := 1) (N := 1) (P := Hlpb.V11Data.layout.stored b 24 v)]
    · simp only [and_assoc]; rfl
    · intro major minor
      by_cases h1 : major = 1 <;> by_cases h2 : minor = 1 <;> simp [h1, h2]⟩

instance : Lays Nufx.ShaderStages.codec Nufx.ShaderStages.layout := by
  unfold Nufx.ShaderStages.codec; exact record_lays (fun _ => rfl) rfl (fun _ _ _ => Iff.rfl)

instance : Lays Nufx.MaterialParameter.codec Nufx.MaterialParameter.layout := by
  unfold Nufx.MaterialParameter.codec; exact record_padAfter_lays (fun _ => rfl) rfl (fun _ _ _ => Iff.rfl)

instance : Lays Nufx.ShaderProgramV0.codec Nufx.ShaderProgramV0.layout := by
  unfold Nufx.ShaderProgramV0.codec; exact record_lays (fun _ => rfl) rfl (fun _ _ _ => Iff.rfl)

instance : Lays Nufx.UnkItem.codec Nufx.UnkItem.layout := by
  unfold Nufx.UnkItem.codec; exact record_lays (fun _ => rfl) rfl (fun _ _ _ => Iff.rfl)

instance : Lays Nufx.NufxV0.codec Nufx.NufxV0.layout := by
  unfold Nufx.NufxV0.codec; exact record_lays (fun _ => rfl) rfl (fun _ _ _ => Iff.rfl)

instance : Lays Nufx.VertexAttribute.codec Nufx.VertexAttribute.layout := by
  unfold Nufx.VertexAttribute.codec; exact record_lays (fun _ => rfl) rfl (fun _ _ _ => Iff.rfl)

instance : Lays Nufx.ShaderProgramV1.codec Nufx.ShaderProgramV1.layout := by
  unfold Nufx.ShaderProgramV1.codec; exact record_lays (fun _ => rfl) rfl (fun _ _ _ => Iff.rfl)

instance : Lays Nufx.NufxV1.codec Nufx.NufxV1.layout := by
  unfold Nufx.NufxV1.codec; exact record_lays (fun _ => rfl) rfl (fun _ _ _ => Iff.rfl)

instance : LaysFile Nufx := ⟨Nufx.FileAt, by
  intro b v
  rw [format_lays rfl]
  simp only [SsbhType.format, Nufx.format, tag_step, exists_error]
  cases v with
  | V0 v =>
    rw [two_numbers (M := 1) (N := 0) (P := Nufx.NufxV0.layout.stored b 24 v)]
    · simp only [and_assoc]; rfl
    · intro major minor
      by_cases h1 : major = 1 <;> by_cases h2 : minor = 0 <;> simp [h1, h2]
  | V1 v =>
    rw [two_numbers (M := 1) (N := 1) (P := Nufx.NufxV1.layout.stored b 24 v)]
    · simp only [and_assoc]; rfl
    · intro major minor
      by_cases h1 : major = 1 <;> by_cases h2 : minor = 1 <;> simp [h1, h2]⟩

instance : Lays Anim.TrackTypeV1.codec Anim.TrackTypeV1.layout := reprEnum_lays (by decide)

instance : Lays Anim.Property.codec Anim.Property.layout := by
  unfold Anim.Property.codec; exact record_lays (fun _ => rfl) rfl (fun _ _ _ => Iff.rfl)

instance : Lays Anim.TrackV1.codec Anim.TrackV1.layout := by
  unfold Anim.TrackV1.codec; exact record_lays (fun _ => rfl) rfl (fun _ _ _ => Iff.rfl)

instance : Lays Anim.GroupType.codec Anim.GroupType.layout := reprEnum_lays (by decide)

instance : Lays Anim.TrackTypeV2.codec Anim.TrackTypeV2.layout := reprEnum_lays (by decide)

instance : Lays Anim.CompressionType.codec Anim.CompressionType.layout := reprEnum_lays (by decide)

instance : Lays Anim.TrackFlags.codec Anim.TrackFlags.layout := by
  unfold Anim.TrackFlags.codec; exact record_padAfter_lays (fun _ => rfl) rfl (fun _ _ _ => Iff.rfl)

instance : Lays Anim.TransformFlags.codec Anim.TransformFlags.layout := inferInstanceAs (Lays bitfield32 Layout.u32)

instance : Lays Anim.TrackV2.codec Anim.TrackV2.layout := by
  unfold Anim.TrackV2.codec; exact record_lays (fun _ => rfl) rfl (fun _ _ _ => Iff.rfl)

instance : Lays Anim.Node.codec Anim.Node.layout := by
  unfold Anim.Node.codec; exact record_lays (fun _ => rfl) rfl (fun _ _ _ => Iff.rfl)

instance : Lays Anim.Group.codec Anim.Group.layout := by
  unfold Anim.Group.codec; exact record_lays (fun _ => rfl) rfl (fun _ _ _ => Iff.rfl)

instance : Lays Anim.UnkSubItem.codec Anim.UnkSubItem.layout := by
  unfold Anim.UnkSubItem.codec; exact record_lays (fun _ => rfl) rfl (fun _ _ _ => Iff.rfl)

instance : Lays Anim.UnkItem1.codec Anim.UnkItem1.layout := by
  unfold Anim.UnkItem1.codec; exact record_lays (fun _ => rfl) rfl (fun _ _ _ => Iff.rfl)

instance : Lays Anim.UnkItem2.codec Anim.UnkItem2.layout := by
  unfold Anim.UnkItem2.codec; exact record_lays (fun _ => rfl) rfl (fun _ _ _ => Iff.rfl)

instance : Lays Anim.UnkData.codec Anim.UnkData.layout := by
  unfold Anim.UnkData.codec; exact record_lays (fun _ => rfl) rfl (fun _ _ _ => Iff.rfl)

instance : Lays Anim.V12Data.codec Anim.V12Data.layout := by
  unfold Anim.V12Data.codec; exact record_lays (fun _ => rfl) rfl (fun _ _ _ => Iff.rfl)

instance : Lays Anim.V20Data.codec Anim.V20Data.layout := by
  unfold Anim.V20Data.codec; exact record_lays (fun _ => rfl) rfl (fun _ _ _ => Iff.rfl)

instance : Lays Anim.V21Data.codec Anim.V21Data.layout := by
  unfold Anim.V21Data.codec; exact record_lays (fun _ => rfl) rfl (fun _ _ _ => Iff.rfl)

instance : LaysFile Anim := ⟨Anim.FileAt, by
  intro b v
  rw [format_lays rfl]
  simp only [SsbhType.format, Anim.format, tag_step, exists_error]
  cases v with
  | V12 v =>
    rw [two_numbers (M := 1) (N := 2) (P := Anim.V12Data.layout.stored b 24 v)]
    · simp only [and_assoc]; rfl
    · intro major minor
      by_cases h1 : major = 1 <;> by_cases h2 : minor = 2 <;> simp [h1, h2]
  | V20 v =>
    rw [two_numbers (M := 2) (N := 0) (P := Anim.V20Data.layout.stored b 24 v)]
    · simp only [and_assoc]; rfl
    · intro major minor
      by_cases h1 : major = 2 <;> by_cases h2 : minor = 0 <;> simp [h1, h2]
  | V21 v =>
    rw [two_numbers (M := 2) (N := 1) (P := Anim.V21Data.layout.stored b 24 v)]
    · simp only [and_assoc]; rfl
    · intro major minor
      by_cases h1 : major = 2 <;> by_cases h2 : minor = 1 <;> simp [h1, h2]⟩

instance : Lays Mesh.BoundingSphere.codec Mesh.BoundingSphere.layout := by
  unfold Mesh.BoundingSphere.codec; exact record_lays (fun _ => rfl) rfl (fun _ _ _ => Iff.rfl)

instance : Lays Mesh.BoundingVolume.codec Mesh.BoundingVolume.layout := by
  unfold Mesh.BoundingVolume.codec; exact record_lays (fun _ => rfl) rfl (fun _ _ _ => Iff.rfl)

instance : Lays Mesh.OrientedBoundingBox.codec Mesh.OrientedBoundingBox.layout := by
  unfold Mesh.OrientedBoundingBox.codec; exact record_lays (fun _ => rfl) rfl (fun _ _ _ => Iff.rfl)

instance : Lays Mesh.BoundingInfo.codec Mesh.BoundingInfo.layout := by
  unfold Mesh.BoundingInfo.codec; exact record_lays (fun _ => rfl) rfl (fun _ _ _ => Iff.rfl)

instance : Lays Mesh.DrawElementType.codec Mesh.DrawElementType.layout := reprEnum_lays (by decide)

instance : Lays Mesh.DepthFlags.codec Mesh.DepthFlags.layout := by
  unfold Mesh.DepthFlags.codec; exact record_padAfter_lays (fun _ => rfl) rfl (fun _ _ _ => Iff.rfl)

instance {A : Type} {aC : Codec A} {aL : Layout A} [Lays aC aL] : Lays (Mesh.MeshObject.codec aC) (Mesh.MeshObject.layout aL) := by
  unfold Mesh.MeshObject.codec; exact record_lays (fun _ => rfl) (by simp only [Layout.i32, Layout.list, Layout.text, Layout.u32, Layout.u64, Mesh.BoundingInfo.layout, Mesh.DepthFlags.layout, Mesh.DrawElementType.layout, Mesh.MeshObject.layout, Layout.enum]) (fun _ _ _ => by simp only [Nat.add_assoc]; exact Iff.rfl)

instance : Lays Mesh.RiggingFlags.codec Mesh.RiggingFlags.layout := by
  unfold Mesh.RiggingFlags.codec; exact record_padAfter_lays (fun _ => rfl) rfl (fun _ _ _ => Iff.rfl)

instance {W2 : Type} {w2C : Codec W2} {w2L : Layout W2} [Lays w2C w2L] : Lays (Mesh.BoneBuffer.codec w2C) (Mesh.BoneBuffer.layout w2L) := by
  unfold Mesh.BoneBuffer.codec; exact record_lays (fun _ => rfl) rfl (fun _ _ _ => Iff.rfl)

instance {W3 : Type} {w3C : Codec W3} {w3L : Layout W3} [Lays w3C w3L] : Lays (Mesh.RiggingGroup.codec w3C) (Mesh.RiggingGroup.layout w3L) := by
  unfold Mesh.RiggingGroup.codec; exact record_lays (fun _ => rfl) rfl (fun _ _ _ => Iff.rfl)

instance {A : Type} {W1 : Type} {aC : Codec A} {aL : Layout A} [Lays aC aL] {w1C : Codec W1} {w1L : Layout W1} [Lays w1C w1L] : Lays (Mesh.MeshInner.codec aC w1C) (Mesh.MeshInner.layout aL w1L) := by
  unfold Mesh.MeshInner.codec; exact record_lays (fun _ => rfl) rfl (fun _ _ _ => Iff.rfl)

instance : Lays Mesh.AttributeUsageV8.codec Mesh.AttributeUsageV8.layout := reprEnum_lays (by decide)

instance : Lays Mesh.AttributeDataTypeV8.codec Mesh.AttributeDataTypeV8.layout := reprEnum_lays (by decide)

instance : Lays Mesh.AttributeV8.codec Mesh.AttributeV8.layout := by
  unfold Mesh.AttributeV8.codec; exact record_lays (fun _ => rfl) rfl (fun _ _ _ => Iff.rfl)

instance : Lays Mesh.VertexWeightV8.codec Mesh.VertexWeightV8.layout := by
  unfold Mesh.VertexWeightV8.codec; exact record_lays (fun _ => rfl) rfl (fun _ _ _ => Iff.rfl)

instance : Lays Mesh.AttributeUsageV9.codec Mesh.AttributeUsageV9.layout := reprEnum_lays (by decide)

instance : Lays Mesh.AttributeV9.codec Mesh.AttributeV9.layout := by
  unfold Mesh.AttributeV9.codec; exact record_lays (fun _ => rfl) rfl (fun _ _ _ => Iff.rfl)

instance : Lays Mesh.AttributeDataTypeV10.codec Mesh.AttributeDataTypeV10.layout := reprEnum_lays (by decide)

instance : Lays Mesh.AttributeV10.codec Mesh.AttributeV10.layout := by
  unfold Mesh.AttributeV10.codec; exact record_lays (fun _ => rfl) rfl (fun _ _ _ => Iff.rfl)

instance : LaysFile Mesh := ⟨Mesh.FileAt, by
  intro b v
  rw [format_lays rfl]
  simp only [SsbhType.format, Mesh.format, tag_step, exists_error]
  cases v with
  | V8 v =>
    rw [two_numbers (M := 1) (N := 8) (P := (Mesh.MeshInner.layout Mesh.AttributeV8.layout (Layout.list Mesh.VertexWeightV8.layout)).stored b 24 v)]
    · simp only [and_assoc]; rfl
    · intro major minor
      by_cases h1 : major = 1 <;> by_cases h2 : minor = 8 <;> simp [h1, h2]
  | V9 v =>
    rw [two_numbers (M := 1) (N := 9) (P := (Mesh.MeshInner.layout Mesh.AttributeV9.layout (Layout.list Mesh.VertexWeightV8.layout)).stored b 24 v)]
    · simp only [and_assoc]; rfl
    · intro major minor
      by_cases h1 : major = 1 <;> by_cases h2 : minor = 9 <;> simp [h1, h2]
  | V10 v =>
    rw [two_numbers (M := 1) (N := 10) (P := (Mesh.MeshInner.layout Mesh.AttributeV10.layout Layout.buffer).stored b 24 v)]
    · simp only [and_assoc]; rfl
    · intro major minor
      by_cases h1 : major = 1 <;> by_cases h2 : minor = 10 <;> simp [h1, h2]⟩

instance : Lays Matl.ParamId.codec Matl.ParamId.layout :=
  reprEnum_lays (by intro t ht; simp only [List.mem_range] at ht; omega)

instance : Lays Matl.WrapMode.codec Matl.WrapMode.layout := reprEnum_lays (by decide)

instance : Lays Matl.MinFilter.codec Matl.MinFilter.layout := reprEnum_lays (by decide)

instance : Lays Matl.MagFilter.codec Matl.MagFilter.layout := reprEnum_lays (by decide)

instance : Lays Matl.FilteringType.codec Matl.FilteringType.layout := reprEnum_lays (by decide)

instance : Lays Matl.MaxAnisotropy.codec Matl.MaxAnisotropy.layout := reprEnum_lays (by decide)

instance : Lays Matl.Sampler.codec Matl.Sampler.layout := by
  unfold Matl.Sampler.codec; exact record_lays (fun _ => rfl) rfl (fun _ _ _ => Iff.rfl)

instance : Lays Matl.UvTransform.codec Matl.UvTransform.layout := by
  unfold Matl.UvTransform.codec; exact record_lays (fun _ => rfl) rfl (fun _ _ _ => Iff.rfl)

instance : Lays Matl.BlendFactor.codec Matl.BlendFactor.layout := reprEnum_lays (by decide)

instance : Lays Matl.BlendOperation.codec Matl.BlendOperation.layout := reprEnum_lays (by decide)

instance : Lays Matl.BlendStateV15.codec Matl.BlendStateV15.layout := by
  unfold Matl.BlendStateV15.codec; exact record_lays (fun _ => rfl) rfl (fun _ _ _ => Iff.rfl)

instance : Lays Matl.CullMode.codec Matl.CullMode.layout := reprEnum_lays (by decide)

instance : Lays Matl.RasterizerStateV15.codec Matl.RasterizerStateV15.layout := by
  unfold Matl.RasterizerStateV15.codec; exact record_lays (fun _ => rfl) rfl (fun _ _ _ => Iff.rfl)

instance : LaysT Matl.ParamV15.tagged Matl.ParamV15.tagNumber Matl.ParamV15.DataAt := ⟨by
  intro k b p v
  simp only [Matl.ParamV15.tagged, tag_step, exists_error]
  cases v with
  | Float v => by_cases h : k = 1 <;> simp [h, Matl.ParamV15.tagNumber, Matl.ParamV15.DataAt]
  | Boolean v => by_cases h : k = 2 <;> simp [h, Matl.ParamV15.tagNumber, Matl.ParamV15.DataAt]
  | Vector4 v => by_cases h : k = 5 <;> simp [h, Matl.ParamV15.tagNumber, Matl.ParamV15.DataAt]
  | Unk7 v => by_cases h : k = 7 <;> simp [h, Matl.ParamV15.tagNumber, Matl.ParamV15.DataAt]
  | String v => by_cases h : k = 11 <;> simp [h, Matl.ParamV15.tagNumber, Matl.ParamV15.DataAt]
  | Sampler v => by_cases h : k = 14 <;> simp [h, Matl.ParamV15.tagNumber, Matl.ParamV15.DataAt]
  | UvTransform v => by_cases h : k = 16 <;> simp [h, Matl.ParamV15.tagNumber, Matl.ParamV15.DataAt]
  | BlendState v => by_cases h : k = 17 <;> simp [h, Matl.ParamV15.tagNumber, Matl.ParamV15.DataAt]
  | RasterizerState v => by_cases h : k = 18 <;> simp [h, Matl.ParamV15.tagNumber, Matl.ParamV15.DataAt]⟩

instance : Lays Matl.AttributeV15.codec Matl.AttributeV15.layout := by
  unfold Matl.AttributeV15.codec; exact record_lays (fun _ => rfl) rfl (fun _ _ _ => Iff.rfl)

instance : Lays Matl.MatlEntryV15.codec Matl.MatlEntryV15.layout := by
  unfold Matl.MatlEntryV15.codec; exact record_lays (fun _ => rfl) rfl (fun _ _ _ => Iff.rfl)

instance : Lays Matl.BlendStateV16.codec Matl.BlendStateV16.layout := by
  unfold Matl.BlendStateV16.codec; exact record_padAfterWrite_lays (fun _ => rfl) rfl (fun _ _ _ => Iff.rfl)

instance : Lays Matl.FillMode.codec Matl.FillMode.layout := reprEnum_lays (by decide)

instance : Lays Matl.RasterizerStateV16.codec Matl.RasterizerStateV16.layout := by
  unfold Matl.RasterizerStateV16.codec; exact record_padAfterWrite_lays (fun _ => rfl) rfl (fun _ _ _ => Iff.rfl)

instance : LaysT Matl.ParamV16.tagged Matl.ParamV16.tagNumber Matl.ParamV16.DataAt := ⟨by
  intro k b p v
  simp only [Matl.ParamV16.tagged, tag_step, exists_error]
  cases v with
  | Float v => by_cases h : k = 1 <;> simp [h, Matl.ParamV16.tagNumber, Matl.ParamV16.DataAt]
  | Boolean v => by_cases h : k = 2 <;> simp [h, Matl.ParamV16.tagNumber, Matl.ParamV16.DataAt]
  | Vector4 v => by_cases h : k = 5 <;> simp [h, Matl.ParamV16.tagNumber, Matl.ParamV16.DataAt]
  | Unk7 v => by_cases h : k = 7 <;> simp [h, Matl.ParamV16.tagNumber, Matl.ParamV16.DataAt]
  | String v => by_cases h : k = 11 <;> simp [h, Matl.ParamV16.tagNumber, Matl.ParamV16.DataAt]
  | Sampler v => by_cases h : k = 14 <;> simp [h, Matl.ParamV16.tagNumber, Matl.ParamV16.DataAt]
  | UvTransform v => by_cases h : k = 16 <;> simp [h, Matl.ParamV16.tagNumber, Matl.ParamV16.DataAt]
  | BlendState v => by_cases h : k = 17 <;> simp [h, Matl.ParamV16.tagNumber, Matl.ParamV16.DataAt]
  | RasterizerState v => by_cases h : k = 18 <;> simp [h, Matl.ParamV16.tagNumber, Matl.ParamV16.DataAt]⟩

instance : Lays Matl.AttributeV16.codec Matl.AttributeV16.layout := by
  unfold Matl.AttributeV16.codec; exact record_lays (fun _ => rfl) rfl (fun _ _ _ => Iff.rfl)

instance : Lays Matl.MatlEntryV16.codec Matl.MatlEntryV16.layout := by
  unfold Matl.MatlEntryV16.codec; exact record_lays (fun _ => rfl) rfl (fun _ _ _ => Iff.rfl)

instance : Lays Matl.V15Data.codec Matl.V15Data.layout := by
  unfold Matl.V15Data.codec; exact record_lays (fun _ => rfl) rfl (fun _ _ _ => Iff.rfl)

instance : Lays Matl.V16Data.codec Matl.V16Data.layout := by
  unfold Matl.V16Data.codec; exact record_lays (fun _ => rfl) rfl (fun _ _ _ => Iff.rfl)

instance : LaysFile Matl := ⟨Matl.FileAt, by
  intro b v
  rw [format_lays rfl]
  simp only [SsbhType.format, Matl.format, tag_step, exists_error]
  cases v with
  | V15 v =>
    rw [two_numbers (M := 1) (N := 5) (P := Matl.V15Data.layout.stored b 24 v)]
    · simp only [and_assoc]; rfl
    · intro major minor
      by_cases h1 : major = 1 <;> by_cases h2 : minor = 5 <;> simp [h1, h2]
  | V16 v =>
    rw [two_numbers (M := 1) (N := 6) (P := Matl.V16Data.layout.stored b 24 v)]
    · simp only [and_assoc]; rfl
    · intro major minor
      by_cases h1 : major = 1 <;> by_cases h2 : minor = 6 <;> simp [h1, h2]⟩

instance : Lays Nrpd.UnkFormat.codec Nrpd.UnkFormat.layout := reprEnum_lays (by decide)

instance : Lays Nrpd.Framebuffer0.codec Nrpd.Framebuffer0.layout := by
  unfold Nrpd.Framebuffer0.codec; exact record_lays (fun _ => rfl) rfl (fun _ _ _ => Iff.rfl)

instance : Lays Nrpd.Framebuffer1.codec Nrpd.Framebuffer1.layout := by
  unfold Nrpd.Framebuffer1.codec; exact record_lays (fun _ => rfl) rfl (fun _ _ _ => Iff.rfl)

instance : Lays Nrpd.UniformBuffer.codec Nrpd.UniformBuffer.layout := by
  unfold Nrpd.UniformBuffer.codec; exact record_lays (fun _ => rfl) rfl (fun _ _ _ => Iff.rfl)

instance : Lays Nrpd.Framebuffer3.codec Nrpd.Framebuffer3.layout := by
  unfold Nrpd.Framebuffer3.codec; exact record_lays (fun _ => rfl) rfl (fun _ _ _ => Iff.rfl)

instance : Lays Nrpd.Framebuffer4.codec Nrpd.Framebuffer4.layout := by
  unfold Nrpd.Framebuffer4.codec; exact record_lays (fun _ => rfl) rfl (fun _ _ _ => Iff.rfl)

instance : LaysT Nrpd.FrameBuffer.tagged Nrpd.FrameBuffer.tagNumber Nrpd.FrameBuffer.DataAt := ⟨by
  intro k b p v
  simp only [Nrpd.FrameBuffer.tagged, tag_step, exists_error]
  cases v with
  | Framebuffer0 v => by_cases h : k = 0 <;> simp [h, Nrpd.FrameBuffer.tagNumber, Nrpd.FrameBuffer.DataAt]
  | Framebuffer1 v => by_cases h : k = 1 <;> simp [h, Nrpd.FrameBuffer.tagNumber, Nrpd.FrameBuffer.DataAt]
  | UniformBuffer v => by_cases h : k = 2 <;> simp [h, Nrpd.FrameBuffer.tagNumber, Nrpd.FrameBuffer.DataAt]
  | Framebuffer3 v => by_cases h : k = 3 <;> simp [h, Nrpd.FrameBuffer.tagNumber, Nrpd.FrameBuffer.DataAt]
  | Framebuffer4 v => by_cases h : k = 4 <;> simp [h, Nrpd.FrameBuffer.tagNumber, Nrpd.FrameBuffer.DataAt]⟩

instance : Lays Nrpd.NrpdSampler.codec Nrpd.NrpdSampler.layout := by
  unfold Nrpd.NrpdSampler.codec; exact record_lays (fun _ => rfl) rfl (fun _ _ _ => Iff.rfl)

instance : Lays Nrpd.NrpdRasterizerState.codec Nrpd.NrpdRasterizerState.layout := by
  unfold Nrpd.NrpdRasterizerState.codec; exact record_lays (fun _ => rfl) rfl (fun _ _ _ => Iff.rfl)

instance : Lays Nrpd.DepthState.codec Nrpd.DepthState.layout := by
  unfold Nrpd.DepthState.codec; exact record_lays (fun _ => rfl) rfl (fun _ _ _ => Iff.rfl)

instance : Lays Nrpd.NrpdBlendState.codec Nrpd.NrpdBlendState.layout := by
  unfold Nrpd.NrpdBlendState.codec; exact record_lays (fun _ => rfl) rfl (fun _ _ _ => Iff.rfl)

instance : LaysT Nrpd.State.tagged Nrpd.State.tagNumber Nrpd.State.DataAt := ⟨by
  intro k b p v
  simp only [Nrpd.State.tagged, tag_step, exists_error]
  cases v with
  | Sampler v => by_cases h : k = 0 <;> simp [h, Nrpd.State.tagNumber, Nrpd.State.DataAt]
  | RasterizerState v => by_cases h : k = 1 <;> simp [h, Nrpd.State.tagNumber, Nrpd.State.DataAt]
  | DepthState v => by_cases h : k = 2 <;> simp [h, Nrpd.State.tagNumber, Nrpd.State.DataAt]
  | BlendState v => by_cases h : k = 3 <;> simp [h, Nrpd.State.tagNumber, Nrpd.State.DataAt]⟩

instance : Lays Nrpd.RenderPassData0.codec Nrpd.RenderPassData0.layout := by
  unfold Nrpd.RenderPassData0.codec; exact record_lays (fun _ => rfl) rfl (fun _ _ _ => Iff.rfl)

instance : Lays Nrpd.RenderPassData1.codec Nrpd.RenderPassData1.layout := by
  unfold Nrpd.RenderPassData1.codec; exact record_lays (fun _ => rfl) rfl (fun _ _ _ => Iff.rfl)

instance : Lays Nrpd.RenderPassData2.codec Nrpd.RenderPassData2.layout := by
  unfold Nrpd.RenderPassData2.codec; exact record_lays (fun _ => rfl) rfl (fun _ _ _ => Iff.rfl)

instance : Lays Nrpd.Unk8Data.codec Nrpd.Unk8Data.layout := by
  unfold Nrpd.Unk8Data.codec; exact record_lays (fun _ => rfl) rfl (fun _ _ _ => Iff.rfl)

instance : Lays Nrpd.RenderPassData3.codec Nrpd.RenderPassData3.layout := by
  unfold Nrpd.RenderPassData3.codec; exact record_lays (fun _ => rfl) rfl (fun _ _ _ => Iff.rfl)

instance : Lays Nrpd.RenderPassData8.codec Nrpd.RenderPassData8.layout := by
  unfold Nrpd.RenderPassData8.codec; exact record_lays (fun _ => rfl) rfl (fun _ _ _ => Iff.rfl)

instance : Lays Nrpd.ColorClear.codec Nrpd.ColorClear.layout := by
  unfold Nrpd.ColorClear.codec; exact record_lays (fun _ => rfl) rfl (fun _ _ _ => Iff.rfl)

instance : Lays Nrpd.DepthStencilClear.codec Nrpd.DepthStencilClear.layout := by
  unfold Nrpd.DepthStencilClear.codec; exact record_lays (fun _ => rfl) rfl (fun _ _ _ => Iff.rfl)

instance : Lays Nrpd.Viewport.codec Nrpd.Viewport.layout := by
  unfold Nrpd.Viewport.codec; exact record_lays (fun _ => rfl) rfl (fun _ _ _ => Iff.rfl)

instance : Lays Nrpd.RenderPassData13.codec Nrpd.RenderPassData13.layout := by
  unfold Nrpd.RenderPassData13.codec; exact record_lays (fun _ => rfl) rfl (fun _ _ _ => Iff.rfl)

instance : Lays Nrpd.StringPair.codec Nrpd.StringPair.layout := by
  unfold Nrpd.StringPair.codec; exact record_lays (fun _ => rfl) rfl (fun _ _ _ => Iff.rfl)

instance : Lays Nrpd.RenderPassData19.codec Nrpd.RenderPassData19.layout := by
  unfold Nrpd.RenderPassData19.codec; exact record_lays (fun _ => rfl) rfl (fun _ _ _ => Iff.rfl)

instance : LaysT Nrpd.RenderPassData.tagged Nrpd.RenderPassData.tagNumber Nrpd.RenderPassData.DataAt := ⟨by
  intro k b p v
  simp only [Nrpd.RenderPassData.tagged, tag_step, exists_error]
  cases v with
  | FramebufferRtp v => by_cases h : k = 0 <;> simp [h, Nrpd.RenderPassData.tagNumber, Nrpd.RenderPassData.DataAt]
  | PassUnk1 v => by_cases h : k = 1 <;> simp [h, Nrpd.RenderPassData.tagNumber, Nrpd.RenderPassData.DataAt]
  | UnkTexture1 v => by_cases h : k = 2 <;> simp [h, Nrpd.RenderPassData.tagNumber, Nrpd.RenderPassData.DataAt]
  | UnkLight v => by_cases h : k = 3 <;> simp [h, Nrpd.RenderPassData.tagNumber, Nrpd.RenderPassData.DataAt]
  | Unk8 v => by_cases h : k = 8 <;> simp [h, Nrpd.RenderPassData.tagNumber, Nrpd.RenderPassData.DataAt]
  | ColorClear v => by_cases h : k = 9 <;> simp [h, Nrpd.RenderPassData.tagNumber, Nrpd.RenderPassData.DataAt]
  | DepthStencilClear v => by_cases h : k = 10 <;> simp [h, Nrpd.RenderPassData.tagNumber, Nrpd.RenderPassData.DataAt]
  | Viewport v => by_cases h : k = 12 <;> simp [h, Nrpd.RenderPassData.tagNumber, Nrpd.RenderPassData.DataAt]
  | Sampler v => by_cases h : k = 13 <;> simp [h, Nrpd.RenderPassData.tagNumber, Nrpd.RenderPassData.DataAt]
  | BlendState v => by_cases h : k = 14 <;> simp [h, Nrpd.RenderPassData.tagNumber, Nrpd.RenderPassData.DataAt]
  | RasterizerState v => by_cases h : k = 15 <;> simp [h, Nrpd.RenderPassData.tagNumber, Nrpd.RenderPassData.DataAt]
  | DepthStencilState v => by_cases h : k = 16 <;> simp [h, Nrpd.RenderPassData.tagNumber, Nrpd.RenderPassData.DataAt]
  | FramebufferRenderTarget v => by_cases h : k = 17 <;> simp [h, Nrpd.RenderPassData.tagNumber, Nrpd.RenderPassData.DataAt]
  | FramebufferDepthStencil v => by_cases h : k = 18 <;> simp [h, Nrpd.RenderPassData.tagNumber, Nrpd.RenderPassData.DataAt]
  | UnkTexture2 v => by_cases h : k = 19 <;> simp [h, Nrpd.RenderPassData.tagNumber, Nrpd.RenderPassData.DataAt]⟩

instance : Lays Nrpd.Unk3Data.codec Nrpd.Unk3Data.layout := by
  unfold Nrpd.Unk3Data.codec; exact record_lays (fun _ => rfl) rfl (fun _ _ _ => Iff.rfl)

instance : LaysT Nrpd.RenderPassUnkData.tagged Nrpd.RenderPassUnkData.tagNumber Nrpd.RenderPassUnkData.DataAt := ⟨by
  intro k b p v
  simp only [Nrpd.RenderPassUnkData.tagged, tag_step, exists_error]
  cases v with
  | UnkDataUnk0 v => by_cases h : k = 0 <;> simp [h, Nrpd.RenderPassUnkData.tagNumber, Nrpd.RenderPassUnkData.DataAt, Layout.unit]
  | UnkDataUnk3 v => by_cases h : k = 3 <;> simp [h, Nrpd.RenderPassUnkData.tagNumber, Nrpd.RenderPassUnkData.DataAt]⟩

instance : Lays Nrpd.RenderPassContainer.codec Nrpd.RenderPassContainer.layout := by
  unfold Nrpd.RenderPassContainer.codec; exact record_padAfter_lays (fun _ => rfl) rfl (fun _ _ _ => Iff.rfl)

instance : Lays Nrpd.UnkItem20.codec Nrpd.UnkItem20.layout := by
  unfold Nrpd.UnkItem20.codec; exact record_lays (fun _ => rfl) rfl (fun _ _ _ => Iff.rfl)

instance : Lays Nrpd.UnkItem21.codec Nrpd.UnkItem21.layout := by
  unfold Nrpd.UnkItem21.codec; exact record_lays (fun _ => rfl) rfl (fun _ _ _ => Iff.rfl)

instance : Lays Nrpd.UnkItem22.codec Nrpd.UnkItem22.layout := by
  unfold Nrpd.UnkItem22.codec; exact record_lays (fun _ => rfl) rfl (fun _ _ _ => Iff.rfl)

instance : Lays Nrpd.UnkItem24.codec Nrpd.UnkItem24.layout := by
  unfold Nrpd.UnkItem24.codec; exact record_lays (fun _ => rfl) rfl (fun _ _ _ => Iff.rfl)

instance : LaysT Nrpd.UnkItem2.tagged Nrpd.UnkItem2.tagNumber Nrpd.UnkItem2.DataAt := ⟨by
  intro k b p v
  simp only [Nrpd.UnkItem2.tagged, tag_step, exists_error]
  cases v with
  | UnkItem20 v => by_cases h : k = 0 <;> simp [h, Nrpd.UnkItem2.tagNumber, Nrpd.UnkItem2.DataAt]
  | UnkItem21 v => by_cases h : k = 1 <;> simp [h, Nrpd.UnkItem2.tagNumber, Nrpd.UnkItem2.DataAt]
  | UnkItem22 v => by_cases h : k = 2 <;> simp [h, Nrpd.UnkItem2.tagNumber, Nrpd.UnkItem2.DataAt]
  | UnkItem24 v => by_cases h : k = 4 <;> simp [h, Nrpd.UnkItem2.tagNumber, Nrpd.UnkItem2.DataAt]⟩

instance : Lays Nrpd.UnkItem3.codec Nrpd.UnkItem3.layout := by
  unfold Nrpd.UnkItem3.codec; exact record_lays (fun _ => rfl) rfl (fun _ _ _ => Iff.rfl)

instance : Lays Nrpd.UnkItem1.codec Nrpd.UnkItem1.layout := by
  unfold Nrpd.UnkItem1.codec; exact record_lays (fun _ => rfl) rfl (fun _ _ _ => Iff.rfl)

instance : Lays Nrpd.V16Data.codec Nrpd.V16Data.layout := by
  unfold Nrpd.V16Data.codec; exact record_lays (fun _ => rfl) rfl (fun _ _ _ => Iff.rfl)

instance : LaysFile Nrpd := ⟨Nrpd.FileAt, by
  intro b v
  rw [format_lays rfl]
  simp only [SsbhType.format, Nrpd.format, tag_step, exists_error]
  cases v with
  | V16 v =>
    rw [two_numbers (M := 1) (N := 6) (P := Nrpd.V16Data.layout.stored b 24 v)]
    · simp only [and_assoc]; rfl
    · intro major minor
      by_cases h1 : major = 1 <;> by_cases h2 : minor = 6 <;> simp [h1, h2]⟩

end Verif
