import Verif.Derive.Same
import Verif.Derive.Formats
/-!
# The writers of the formats are the derived ones

Written by tools/gen_derive.py from the Rust definitions.
-/

namespace Verif

open Derive

instance : Derives Vector3.codec Vector3.ty := structDerives

instance : Derives Matrix3x3.codec Matrix3x3.ty := structDerives

instance : Derives Vector4.codec Vector4.ty := structDerives

instance : Derives Color4f.codec Color4f.ty := structDerives

instance : Derives Matrix4x4.codec Matrix4x4.ty := structDerives

instance : DerivesV Nlst.V10Data.codec none Nlst.V10Data.fields := structVariant

def Nlst.variantsVal : Nlst → Nlst.variants.Val
  | .V10 v => Variants.first (DerivesV.val (c := Nlst.V10Data.codec) v)

instance : DerivesFile Nlst Nlst.ty where
  val v := Nlst.variantsVal v
  size v := by
    cases v with
    | V10 v => exact (Is.first (c := Nlst.V10Data.codec) none _ _ v : Is none none Nlst.variants _ _ none _).fileSize
  write v w := by
    cases v with
    | V10 v => exact (Is.first (c := Nlst.V10Data.codec) none _ _ v : Is none none Nlst.variants _ _ none _).file (n := 1) (fun _ => rfl) w

instance : Derives Shdr.ShaderStage.codec Shdr.ShaderStage.ty := reprDerives 4 (by decide)

instance : Derives Shdr.Shader.codec Shdr.Shader.ty := structDerives

instance : DerivesV Shdr.V12Data.codec none Shdr.V12Data.fields := structVariant

def Shdr.variantsVal : Shdr → Shdr.variants.Val
  | .V12 v => Variants.first (DerivesV.val (c := Shdr.V12Data.codec) v)

instance : DerivesFile Shdr Shdr.ty where
  val v := Shdr.variantsVal v
  size v := by
    cases v with
    | V12 v => exact (Is.first (c := Shdr.V12Data.codec) none _ _ v : Is none none Shdr.variants _ _ none _).fileSize
  write v w := by
    cases v with
    | V12 v => exact (Is.first (c := Shdr.V12Data.codec) none _ _ v : Is none none Shdr.variants _ _ none _).file (n := 1) (fun _ => rfl) w

instance : Derives Modl.ModlEntry.codec Modl.ModlEntry.ty := structDerives

instance : DerivesV Modl.V17Data.codec none Modl.V17Data.fields := structVariant

def Modl.variantsVal : Modl → Modl.variants.Val
  | .V17 v => Variants.first (DerivesV.val (c := Modl.V17Data.codec) v)

instance : DerivesFile Modl Modl.ty where
  val v := Modl.variantsVal v
  size v := by
    cases v with
    | V17 v => exact (Is.first (c := Modl.V17Data.codec) none _ _ v : Is none none Modl.variants _ _ none _).fileSize
  write v w := by
    cases v with
    | V17 v => exact (Is.first (c := Modl.V17Data.codec) none _ _ v : Is none none Modl.variants _ _ none _).file (n := 1) (fun _ => rfl) w

instance : Derives Skel.BillboardType.codec Skel.BillboardType.ty := reprDerives 1 (by decide)

instance : Derives Skel.SkelEntryFlags.codec Skel.SkelEntryFlags.ty := structDerives

instance : Derives Skel.SkelBoneEntry.codec Skel.SkelBoneEntry.ty := structDerives

instance : DerivesV Skel.V10Data.codec none Skel.V10Data.fields := structVariant

def Skel.variantsVal : Skel → Skel.variants.Val
  | .V10 v => Variants.first (DerivesV.val (c := Skel.V10Data.codec) v)

instance : DerivesFile Skel Skel.ty where
  val v := Skel.variantsVal v
  size v := by
    cases v with
    | V10 v => exact (Is.first (c := Skel.V10Data.codec) none _ _ v : Is none none Skel.variants _ _ none _).fileSize
  write v w := by
    cases v with
    | V10 v => exact (Is.first (c := Skel.V10Data.codec) none _ _ v : Is none none Skel.variants _ _ none _).file (n := 1) (fun _ => rfl) w

instance : Derives Hlpb.AimConstraint.codec Hlpb.AimConstraint.ty := structDerives

instance : Derives Hlpb.OrientConstraint.codec Hlpb.OrientConstraint.ty := structDerives

instance : Derives Hlpb.ConstraintType.codec Hlpb.ConstraintType.ty := reprDerives 1 (by decide)

instance : DerivesV Hlpb.V11Data.codec none Hlpb.V11Data.fields := structVariant

def Hlpb.variantsVal : Hlpb → Hlpb.variants.Val
  | .V11 v => Variants.first (DerivesV.val (c := Hlpb.V11Data.codec) v)

instance : DerivesFile Hlpb Hlpb.ty where
  val v := Hlpb.variantsVal v
  size v := by
    cases v with
    | V11 v => exact (Is.first (c := Hlpb.V11Data.codec) none _ _ v : Is none none Hlpb.variants _ _ none _).fileSize
  write v w := by
    cases v with
    | V11 v => exact (Is.first (c := Hlpb.V11Data.codec) none _ _ v : Is none none Hlpb.variants _ _ none _).file (n := 1) (fun _ => rfl) w

instance : Derives Nufx.ShaderStages.codec Nufx.ShaderStages.ty := structDerives

instance : Derives Nufx.MaterialParameter.codec Nufx.MaterialParameter.ty := structDerives

instance : Derives Nufx.ShaderProgramV0.codec Nufx.ShaderProgramV0.ty := structDerives

instance : Derives Nufx.UnkItem.codec Nufx.UnkItem.ty := structDerives

instance : Derives Nufx.NufxV0.codec Nufx.NufxV0.ty := structDerives

instance : Derives Nufx.VertexAttribute.codec Nufx.VertexAttribute.ty := structDerives

instance : Derives Nufx.ShaderProgramV1.codec Nufx.ShaderProgramV1.ty := structDerives

instance : Derives Nufx.NufxV1.codec Nufx.NufxV1.ty := structDerives

def Nufx.variantsVal : Nufx → Nufx.variants.Val
  | .V0 v => Variants.first (DerivesV.val (c := struct 8 Nufx.NufxV0.codec) v)
  | .V1 v => Variants.later (Variants.first (DerivesV.val (c := struct 8 Nufx.NufxV1.codec) v))

instance : DerivesFile Nufx Nufx.ty where
  val v := Nufx.variantsVal v
  size v := by
    cases v with
    | V0 v => exact (Is.first (c := struct 8 Nufx.NufxV0.codec) none _ _ v : Is none none Nufx.variants _ _ none _).fileSize
    | V1 v => exact (Is.later (Is.first (c := struct 8 Nufx.NufxV1.codec) none _ _ v) : Is none none Nufx.variants _ _ none _).fileSize
  write v w := by
    cases v with
    | V0 v => exact (Is.first (c := struct 8 Nufx.NufxV0.codec) none _ _ v : Is none none Nufx.variants _ _ none _).file (n := 1) (fun _ => rfl) w
    | V1 v => exact (Is.later (Is.first (c := struct 8 Nufx.NufxV1.codec) none _ _ v) : Is none none Nufx.variants _ _ none _).file (n := 1) (fun _ => rfl) w

instance : Derives Anim.TrackTypeV1.codec Anim.TrackTypeV1.ty := reprDerives 1 (by decide)

instance : Derives Anim.Property.codec Anim.Property.ty := structDerives

instance : Derives Anim.TrackV1.codec Anim.TrackV1.ty := structDerives

instance : Derives Anim.GroupType.codec Anim.GroupType.ty := reprDerives 1 (by decide)

instance : Derives Anim.TrackTypeV2.codec Anim.TrackTypeV2.ty := reprDerives 1 (by decide)

instance : Derives Anim.CompressionType.codec Anim.CompressionType.ty := reprDerives 1 (by decide)

instance : Derives Anim.TrackFlags.codec Anim.TrackFlags.ty := structDerives

instance : Derives Anim.TransformFlags.codec Anim.TransformFlags.ty := inferInstanceAs (Derives bitfield32 (.bitfield 4))

instance : Derives Anim.TrackV2.codec Anim.TrackV2.ty := structDerives

instance : Derives Anim.Node.codec Anim.Node.ty := structDerives

instance : Derives Anim.Group.codec Anim.Group.ty := structDerives

instance : Derives Anim.UnkSubItem.codec Anim.UnkSubItem.ty := structDerives

instance : Derives Anim.UnkItem1.codec Anim.UnkItem1.ty := structDerives

instance : Derives Anim.UnkItem2.codec Anim.UnkItem2.ty := structDerives

instance : Derives Anim.UnkData.codec Anim.UnkData.ty := structDerives

instance : DerivesV Anim.V12Data.codec none Anim.V12Data.fields := structVariant

instance : DerivesV Anim.V20Data.codec none Anim.V20Data.fields := structVariant

instance : DerivesV Anim.V21Data.codec none Anim.V21Data.fields := structVariant

def Anim.variantsVal : Anim → Anim.variants.Val
  | .V12 v => Variants.first (DerivesV.val (c := Anim.V12Data.codec) v)
  | .V20 v => Variants.later (Variants.first (DerivesV.val (c := Anim.V20Data.codec) v))
  | .V21 v => Variants.later (Variants.later (Variants.first (DerivesV.val (c := Anim.V21Data.codec) v)))

instance : DerivesFile Anim Anim.ty where
  val v := Anim.variantsVal v
  size v := by
    cases v with
    | V12 v => exact (Is.first (c := Anim.V12Data.codec) none _ _ v : Is none none Anim.variants _ _ none _).fileSize
    | V20 v => exact (Is.later (Is.first (c := Anim.V20Data.codec) none _ _ v) : Is none none Anim.variants _ _ none _).fileSize
    | V21 v => exact (Is.later (Is.later (Is.first (c := Anim.V21Data.codec) none _ _ v)) : Is none (some 8) Anim.variants _ _ none _).fileSize
  write v w := by
    cases v with
    | V12 v => exact (Is.first (c := Anim.V12Data.codec) none _ _ v : Is none none Anim.variants _ _ none _).file (n := 1) (fun _ => rfl) w
    | V20 v => exact (Is.later (Is.first (c := Anim.V20Data.codec) none _ _ v) : Is none none Anim.variants _ _ none _).file (n := 1) (fun _ => rfl) w
    | V21 v => exact (Is.later (Is.later (Is.first (c := Anim.V21Data.codec) none _ _ v)) : Is none (some 8) Anim.variants _ _ none _).file (n := 8) (fun _ => rfl) w

instance : Derives Mesh.BoundingSphere.codec Mesh.BoundingSphere.ty := structDerives

instance : Derives Mesh.BoundingVolume.codec Mesh.BoundingVolume.ty := structDerives

instance : Derives Mesh.OrientedBoundingBox.codec Mesh.OrientedBoundingBox.ty := structDerives

instance : Derives Mesh.BoundingInfo.codec Mesh.BoundingInfo.ty := structDerives

instance : Derives Mesh.DrawElementType.codec Mesh.DrawElementType.ty := reprDerives 1 (by decide)

instance : Derives Mesh.DepthFlags.codec Mesh.DepthFlags.ty := structDerives

instance {A : Type} {aC : Codec A} [Derives aC aT] : Derives (Mesh.MeshObject.codec aC) (Mesh.MeshObject.ty aT) := structDerives

instance : Derives Mesh.RiggingFlags.codec Mesh.RiggingFlags.ty := structDerives

instance {W2 : Type} {w2C : Codec W2} [Derives w2C w2T] : Derives (Mesh.BoneBuffer.codec w2C) (Mesh.BoneBuffer.ty w2T) := structDerives

instance {W3 : Type} {w3C : Codec W3} [Derives w3C w3T] : Derives (Mesh.RiggingGroup.codec w3C) (Mesh.RiggingGroup.ty w3T) := structDerives

instance {A : Type} {aC : Codec A} [Derives aC aT] {W1 : Type} {w1C : Codec W1} [Derives w1C w1T] : Derives (Mesh.MeshInner.codec aC w1C) (Mesh.MeshInner.ty aT w1T) := structDerives

instance : Derives Mesh.AttributeUsageV8.codec Mesh.AttributeUsageV8.ty := reprDerives 1 (by decide)

instance : Derives Mesh.AttributeDataTypeV8.codec Mesh.AttributeDataTypeV8.ty := reprDerives 2 (by decide)

instance : Derives Mesh.AttributeV8.codec Mesh.AttributeV8.ty := structDerives

instance : Derives Mesh.VertexWeightV8.codec Mesh.VertexWeightV8.ty := structDerives

instance : Derives Mesh.AttributeUsageV9.codec Mesh.AttributeUsageV9.ty := reprDerives 1 (by decide)

instance : Derives Mesh.AttributeV9.codec Mesh.AttributeV9.ty := structDerives

instance : Derives Mesh.AttributeDataTypeV10.codec Mesh.AttributeDataTypeV10.ty := reprDerives 1 (by decide)

instance : Derives Mesh.AttributeV10.codec Mesh.AttributeV10.ty := structDerives

def Mesh.variantsVal : Mesh → Mesh.variants.Val
  | .V8 v => Variants.first (DerivesV.val (c := struct 8 (padAfterWrite 16 (Mesh.MeshInner.codec Mesh.AttributeV8.codec (array Mesh.VertexWeightV8.codec)))) v)
  | .V9 v => Variants.later (Variants.first (DerivesV.val (c := struct 8 (padAfterWrite 16 (Mesh.MeshInner.codec Mesh.AttributeV9.codec (array Mesh.VertexWeightV8.codec)))) v))
  | .V10 v => Variants.later (Variants.later (Variants.first (DerivesV.val (c := struct 8 (padAfterWrite 16 (Mesh.MeshInner.codec Mesh.AttributeV10.codec byteBuffer))) v)))

instance : DerivesFile Mesh Mesh.ty where
  val v := Mesh.variantsVal v
  size v := by
    cases v with
    | V8 v => exact (Is.first (c := struct 8 (padAfterWrite 16 (Mesh.MeshInner.codec Mesh.AttributeV8.codec (array Mesh.VertexWeightV8.codec)))) (some 8) _ _ v : Is (some 8) none Mesh.variants _ _ (some 16) _).fileSize
    | V9 v => exact (Is.later (Is.first (c := struct 8 (padAfterWrite 16 (Mesh.MeshInner.codec Mesh.AttributeV9.codec (array Mesh.VertexWeightV8.codec)))) (some 8) _ _ v) : Is (some 8) none Mesh.variants _ _ (some 16) _).fileSize
    | V10 v => exact (Is.later (Is.later (Is.first (c := struct 8 (padAfterWrite 16 (Mesh.MeshInner.codec Mesh.AttributeV10.codec byteBuffer))) (some 8) _ _ v)) : Is (some 8) none Mesh.variants _ _ (some 16) _).fileSize
  write v w := by
    cases v with
    | V8 v => exact (Is.first (c := struct 8 (padAfterWrite 16 (Mesh.MeshInner.codec Mesh.AttributeV8.codec (array Mesh.VertexWeightV8.codec)))) (some 8) _ _ v : Is (some 8) none Mesh.variants _ _ (some 16) _).file (n := 8) (fun _ => rfl) w
    | V9 v => exact (Is.later (Is.first (c := struct 8 (padAfterWrite 16 (Mesh.MeshInner.codec Mesh.AttributeV9.codec (array Mesh.VertexWeightV8.codec)))) (some 8) _ _ v) : Is (some 8) none Mesh.variants _ _ (some 16) _).file (n := 8) (fun _ => rfl) w
    | V10 v => exact (Is.later (Is.later (Is.first (c := struct 8 (padAfterWrite 16 (Mesh.MeshInner.codec Mesh.AttributeV10.codec byteBuffer))) (some 8) _ _ v)) : Is (some 8) none Mesh.variants _ _ (some 16) _).file (n := 8) (fun _ => rfl) w

instance : Derives Matl.ParamId.codec Matl.ParamId.ty := reprDerives 2 (by intro t ht; simp only [List.mem_range] at ht; omega)

instance : Derives Matl.WrapMode.codec Matl.WrapMode.ty := reprDerives 1 (by decide)

instance : Derives Matl.MinFilter.codec Matl.MinFilter.ty := reprDerives 1 (by decide)

instance : Derives Matl.MagFilter.codec Matl.MagFilter.ty := reprDerives 1 (by decide)

instance : Derives Matl.FilteringType.codec Matl.FilteringType.ty := reprDerives 1 (by decide)

instance : Derives Matl.MaxAnisotropy.codec Matl.MaxAnisotropy.ty := reprDerives 1 (by decide)

instance : Derives Matl.Sampler.codec Matl.Sampler.ty := structDerives

instance : Derives Matl.UvTransform.codec Matl.UvTransform.ty := structDerives

instance : Derives Matl.BlendFactor.codec Matl.BlendFactor.ty := reprDerives 1 (by decide)

instance : Derives Matl.BlendOperation.codec Matl.BlendOperation.ty := reprDerives 1 (by decide)

instance : Derives Matl.BlendStateV15.codec Matl.BlendStateV15.ty := structDerives

instance : Derives Matl.CullMode.codec Matl.CullMode.ty := reprDerives 1 (by decide)

instance : Derives Matl.RasterizerStateV15.codec Matl.RasterizerStateV15.ty := structDerives

def Matl.ParamV15.variantsVal : Matl.ParamV15 → Matl.ParamV15.variants.Val
  | .Float v => Variants.first (DerivesV.val (c := struct 8 f32) v)
  | .Boolean v => Variants.later (Variants.first (DerivesV.val (c := struct 8 u32) v))
  | .Vector4 v => Variants.later (Variants.later (Variants.first (DerivesV.val (c := struct 8 Vector4.codec) v)))
  | .Unk7 v => Variants.later (Variants.later (Variants.later (Variants.first (DerivesV.val (c := struct 8 Color4f.codec) v))))
  | .String v => Variants.later (Variants.later (Variants.later (Variants.later (Variants.first (DerivesV.val (c := struct 8 ssbhString) v)))))
  | .Sampler v => Variants.later (Variants.later (Variants.later (Variants.later (Variants.later (Variants.first (DerivesV.val (c := struct 8 Matl.Sampler.codec) v))))))
  | .UvTransform v => Variants.later (Variants.later (Variants.later (Variants.later (Variants.later (Variants.later (Variants.first (DerivesV.val (c := struct 8 Matl.UvTransform.codec) v)))))))
  | .BlendState v => Variants.later (Variants.later (Variants.later (Variants.later (Variants.later (Variants.later (Variants.later (Variants.first (DerivesV.val (c := struct 8 Matl.BlendStateV15.codec) v))))))))
  | .RasterizerState v => Variants.later (Variants.later (Variants.later (Variants.later (Variants.later (Variants.later (Variants.later (Variants.later (Variants.first (DerivesV.val (c := struct 8 Matl.RasterizerStateV15.codec) v)))))))))

instance : DerivesT Matl.ParamV15.tagged Matl.ParamV15.tags Matl.ParamV15.ty where
  val v := Matl.ParamV15.variantsVal v
  write v w := by
    cases v with
    | Float v => exact (Is.first (c := struct 8 f32) none _ _ v : Is none none Matl.ParamV15.variants _ _ _ _).tagged w
    | Boolean v => exact (Is.later (Is.first (c := struct 8 u32) none _ _ v) : Is none none Matl.ParamV15.variants _ _ _ _).tagged w
    | Vector4 v => exact (Is.later (Is.later (Is.first (c := struct 8 Vector4.codec) none _ _ v)) : Is none none Matl.ParamV15.variants _ _ _ _).tagged w
    | Unk7 v => exact (Is.later (Is.later (Is.later (Is.first (c := struct 8 Color4f.codec) none _ _ v))) : Is none none Matl.ParamV15.variants _ _ _ _).tagged w
    | String v => exact (Is.later (Is.later (Is.later (Is.later (Is.first (c := struct 8 ssbhString) none _ _ v)))) : Is none none Matl.ParamV15.variants _ _ _ _).tagged w
    | Sampler v => exact (Is.later (Is.later (Is.later (Is.later (Is.later (Is.first (c := struct 8 Matl.Sampler.codec) none _ _ v))))) : Is none none Matl.ParamV15.variants _ _ _ _).tagged w
    | UvTransform v => exact (Is.later (Is.later (Is.later (Is.later (Is.later (Is.later (Is.first (c := struct 8 Matl.UvTransform.codec) none _ _ v)))))) : Is none none Matl.ParamV15.variants _ _ _ _).tagged w
    | BlendState v => exact (Is.later (Is.later (Is.later (Is.later (Is.later (Is.later (Is.later (Is.first (c := struct 8 Matl.BlendStateV15.codec) none _ _ v))))))) : Is none none Matl.ParamV15.variants _ _ _ _).tagged w
    | RasterizerState v => exact (Is.later (Is.later (Is.later (Is.later (Is.later (Is.later (Is.later (Is.later (Is.first (c := struct 8 Matl.RasterizerStateV15.codec) none _ _ v)))))))) : Is none none Matl.ParamV15.variants _ _ _ _).tagged w
  align := rfl
  tag v := by cases v <;> rfl

instance : Derives Matl.AttributeV15.codec Matl.AttributeV15.ty := structDerives

instance : Derives Matl.MatlEntryV15.codec Matl.MatlEntryV15.ty := structDerives

instance : Derives Matl.BlendStateV16.codec Matl.BlendStateV16.ty := structDerives

instance : Derives Matl.FillMode.codec Matl.FillMode.ty := reprDerives 1 (by decide)

instance : Derives Matl.RasterizerStateV16.codec Matl.RasterizerStateV16.ty := structDerives

def Matl.ParamV16.variantsVal : Matl.ParamV16 → Matl.ParamV16.variants.Val
  | .Float v => Variants.first (DerivesV.val (c := struct 8 f32) v)
  | .Boolean v => Variants.later (Variants.first (DerivesV.val (c := struct 8 u32) v))
  | .Vector4 v => Variants.later (Variants.later (Variants.first (DerivesV.val (c := struct 8 Vector4.codec) v)))
  | .Unk7 v => Variants.later (Variants.later (Variants.later (Variants.first (DerivesV.val (c := struct 8 Color4f.codec) v))))
  | .String v => Variants.later (Variants.later (Variants.later (Variants.later (Variants.first (DerivesV.val (c := struct 8 ssbhString) v)))))
  | .Sampler v => Variants.later (Variants.later (Variants.later (Variants.later (Variants.later (Variants.first (DerivesV.val (c := struct 8 Matl.Sampler.codec) v))))))
  | .UvTransform v => Variants.later (Variants.later (Variants.later (Variants.later (Variants.later (Variants.later (Variants.first (DerivesV.val (c := struct 8 Matl.UvTransform.codec) v)))))))
  | .BlendState v => Variants.later (Variants.later (Variants.later (Variants.later (Variants.later (Variants.later (Variants.later (Variants.first (DerivesV.val (c := struct 8 Matl.BlendStateV16.codec) v))))))))
  | .RasterizerState v => Variants.later (Variants.later (Variants.later (Variants.later (Variants.later (Variants.later (Variants.later (Variants.later (Variants.first (DerivesV.val (c := struct 8 Matl.RasterizerStateV16.codec) v)))))))))

instance : DerivesT Matl.ParamV16.tagged Matl.ParamV16.tags Matl.ParamV16.ty where
  val v := Matl.ParamV16.variantsVal v
  write v w := by
    cases v with
    | Float v => exact (Is.first (c := struct 8 f32) none _ _ v : Is none none Matl.ParamV16.variants _ _ _ _).tagged w
    | Boolean v => exact (Is.later (Is.first (c := struct 8 u32) none _ _ v) : Is none none Matl.ParamV16.variants _ _ _ _).tagged w
    | Vector4 v => exact (Is.later (Is.later (Is.first (c := struct 8 Vector4.codec) none _ _ v)) : Is none none Matl.ParamV16.variants _ _ _ _).tagged w
    | Unk7 v => exact (Is.later (Is.later (Is.later (Is.first (c := struct 8 Color4f.codec) none _ _ v))) : Is none none Matl.ParamV16.variants _ _ _ _).tagged w
    | String v => exact (Is.later (Is.later (Is.later (Is.later (Is.first (c := struct 8 ssbhString) none _ _ v)))) : Is none none Matl.ParamV16.variants _ _ _ _).tagged w
    | Sampler v => exact (Is.later (Is.later (Is.later (Is.later (Is.later (Is.first (c := struct 8 Matl.Sampler.codec) none _ _ v))))) : Is none none Matl.ParamV16.variants _ _ _ _).tagged w
    | UvTransform v => exact (Is.later (Is.later (Is.later (Is.later (Is.later (Is.later (Is.first (c := struct 8 Matl.UvTransform.codec) none _ _ v)))))) : Is none none Matl.ParamV16.variants _ _ _ _).tagged w
    | BlendState v => exact (Is.later (Is.later (Is.later (Is.later (Is.later (Is.later (Is.later (Is.first (c := struct 8 Matl.BlendStateV16.codec) none _ _ v))))))) : Is none none Matl.ParamV16.variants _ _ _ _).tagged w
    | RasterizerState v => exact (Is.later (Is.later (Is.later (Is.later (Is.later (Is.later (Is.later (Is.later (Is.first (c := struct 8 Matl.RasterizerStateV16.codec) none _ _ v)))))))) : Is none none Matl.ParamV16.variants _ _ _ _).tagged w
  align := rfl
  tag v := by cases v <;> rfl

instance : Derives Matl.AttributeV16.codec Matl.AttributeV16.ty := structDerives

instance : Derives Matl.MatlEntryV16.codec Matl.MatlEntryV16.ty := structDerives

instance : DerivesV Matl.V15Data.codec none Matl.V15Data.fields := structVariant

instance : DerivesV Matl.V16Data.codec none Matl.V16Data.fields := structVariant

def Matl.variantsVal : Matl → Matl.variants.Val
  | .V15 v => Variants.first (DerivesV.val (c := Matl.V15Data.codec) v)
  | .V16 v => Variants.later (Variants.first (DerivesV.val (c := Matl.V16Data.codec) v))

instance : DerivesFile Matl Matl.ty where
  val v := Matl.variantsVal v
  size v := by
    cases v with
    | V15 v => exact (Is.first (c := Matl.V15Data.codec) none _ _ v : Is none none Matl.variants _ _ none _).fileSize
    | V16 v => exact (Is.later (Is.first (c := Matl.V16Data.codec) none _ _ v) : Is none none Matl.variants _ _ none _).fileSize
  write v w := by
    cases v with
    | V15 v => exact (Is.first (c := Matl.V15Data.codec) none _ _ v : Is none none Matl.variants _ _ none _).file (n := 1) (fun _ => rfl) w
    | V16 v => exact (Is.later (Is.first (c := Matl.V16Data.codec) none _ _ v) : Is none none Matl.variants _ _ none _).file (n := 1) (fun _ => rfl) w

instance : Derives Nrpd.UnkFormat.codec Nrpd.UnkFormat.ty := reprDerives 2 (by decide)

instance : Derives Nrpd.Framebuffer0.codec Nrpd.Framebuffer0.ty := structDerives

instance : Derives Nrpd.Framebuffer1.codec Nrpd.Framebuffer1.ty := structDerives

instance : Derives Nrpd.UniformBuffer.codec Nrpd.UniformBuffer.ty := structDerives

instance : Derives Nrpd.Framebuffer3.codec Nrpd.Framebuffer3.ty := structDerives

instance : Derives Nrpd.Framebuffer4.codec Nrpd.Framebuffer4.ty := structDerives

def Nrpd.FrameBuffer.variantsVal : Nrpd.FrameBuffer → Nrpd.FrameBuffer.variants.Val
  | .Framebuffer0 v => Variants.first (DerivesV.val (c := struct 8 Nrpd.Framebuffer0.codec) v)
  | .Framebuffer1 v => Variants.later (Variants.first (DerivesV.val (c := struct 8 Nrpd.Framebuffer1.codec) v))
  | .UniformBuffer v => Variants.later (Variants.later (Variants.first (DerivesV.val (c := struct 8 Nrpd.UniformBuffer.codec) v)))
  | .Framebuffer3 v => Variants.later (Variants.later (Variants.later (Variants.first (DerivesV.val (c := struct 8 Nrpd.Framebuffer3.codec) v))))
  | .Framebuffer4 v => Variants.later (Variants.later (Variants.later (Variants.later (Variants.first (DerivesV.val (c := struct 8 Nrpd.Framebuffer4.codec) v)))))

instance : DerivesT Nrpd.FrameBuffer.tagged Nrpd.FrameBuffer.tags Nrpd.FrameBuffer.ty where
  val v := Nrpd.FrameBuffer.variantsVal v
  write v w := by
    cases v with
    | Framebuffer0 v => exact (Is.first (c := struct 8 Nrpd.Framebuffer0.codec) none _ _ v : Is none none Nrpd.FrameBuffer.variants _ _ _ _).tagged w
    | Framebuffer1 v => exact (Is.later (Is.first (c := struct 8 Nrpd.Framebuffer1.codec) none _ _ v) : Is none none Nrpd.FrameBuffer.variants _ _ _ _).tagged w
    | UniformBuffer v => exact (Is.later (Is.later (Is.first (c := struct 8 Nrpd.UniformBuffer.codec) none _ _ v)) : Is none none Nrpd.FrameBuffer.variants _ _ _ _).tagged w
    | Framebuffer3 v => exact (Is.later (Is.later (Is.later (Is.first (c := struct 8 Nrpd.Framebuffer3.codec) none _ _ v))) : Is none none Nrpd.FrameBuffer.variants _ _ _ _).tagged w
    | Framebuffer4 v => exact (Is.later (Is.later (Is.later (Is.later (Is.first (c := struct 8 Nrpd.Framebuffer4.codec) none _ _ v)))) : Is none none Nrpd.FrameBuffer.variants _ _ _ _).tagged w
  align := rfl
  tag v := by cases v <;> rfl

instance : Derives Nrpd.NrpdSampler.codec Nrpd.NrpdSampler.ty := structDerives

instance : Derives Nrpd.NrpdRasterizerState.codec Nrpd.NrpdRasterizerState.ty := structDerives

instance : Derives Nrpd.DepthState.codec Nrpd.DepthState.ty := structDerives

instance : Derives Nrpd.NrpdBlendState.codec Nrpd.NrpdBlendState.ty := structDerives

def Nrpd.State.variantsVal : Nrpd.State → Nrpd.State.variants.Val
  | .Sampler v => Variants.first (DerivesV.val (c := struct 8 Nrpd.NrpdSampler.codec) v)
  | .RasterizerState v => Variants.later (Variants.first (DerivesV.val (c := struct 8 Nrpd.NrpdRasterizerState.codec) v))
  | .DepthState v => Variants.later (Variants.later (Variants.first (DerivesV.val (c := struct 8 Nrpd.DepthState.codec) v)))
  | .BlendState v => Variants.later (Variants.later (Variants.later (Variants.first (DerivesV.val (c := struct 8 Nrpd.NrpdBlendState.codec) v))))

instance : DerivesT Nrpd.State.tagged Nrpd.State.tags Nrpd.State.ty where
  val v := Nrpd.State.variantsVal v
  write v w := by
    cases v with
    | Sampler v => exact (Is.first (c := struct 8 Nrpd.NrpdSampler.codec) none _ _ v : Is none none Nrpd.State.variants _ _ _ _).tagged w
    | RasterizerState v => exact (Is.later (Is.first (c := struct 8 Nrpd.NrpdRasterizerState.codec) none _ _ v) : Is none none Nrpd.State.variants _ _ _ _).tagged w
    | DepthState v => exact (Is.later (Is.later (Is.first (c := struct 8 Nrpd.DepthState.codec) none _ _ v)) : Is none none Nrpd.State.variants _ _ _ _).tagged w
    | BlendState v => exact (Is.later (Is.later (Is.later (Is.first (c := struct 8 Nrpd.NrpdBlendState.codec) none _ _ v))) : Is none none Nrpd.State.variants _ _ _ _).tagged w
  align := rfl
  tag v := by cases v <;> rfl

instance : Derives Nrpd.RenderPassData0.codec Nrpd.RenderPassData0.ty := structDerives

instance : Derives Nrpd.RenderPassData1.codec Nrpd.RenderPassData1.ty := structDerives

instance : Derives Nrpd.RenderPassData2.codec Nrpd.RenderPassData2.ty := structDerives

instance : Derives Nrpd.Unk8Data.codec Nrpd.Unk8Data.ty := structDerives

instance : DerivesP Nrpd.Unk8Data.codec Nrpd.Unk8Data.ty := .of inferInstance rfl

instance : Derives Nrpd.RenderPassData3.codec Nrpd.RenderPassData3.ty := structDerives

instance : Derives Nrpd.RenderPassData8.codec Nrpd.RenderPassData8.ty := structDerives

instance : Derives Nrpd.ColorClear.codec Nrpd.ColorClear.ty := structDerives

instance : Derives Nrpd.DepthStencilClear.codec Nrpd.DepthStencilClear.ty := structDerives

instance : Derives Nrpd.Viewport.codec Nrpd.Viewport.ty := structDerives

instance : Derives Nrpd.RenderPassData13.codec Nrpd.RenderPassData13.ty := structDerives

instance : Derives Nrpd.StringPair.codec Nrpd.StringPair.ty := structDerives

instance : Derives Nrpd.RenderPassData19.codec Nrpd.RenderPassData19.ty := structDerives

def Nrpd.RenderPassData.variantsVal : Nrpd.RenderPassData → Nrpd.RenderPassData.variants.Val
  | .FramebufferRtp v => Variants.first (DerivesV.val (c := struct 8 Nrpd.RenderPassData0.codec) v)
  | .PassUnk1 v => Variants.later (Variants.first (DerivesV.val (c := struct 8 Nrpd.RenderPassData1.codec) v))
  | .UnkTexture1 v => Variants.later (Variants.later (Variants.first (DerivesV.val (c := struct 8 Nrpd.RenderPassData2.codec) v)))
  | .UnkLight v => Variants.later (Variants.later (Variants.later (Variants.first (DerivesV.val (c := struct 8 Nrpd.RenderPassData3.codec) v))))
  | .Unk8 v => Variants.later (Variants.later (Variants.later (Variants.later (Variants.first (DerivesV.val (c := struct 8 Nrpd.RenderPassData8.codec) v)))))
  | .ColorClear v => Variants.later (Variants.later (Variants.later (Variants.later (Variants.later (Variants.first (DerivesV.val (c := struct 8 Nrpd.ColorClear.codec) v))))))
  | .DepthStencilClear v => Variants.later (Variants.later (Variants.later (Variants.later (Variants.later (Variants.later (Variants.first (DerivesV.val (c := struct 8 Nrpd.DepthStencilClear.codec) v)))))))
  | .Viewport v => Variants.later (Variants.later (Variants.later (Variants.later (Variants.later (Variants.later (Variants.later (Variants.first (DerivesV.val (c := struct 8 Nrpd.Viewport.codec) v))))))))
  | .Sampler v => Variants.later (Variants.later (Variants.later (Variants.later (Variants.later (Variants.later (Variants.later (Variants.later (Variants.first (DerivesV.val (c := struct 8 Nrpd.RenderPassData13.codec) v)))))))))
  | .BlendState v => Variants.later (Variants.later (Variants.later (Variants.later (Variants.later (Variants.later (Variants.later (Variants.later (Variants.later (Variants.first (DerivesV.val (c := struct 8 Nrpd.StringPair.codec) v))))))))))
  | .RasterizerState v => Variants.later (Variants.later (Variants.later (Variants.later (Variants.later (Variants.later (Variants.later (Variants.later (Variants.later (Variants.later (Variants.first (DerivesV.val (c := struct 8 Nrpd.StringPair.codec) v)))))))))))
  | .DepthStencilState v => Variants.later (Variants.later (Variants.later (Variants.later (Variants.later (Variants.later (Variants.later (Variants.later (Variants.later (Variants.later (Variants.later (Variants.first (DerivesV.val (c := struct 8 Nrpd.StringPair.codec) v))))))))))))
  | .FramebufferRenderTarget v => Variants.later (Variants.later (Variants.later (Variants.later (Variants.later (Variants.later (Variants.later (Variants.later (Variants.later (Variants.later (Variants.later (Variants.later (Variants.first (DerivesV.val (c := struct 8 ssbhString) v)))))))))))))
  | .FramebufferDepthStencil v => Variants.later (Variants.later (Variants.later (Variants.later (Variants.later (Variants.later (Variants.later (Variants.later (Variants.later (Variants.later (Variants.later (Variants.later (Variants.later (Variants.first (DerivesV.val (c := struct 8 ssbhString) v))))))))))))))
  | .UnkTexture2 v => Variants.later (Variants.later (Variants.later (Variants.later (Variants.later (Variants.later (Variants.later (Variants.later (Variants.later (Variants.later (Variants.later (Variants.later (Variants.later (Variants.later (Variants.first (DerivesV.val (c := struct 8 Nrpd.RenderPassData19.codec) v)))))))))))))))

instance : DerivesT Nrpd.RenderPassData.tagged Nrpd.RenderPassData.tags Nrpd.RenderPassData.ty where
  val v := Nrpd.RenderPassData.variantsVal v
  write v w := by
    cases v with
    | FramebufferRtp v => exact (Is.first (c := struct 8 Nrpd.RenderPassData0.codec) none _ _ v : Is none none Nrpd.RenderPassData.variants _ _ _ _).tagged w
    | PassUnk1 v => exact (Is.later (Is.first (c := struct 8 Nrpd.RenderPassData1.codec) none _ _ v) : Is none none Nrpd.RenderPassData.variants _ _ _ _).tagged w
    | UnkTexture1 v => exact (Is.later (Is.later (Is.first (c := struct 8 Nrpd.RenderPassData2.codec) none _ _ v)) : Is none none Nrpd.RenderPassData.variants _ _ _ _).tagged w
    | UnkLight v => exact (Is.later (Is.later (Is.later (Is.first (c := struct 8 Nrpd.RenderPassData3.codec) none _ _ v))) : Is none none Nrpd.RenderPassData.variants _ _ _ _).tagged w
    | Unk8 v => exact (Is.later (Is.later (Is.later (Is.later (Is.first (c := struct 8 Nrpd.RenderPassData8.codec) none _ _ v)))) : Is none none Nrpd.RenderPassData.variants _ _ _ _).tagged w
    | ColorClear v => exact (Is.later (Is.later (Is.later (Is.later (Is.later (Is.first (c := struct 8 Nrpd.ColorClear.codec) none _ _ v))))) : Is none none Nrpd.RenderPassData.variants _ _ _ _).tagged w
    | DepthStencilClear v => exact (Is.later (Is.later (Is.later (Is.later (Is.later (Is.later (Is.first (c := struct 8 Nrpd.DepthStencilClear.codec) none _ _ v)))))) : Is none none Nrpd.RenderPassData.variants _ _ _ _).tagged w
    | Viewport v => exact (Is.later (Is.later (Is.later (Is.later (Is.later (Is.later (Is.later (Is.first (c := struct 8 Nrpd.Viewport.codec) none _ _ v))))))) : Is none none Nrpd.RenderPassData.variants _ _ _ _).tagged w
    | Sampler v => exact (Is.later (Is.later (Is.later (Is.later (Is.later (Is.later (Is.later (Is.later (Is.first (c := struct 8 Nrpd.RenderPassData13.codec) none _ _ v)))))))) : Is none none Nrpd.RenderPassData.variants _ _ _ _).tagged w
    | BlendState v => exact (Is.later (Is.later (Is.later (Is.later (Is.later (Is.later (Is.later (Is.later (Is.later (Is.first (c := struct 8 Nrpd.StringPair.codec) none _ _ v))))))))) : Is none none Nrpd.RenderPassData.variants _ _ _ _).tagged w
    | RasterizerState v => exact (Is.later (Is.later (Is.later (Is.later (Is.later (Is.later (Is.later (Is.later (Is.later (Is.later (Is.first (c := struct 8 Nrpd.StringPair.codec) none _ _ v)))))))))) : Is none none Nrpd.RenderPassData.variants _ _ _ _).tagged w
    | DepthStencilState v => exact (Is.later (Is.later (Is.later (Is.later (Is.later (Is.later (Is.later (Is.later (Is.later (Is.later (Is.later (Is.first (c := struct 8 Nrpd.StringPair.codec) none _ _ v))))))))))) : Is none none Nrpd.RenderPassData.variants _ _ _ _).tagged w
    | FramebufferRenderTarget v => exact (Is.later (Is.later (Is.later (Is.later (Is.later (Is.later (Is.later (Is.later (Is.later (Is.later (Is.later (Is.later (Is.first (c := struct 8 ssbhString) none _ _ v)))))))))))) : Is none none Nrpd.RenderPassData.variants _ _ _ _).tagged w
    | FramebufferDepthStencil v => exact (Is.later (Is.later (Is.later (Is.later (Is.later (Is.later (Is.later (Is.later (Is.later (Is.later (Is.later (Is.later (Is.later (Is.first (c := struct 8 ssbhString) none _ _ v))))))))))))) : Is none none Nrpd.RenderPassData.variants _ _ _ _).tagged w
    | UnkTexture2 v => exact (Is.later (Is.later (Is.later (Is.later (Is.later (Is.later (Is.later (Is.later (Is.later (Is.later (Is.later (Is.later (Is.later (Is.later (Is.first (c := struct 8 Nrpd.RenderPassData19.codec) none _ _ v)))))))))))))) : Is none none Nrpd.RenderPassData.variants _ _ _ _).tagged w
  align := rfl
  tag v := by cases v <;> rfl

instance : Derives Nrpd.Unk3Data.codec Nrpd.Unk3Data.ty := structDerives

def Nrpd.RenderPassUnkData.variantsVal : Nrpd.RenderPassUnkData → Nrpd.RenderPassUnkData.variants.Val
  | .UnkDataUnk0 v => Variants.first (DerivesV.val (c := struct 8 unitC) v)
  | .UnkDataUnk3 v => Variants.later (Variants.first (DerivesV.val (c := struct 8 Nrpd.Unk3Data.codec) v))

instance : DerivesT Nrpd.RenderPassUnkData.tagged Nrpd.RenderPassUnkData.tags Nrpd.RenderPassUnkData.ty where
  val v := Nrpd.RenderPassUnkData.variantsVal v
  write v w := by
    cases v with
    | UnkDataUnk0 v => exact (Is.first (c := struct 8 unitC) none _ _ v : Is none none Nrpd.RenderPassUnkData.variants _ _ _ _).tagged w
    | UnkDataUnk3 v => exact (Is.later (Is.first (c := struct 8 Nrpd.Unk3Data.codec) none _ _ v) : Is none none Nrpd.RenderPassUnkData.variants _ _ _ _).tagged w
  align := rfl
  tag v := by cases v <;> rfl

instance : Derives Nrpd.RenderPassContainer.codec Nrpd.RenderPassContainer.ty := structDerives

instance : Derives Nrpd.UnkItem20.codec Nrpd.UnkItem20.ty := structDerives

instance : Derives Nrpd.UnkItem21.codec Nrpd.UnkItem21.ty := structDerives

instance : Derives Nrpd.UnkItem22.codec Nrpd.UnkItem22.ty := structDerives

instance : Derives Nrpd.UnkItem24.codec Nrpd.UnkItem24.ty := structDerives

def Nrpd.UnkItem2.variantsVal : Nrpd.UnkItem2 → Nrpd.UnkItem2.variants.Val
  | .UnkItem20 v => Variants.first (DerivesV.val (c := struct 8 Nrpd.UnkItem20.codec) v)
  | .UnkItem21 v => Variants.later (Variants.first (DerivesV.val (c := struct 8 Nrpd.UnkItem21.codec) v))
  | .UnkItem22 v => Variants.later (Variants.later (Variants.first (DerivesV.val (c := struct 8 Nrpd.UnkItem22.codec) v)))
  | .UnkItem24 v => Variants.later (Variants.later (Variants.later (Variants.first (DerivesV.val (c := struct 8 Nrpd.UnkItem24.codec) v))))

instance : DerivesT Nrpd.UnkItem2.tagged Nrpd.UnkItem2.tags Nrpd.UnkItem2.ty where
  val v := Nrpd.UnkItem2.variantsVal v
  write v w := by
    cases v with
    | UnkItem20 v => exact (Is.first (c := struct 8 Nrpd.UnkItem20.codec) none _ _ v : Is none none Nrpd.UnkItem2.variants _ _ _ _).tagged w
    | UnkItem21 v => exact (Is.later (Is.first (c := struct 8 Nrpd.UnkItem21.codec) none _ _ v) : Is none none Nrpd.UnkItem2.variants _ _ _ _).tagged w
    | UnkItem22 v => exact (Is.later (Is.later (Is.first (c := struct 8 Nrpd.UnkItem22.codec) none _ _ v)) : Is none none Nrpd.UnkItem2.variants _ _ _ _).tagged w
    | UnkItem24 v => exact (Is.later (Is.later (Is.later (Is.first (c := struct 8 Nrpd.UnkItem24.codec) none _ _ v))) : Is none none Nrpd.UnkItem2.variants _ _ _ _).tagged w
  align := rfl
  tag v := by cases v <;> rfl

instance : Derives Nrpd.UnkItem3.codec Nrpd.UnkItem3.ty := structDerives

instance : Derives Nrpd.UnkItem1.codec Nrpd.UnkItem1.ty := structDerives

instance : DerivesV Nrpd.V16Data.codec none Nrpd.V16Data.fields := structVariant

def Nrpd.variantsVal : Nrpd → Nrpd.variants.Val
  | .V16 v => Variants.first (DerivesV.val (c := Nrpd.V16Data.codec) v)

instance : DerivesFile Nrpd Nrpd.ty where
  val v := Nrpd.variantsVal v
  size v := by
    cases v with
    | V16 v => exact (Is.first (c := Nrpd.V16Data.codec) none _ _ v : Is none none Nrpd.variants _ _ none _).fileSize
  write v w := by
    cases v with
    | V16 v => exact (Is.first (c := Nrpd.V16Data.codec) none _ _ v : Is none none Nrpd.variants _ _ none _).file (n := 1) (fun _ => rfl) w

end Verif
