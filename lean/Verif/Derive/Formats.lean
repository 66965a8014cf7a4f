import Verif.Derive.Model
/-!
# The definitions of the types in ssbh_lib

Written by tools/gen_derive.py from the Rust definitions.
-/

namespace Verif

open Derive

/-! ## Vectors and matrices -/

/-- /repo/ssbh_lib/src/vectors.rs:11-15 -/
def Vector3.ty : Ty :=
  .named {} (.cons none none (.number 4) (.cons none none (.number 4) (.cons none none (.number 4) .nil)))

/-- /repo/ssbh_lib/src/vectors.rs:134-138 -/
def Matrix3x3.ty : Ty :=
  .named {} (.cons none none Vector3.ty (.cons none none Vector3.ty (.cons none none Vector3.ty .nil)))

/-- /repo/ssbh_lib/src/vectors.rs:216-221 -/
def Vector4.ty : Ty :=
  .named {} (.cons none none (.number 4) (.cons none none (.number 4) (.cons none none (.number 4) (.cons none none (.number 4) .nil))))

/-- /repo/ssbh_lib/src/vectors.rs:332-337 -/
def Color4f.ty : Ty :=
  .named {} (.cons none none (.number 4) (.cons none none (.number 4) (.cons none none (.number 4) (.cons none none (.number 4) .nil))))

/-- /repo/ssbh_lib/src/vectors.rs:343-348 -/
def Matrix4x4.ty : Ty :=
  .named {} (.cons none none Vector4.ty (.cons none none Vector4.ty (.cons none none Vector4.ty (.cons none none Vector4.ty .nil))))

/-! ## Nlst -/

/-- `Nlst::V10`, /repo/ssbh_lib/src/formats/nlst.rs:14-17 -/
def Nlst.V10Data.fields : Fields :=
  (.cons none none (.list (.text 4)) .nil)

/-- /repo/ssbh_lib/src/formats/nlst.rs:14-17 -/
def Nlst.variants : Variants :=
  (.cons none none Nlst.V10Data.fields .nil)
def Nlst.ty : Ty := .enum {} Nlst.variants

/-! ## Shdr -/

/-- /repo/ssbh_lib/src/formats/shdr.rs:47-52: with `#[repr]` the enum has 4 bytes in memory. -/
def Shdr.ShaderStage.ty : Ty := .repr {} 4 4

/-- /repo/ssbh_lib/src/formats/shdr.rs:30-39 -/
def Shdr.Shader.ty : Ty :=
  .named { padAfter := some 16 } (.cons none none (.text 4) (.cons none none Shdr.ShaderStage.ty (.cons none none (.number 4) (.cons none none .buffer (.cons none none (.number 8) .nil)))))

/-- `Shdr::V12`, /repo/ssbh_lib/src/formats/shdr.rs:13-16 -/
def Shdr.V12Data.fields : Fields :=
  (.cons none none (.list Shdr.Shader.ty) .nil)

/-- /repo/ssbh_lib/src/formats/shdr.rs:13-16 -/
def Shdr.variants : Variants :=
  (.cons none none Shdr.V12Data.fields .nil)
def Shdr.ty : Ty := .enum {} Shdr.variants

/-! ## Modl -/

/-- /repo/ssbh_lib/src/formats/modl.rs:48-57 -/
def Modl.ModlEntry.ty : Ty :=
  .named {} (.cons none none (.text 4) (.cons none none (.number 8) (.cons none none (.text 4) .nil)))

/-- `Modl::V17`, /repo/ssbh_lib/src/formats/modl.rs:16-34 -/
def Modl.V17Data.fields : Fields :=
  (.cons none none (.text 4) (.cons none none (.text 4) (.cons none none (.list (.text 4)) (.cons none none (.ptr (.text 4)) (.cons none none (.text 8) (.cons none none (.list Modl.ModlEntry.ty) .nil))))))

/-- /repo/ssbh_lib/src/formats/modl.rs:16-34 -/
def Modl.variants : Variants :=
  (.cons none none Modl.V17Data.fields .nil)
def Modl.ty : Ty := .enum {} Modl.variants

/-! ## Skel -/

/-- /repo/ssbh_lib/src/formats/skel.rs:97-112: without `#[repr]` the enum has 1 byte in memory. -/
def Skel.BillboardType.ty : Ty := .repr {} 1 1

/-- /repo/ssbh_lib/src/formats/skel.rs:72-76 -/
def Skel.SkelEntryFlags.ty : Ty :=
  .named { padAfter := some 2 } (.cons none none (.number 1) (.cons none none Skel.BillboardType.ty .nil))

/-- /repo/ssbh_lib/src/formats/skel.rs:58-66 -/
def Skel.SkelBoneEntry.ty : Ty :=
  .named {} (.cons none none (.text 4) (.cons none none (.number 2) (.cons none none (.number 2) (.cons none none Skel.SkelEntryFlags.ty .nil))))

/-- `Skel::V10`, /repo/ssbh_lib/src/formats/skel.rs:25-43 -/
def Skel.V10Data.fields : Fields :=
  (.cons none none (.list Skel.SkelBoneEntry.ty) (.cons none none (.list Matrix4x4.ty) (.cons none none (.list Matrix4x4.ty) (.cons none none (.list Matrix4x4.ty) (.cons none none (.list Matrix4x4.ty) .nil)))))

/-- /repo/ssbh_lib/src/formats/skel.rs:25-43 -/
def Skel.variants : Variants :=
  (.cons none none Skel.V10Data.fields .nil)
def Skel.ty : Ty := .enum {} Skel.variants

/-! ## Hlpb -/

/-- /repo/ssbh_lib/src/formats/hlpb.rs:54-77 -/
def Hlpb.AimConstraint.ty : Ty :=
  .named {} (.cons none none (.text 4) (.cons none none (.text 4) (.cons none none (.text 4) (.cons none none (.text 4) (.cons none none (.text 4) (.cons none none (.text 4) (.cons none none (.text 4) (.cons none none (.number 4) (.cons none none (.number 4) (.cons none none Vector3.ty (.cons none none Vector3.ty (.cons none none Vector4.ty (.cons none none Vector4.ty (.cons none none (.number 4) (.cons none none (.number 4) (.cons none none (.number 4) (.cons none none (.number 4) (.cons none none (.number 4) (.cons none none (.number 4) .nil)))))))))))))))))))

/-- /repo/ssbh_lib/src/formats/hlpb.rs:85-112 -/
def Hlpb.OrientConstraint.ty : Ty :=
  .named {} (.cons none none (.text 4) (.cons none none (.text 4) (.cons none none (.text 4) (.cons none none (.text 4) (.cons none none (.text 4) (.cons none none (.number 4) (.cons none none Vector3.ty (.cons none none Vector4.ty (.cons none none Vector4.ty (.cons none none Vector3.ty (.cons none none Vector3.ty .nil)))))))))))

/-- /repo/ssbh_lib/src/formats/hlpb.rs:120-125: without `#[repr]` the enum has 1 byte in memory. -/
def Hlpb.ConstraintType.ty : Ty := .repr {} 4 1

/-- `Hlpb::V11`, /repo/ssbh_lib/src/formats/hlpb.rs:19-36 -/
def Hlpb.V11Data.fields : Fields :=
  (.cons none none (.list Hlpb.AimConstraint.ty) (.cons none none (.list Hlpb.OrientConstraint.ty) (.cons none none (.list (.number 4)) (.cons none none (.list Hlpb.ConstraintType.ty) .nil))))

/-- /repo/ssbh_lib/src/formats/hlpb.rs:19-36 -/
def Hlpb.variants : Variants :=
  (.cons none none Hlpb.V11Data.fields .nil)
def Hlpb.ty : Ty := .enum {} Hlpb.variants

/-! ## Nufx -/

/-- /repo/ssbh_lib/src/formats/nufx.rs:79-86 -/
def Nufx.ShaderStages.ty : Ty :=
  .named {} (.cons none none (.text 4) (.cons none none (.text 4) (.cons none none (.text 4) (.cons none none (.text 4) (.cons none none (.text 4) (.cons none none (.text 4) .nil))))))

/-- /repo/ssbh_lib/src/formats/nufx.rs:68-73 -/
def Nufx.MaterialParameter.ty : Ty :=
  .named { padAfter := some 8 } (.cons none none (.number 8) (.cons none none (.text 8) .nil))

/-- /repo/ssbh_lib/src/formats/nufx.rs:93-103 -/
def Nufx.ShaderProgramV0.ty : Ty :=
  .named {} (.cons none none (.text 4) (.cons none none (.text 4) (.cons none none Nufx.ShaderStages.ty (.cons none none (.list Nufx.MaterialParameter.ty) .nil))))

/-- /repo/ssbh_lib/src/formats/nufx.rs:127-130 -/
def Nufx.UnkItem.ty : Ty :=
  .named {} (.cons none none (.text 4) (.cons none none (.list (.text 4)) .nil))

/-- /repo/ssbh_lib/src/formats/nufx.rs:40-43 -/
def Nufx.NufxV0.ty : Ty :=
  .named {} (.cons none none (.list Nufx.ShaderProgramV0.ty) (.cons none none (.list Nufx.UnkItem.ty) .nil))

/-- /repo/ssbh_lib/src/formats/nufx.rs:58-61 -/
def Nufx.VertexAttribute.ty : Ty :=
  .named {} (.cons none none (.text 4) (.cons none none (.text 4) .nil))

/-- /repo/ssbh_lib/src/formats/nufx.rs:110-122 -/
def Nufx.ShaderProgramV1.ty : Ty :=
  .named {} (.cons none none (.text 4) (.cons none none (.text 4) (.cons none none Nufx.ShaderStages.ty (.cons none none (.list Nufx.VertexAttribute.ty) (.cons none none (.list Nufx.MaterialParameter.ty) .nil)))))

/-- /repo/ssbh_lib/src/formats/nufx.rs:48-51 -/
def Nufx.NufxV1.ty : Ty :=
  .named {} (.cons none none (.list Nufx.ShaderProgramV1.ty) (.cons none none (.list Nufx.UnkItem.ty) .nil))

/-- /repo/ssbh_lib/src/formats/nufx.rs:19-26 -/
def Nufx.variants : Variants :=
  (.cons none none (.cons none none Nufx.NufxV0.ty .nil) (.cons none none (.cons none none Nufx.NufxV1.ty .nil) .nil))
def Nufx.ty : Ty := .enum {} Nufx.variants

/-! ## Anim -/

/-- /repo/ssbh_lib/src/formats/anim.rs:217-221: without `#[repr]` the enum has 1 byte in memory. -/
def Anim.TrackTypeV1.ty : Ty := .repr {} 8 1

/-- /repo/ssbh_lib/src/formats/anim.rs:124-128 -/
def Anim.Property.ty : Ty :=
  .named {} (.cons none none (.text 4) (.cons none none (.number 8) .nil))

/-- /repo/ssbh_lib/src/formats/anim.rs:115-119 -/
def Anim.TrackV1.ty : Ty :=
  .named {} (.cons none none (.text 4) (.cons none none Anim.TrackTypeV1.ty (.cons none none (.list Anim.Property.ty) .nil)))

/-- /repo/ssbh_lib/src/formats/anim.rs:268-273: without `#[repr]` the enum has 1 byte in memory. -/
def Anim.GroupType.ty : Ty := .repr {} 8 1

/-- /repo/ssbh_lib/src/formats/anim.rs:228-235: without `#[repr]` the enum has 1 byte in memory. -/
def Anim.TrackTypeV2.ty : Ty := .repr {} 1 1

/-- /repo/ssbh_lib/src/formats/anim.rs:242-257: without `#[repr]` the enum has 1 byte in memory. -/
def Anim.CompressionType.ty : Ty := .repr {} 1 1

/-- /repo/ssbh_lib/src/formats/anim.rs:168-172 -/
def Anim.TrackFlags.ty : Ty :=
  .named { padAfter := some 2 } (.cons none none Anim.TrackTypeV2.ty (.cons none none Anim.CompressionType.ty .nil))

/-- /repo/ssbh_lib/src/formats/anim.rs:196-208 -/
def Anim.TransformFlags.ty : Ty := .bitfield 4

/-- /repo/ssbh_lib/src/formats/anim.rs:93-100 -/
def Anim.TrackV2.ty : Ty :=
  .named {} (.cons none none (.text 4) (.cons none none Anim.TrackFlags.ty (.cons none none (.number 4) (.cons none none Anim.TransformFlags.ty (.cons none none (.number 4) (.cons none none (.number 8) .nil))))))

/-- /repo/ssbh_lib/src/formats/anim.rs:85-88 -/
def Anim.Node.ty : Ty :=
  .named {} (.cons none none (.text 4) (.cons none none (.list Anim.TrackV2.ty) .nil))

/-- /repo/ssbh_lib/src/formats/anim.rs:77-80 -/
def Anim.Group.ty : Ty :=
  .named {} (.cons none none Anim.GroupType.ty (.cons none none (.list Anim.Node.ty) .nil))

/-- /repo/ssbh_lib/src/formats/anim.rs:159-162 -/
def Anim.UnkSubItem.ty : Ty :=
  .named {} (.cons none none (.number 4) (.cons none none (.number 4) .nil))

/-- /repo/ssbh_lib/src/formats/anim.rs:142-145 -/
def Anim.UnkItem1.ty : Ty :=
  .named {} (.cons none none (.number 8) (.cons none none (.list Anim.UnkSubItem.ty) .nil))

/-- /repo/ssbh_lib/src/formats/anim.rs:150-153 -/
def Anim.UnkItem2.ty : Ty :=
  .named {} (.cons none none (.text 4) (.cons none none (.list Anim.UnkSubItem.ty) .nil))

/-- /repo/ssbh_lib/src/formats/anim.rs:134-137 -/
def Anim.UnkData.ty : Ty :=
  .named {} (.cons none none (.list Anim.UnkItem1.ty) (.cons none none (.list Anim.UnkItem2.ty) .nil))

/-- `Anim::V12`, /repo/ssbh_lib/src/formats/anim.rs:28-72 -/
def Anim.V12Data.fields : Fields :=
  (.cons none none (.text 4) (.cons none none (.number 4) (.cons none none (.number 4) (.cons none none (.number 4) (.cons none none (.number 4) (.cons none none (.list Anim.TrackV1.ty) (.cons none none (.list .buffer) .nil)))))))

/-- `Anim::V20`, /repo/ssbh_lib/src/formats/anim.rs:28-72 -/
def Anim.V20Data.fields : Fields :=
  (.cons none none (.number 4) (.cons none none (.number 2) (.cons none none (.number 2) (.cons none none (.text 4) (.cons none none (.list Anim.Group.ty) (.cons none none .buffer .nil))))))

/-- `Anim::V21`, /repo/ssbh_lib/src/formats/anim.rs:28-72 -/
def Anim.V21Data.fields : Fields :=
  (.cons none none (.number 4) (.cons none none (.number 2) (.cons none none (.number 2) (.cons none none (.text 4) (.cons none none (.list Anim.Group.ty) (.cons none none .buffer (.cons none none Anim.UnkData.ty .nil)))))))

/-- /repo/ssbh_lib/src/formats/anim.rs:28-72 -/
def Anim.variants : Variants :=
  (.cons none none Anim.V12Data.fields (.cons none none Anim.V20Data.fields (.cons none (some 8) Anim.V21Data.fields .nil)))
def Anim.ty : Ty := .enum {} Anim.variants

/-! ## Mesh -/

/-- /repo/ssbh_lib/src/formats/mesh.rs:129-132 -/
def Mesh.BoundingSphere.ty : Ty :=
  .named {} (.cons none none Vector3.ty (.cons none none (.number 4) .nil))

/-- /repo/ssbh_lib/src/formats/mesh.rs:139-142 -/
def Mesh.BoundingVolume.ty : Ty :=
  .named {} (.cons none none Vector3.ty (.cons none none Vector3.ty .nil))

/-- /repo/ssbh_lib/src/formats/mesh.rs:147-151 -/
def Mesh.OrientedBoundingBox.ty : Ty :=
  .named {} (.cons none none Vector3.ty (.cons none none Matrix3x3.ty (.cons none none Vector3.ty .nil)))

/-- /repo/ssbh_lib/src/formats/mesh.rs:120-124 -/
def Mesh.BoundingInfo.ty : Ty :=
  .named {} (.cons none none Mesh.BoundingSphere.ty (.cons none none Mesh.BoundingVolume.ty (.cons none none Mesh.OrientedBoundingBox.ty .nil)))

/-- /repo/ssbh_lib/src/formats/mesh.rs:288-293: without `#[repr]` the enum has 1 byte in memory. -/
def Mesh.DrawElementType.ty : Ty := .repr {} 4 1

/-- /repo/ssbh_lib/src/formats/mesh.rs:274-280 -/
def Mesh.DepthFlags.ty : Ty :=
  .named { padAfter := some 2 } (.cons none none (.number 1) (.cons none none (.number 1) .nil))

/-- /repo/ssbh_lib/src/formats/mesh.rs:222-267 -/
def Mesh.MeshObject.ty (aT : Ty) : Ty :=
  .named {} (.cons none none (.text 4) (.cons none none (.number 8) (.cons none none (.text 4) (.cons none none (.number 4) (.cons none none (.number 4) (.cons none none (.number 4) (.cons none none (.number 4) (.cons none none (.number 4) (.cons none none (.number 4) (.cons none none (.number 4) (.cons none none (.number 4) (.cons none none (.number 4) (.cons none none (.number 4) (.cons none none (.number 4) (.cons none none (.number 4) (.cons none none (.number 4) (.cons none none Mesh.DrawElementType.ty (.cons none none (.number 4) (.cons none none (.number 4) (.cons none none Mesh.DepthFlags.ty (.cons none none Mesh.BoundingInfo.ty (.cons none none (.list aT) .nil))))))))))))))))))))))

/-- /repo/ssbh_lib/src/formats/mesh.rs:157-164 -/
def Mesh.RiggingFlags.ty : Ty :=
  .named { padAfter := some 6 } (.cons none none (.number 1) (.cons none none (.number 1) .nil))

/-- /repo/ssbh_lib/src/formats/mesh.rs:169-172 -/
def Mesh.BoneBuffer.ty (w2T : Ty) : Ty :=
  .named {} (.cons none none (.text 4) (.cons none none w2T .nil))

/-- /repo/ssbh_lib/src/formats/mesh.rs:179-184 -/
def Mesh.RiggingGroup.ty (w3T : Ty) : Ty :=
  .named {} (.cons none none (.text 4) (.cons none none (.number 8) (.cons none none Mesh.RiggingFlags.ty (.cons none none (.list (Mesh.BoneBuffer.ty w3T)) .nil))))

/-- /repo/ssbh_lib/src/formats/mesh.rs:56-75 -/
def Mesh.MeshInner.ty (aT : Ty) (w1T : Ty) : Ty :=
  .named {} (.cons none none (.text 4) (.cons none none Mesh.BoundingInfo.ty (.cons none none (.number 4) (.cons none none (.list (Mesh.MeshObject.ty aT)) (.cons none none (.list (.number 4)) (.cons none none (.number 8) (.cons none none (.list .buffer) (.cons none none .buffer (.cons none none (.list (Mesh.RiggingGroup.ty w1T)) .nil)))))))))

/-- /repo/ssbh_lib/src/formats/mesh.rs:362-368: without `#[repr]` the enum has 1 byte in memory. -/
def Mesh.AttributeUsageV8.ty : Ty := .repr {} 4 1

/-- /repo/ssbh_lib/src/formats/mesh.rs:324-335: without `#[repr]` the enum has 2 bytes in memory. -/
def Mesh.AttributeDataTypeV8.ty : Ty := .repr {} 4 2

/-- /repo/ssbh_lib/src/formats/mesh.rs:80-87 -/
def Mesh.AttributeV8.ty : Ty :=
  .named {} (.cons none none Mesh.AttributeUsageV8.ty (.cons none none Mesh.AttributeDataTypeV8.ty (.cons none none (.number 4) (.cons none none (.number 4) (.cons none none (.number 4) .nil)))))

/-- /repo/ssbh_lib/src/formats/mesh.rs:205-208 -/
def Mesh.VertexWeightV8.ty : Ty :=
  .named {} (.cons none none (.number 4) (.cons none none (.number 4) .nil))

/-- /repo/ssbh_lib/src/formats/mesh.rs:346-353: without `#[repr]` the enum has 1 byte in memory. -/
def Mesh.AttributeUsageV9.ty : Ty := .repr {} 4 1

/-- /repo/ssbh_lib/src/formats/mesh.rs:92-101 -/
def Mesh.AttributeV9.ty : Ty :=
  .named {} (.cons none none Mesh.AttributeUsageV9.ty (.cons none none Mesh.AttributeDataTypeV8.ty (.cons none none (.number 4) (.cons none none (.number 4) (.cons none none (.number 8) (.cons none none (.text 4) (.cons none none (.list (.text 4)) .nil)))))))

/-- /repo/ssbh_lib/src/formats/mesh.rs:302-315: without `#[repr]` the enum has 1 byte in memory. -/
def Mesh.AttributeDataTypeV10.ty : Ty := .repr {} 4 1

/-- /repo/ssbh_lib/src/formats/mesh.rs:106-115 -/
def Mesh.AttributeV10.ty : Ty :=
  .named {} (.cons none none Mesh.AttributeUsageV9.ty (.cons none none Mesh.AttributeDataTypeV10.ty (.cons none none (.number 4) (.cons none none (.number 4) (.cons none none (.number 8) (.cons none none (.text 4) (.cons none none (.list (.text 4)) .nil)))))))

/-- /repo/ssbh_lib/src/formats/mesh.rs:26-41 -/
def Mesh.variants : Variants :=
  (.cons none none (.cons none none (Mesh.MeshInner.ty Mesh.AttributeV8.ty (.list Mesh.VertexWeightV8.ty)) .nil) (.cons none none (.cons none none (Mesh.MeshInner.ty Mesh.AttributeV9.ty (.list Mesh.VertexWeightV8.ty)) .nil) (.cons none none (.cons none none (Mesh.MeshInner.ty Mesh.AttributeV10.ty .buffer) .nil) .nil)))
def Mesh.ty : Ty := .enum { padAfter := some 16, alignAfter := some 8 } Mesh.variants

/-! ## Matl -/

/-- /repo/ssbh_lib/src/formats/matl.rs:147-516: without `#[repr]` the enum has 2 bytes in memory. -/
def Matl.ParamId.ty : Ty := .repr {} 8 2

/-- /repo/ssbh_lib/src/formats/matl.rs:571-576: without `#[repr]` the enum has 1 byte in memory. -/
def Matl.WrapMode.ty : Ty := .repr {} 4 1

/-- /repo/ssbh_lib/src/formats/matl.rs:584-588: without `#[repr]` the enum has 1 byte in memory. -/
def Matl.MinFilter.ty : Ty := .repr {} 4 1

/-- /repo/ssbh_lib/src/formats/matl.rs:596-600: without `#[repr]` the enum has 1 byte in memory. -/
def Matl.MagFilter.ty : Ty := .repr {} 4 1

/-- /repo/ssbh_lib/src/formats/matl.rs:608-612: without `#[repr]` the enum has 1 byte in memory. -/
def Matl.FilteringType.ty : Ty := .repr {} 4 1

/-- /repo/ssbh_lib/src/formats/matl.rs:640-646: without `#[repr]` the enum has 1 byte in memory. -/
def Matl.MaxAnisotropy.ty : Ty := .repr {} 4 1

/-- /repo/ssbh_lib/src/formats/matl.rs:617-629 -/
def Matl.Sampler.ty : Ty :=
  .named {} (.cons none none Matl.WrapMode.ty (.cons none none Matl.WrapMode.ty (.cons none none Matl.WrapMode.ty (.cons none none Matl.MinFilter.ty (.cons none none Matl.MagFilter.ty (.cons none none Matl.FilteringType.ty (.cons none none Color4f.ty (.cons none none (.number 4) (.cons none none (.number 4) (.cons none none (.number 4) (.cons none none Matl.MaxAnisotropy.ty .nil)))))))))))

/-- /repo/ssbh_lib/src/formats/matl.rs:651-657 -/
def Matl.UvTransform.ty : Ty :=
  .named {} (.cons none none (.number 4) (.cons none none (.number 4) (.cons none none (.number 4) (.cons none none (.number 4) (.cons none none (.number 4) .nil)))))

/-- /repo/ssbh_lib/src/formats/matl.rs:666-679: without `#[repr]` the enum has 1 byte in memory. -/
def Matl.BlendFactor.ty : Ty := .repr {} 4 1

/-- /repo/ssbh_lib/src/formats/matl.rs:688-694: without `#[repr]` the enum has 1 byte in memory. -/
def Matl.BlendOperation.ty : Ty := .repr {} 4 1

/-- /repo/ssbh_lib/src/formats/matl.rs:700-711 -/
def Matl.BlendStateV15.ty : Ty :=
  .named {} (.cons none none Matl.BlendFactor.ty (.cons none none Matl.BlendOperation.ty (.cons none none Matl.BlendFactor.ty (.cons none none Matl.BlendFactor.ty (.cons none none Matl.BlendOperation.ty (.cons none none Matl.BlendFactor.ty (.cons none none (.number 8) (.cons none none (.number 4) (.cons none none (.number 4) (.cons none none (.number 4) .nil))))))))))

/-- /repo/ssbh_lib/src/formats/matl.rs:537-541: without `#[repr]` the enum has 1 byte in memory. -/
def Matl.CullMode.ty : Ty := .repr {} 4 1

/-- /repo/ssbh_lib/src/formats/matl.rs:546-548 -/
def Matl.RasterizerStateV15.ty : Ty :=
  .named {} (.cons none none Matl.CullMode.ty .nil)

/-- /repo/ssbh_lib/src/formats/matl.rs:100-116: `ssbh_enum!` defines an enum which derives `SsbhWrite`, /repo/ssbh_lib/src/enums.rs:149-175 -/
def Matl.ParamV15.tags : List UInt64 := [1, 2, 5, 7, 11, 14, 16, 17, 18]
def Matl.ParamV15.variants : Variants :=
  (.cons none none (.cons none none (.number 4) .nil) (.cons none none (.cons none none (.number 4) .nil) (.cons none none (.cons none none Vector4.ty .nil) (.cons none none (.cons none none Color4f.ty .nil) (.cons none none (.cons none none (.text 4) .nil) (.cons none none (.cons none none Matl.Sampler.ty .nil) (.cons none none (.cons none none Matl.UvTransform.ty .nil) (.cons none none (.cons none none Matl.BlendStateV15.ty .nil) (.cons none none (.cons none none Matl.RasterizerStateV15.ty .nil) .nil)))))))))
def Matl.ParamV15.ty : Ty := .enum {} Matl.ParamV15.variants

/-- /repo/ssbh_lib/src/formats/matl.rs:64-69 -/
def Matl.AttributeV15.ty : Ty :=
  .named {} (.cons none none Matl.ParamId.ty (.cons none none (.tagged Matl.ParamV15.tags Matl.ParamV15.ty) .nil))

/-- /repo/ssbh_lib/src/formats/matl.rs:45-57 -/
def Matl.MatlEntryV15.ty : Ty :=
  .named {} (.cons none none (.text 4) (.cons none none (.list Matl.AttributeV15.ty) (.cons none none (.text 4) .nil)))

/-- /repo/ssbh_lib/src/formats/matl.rs:718-730 -/
def Matl.BlendStateV16.ty : Ty :=
  .named { padAfter := some 8 } (.cons none none Matl.BlendFactor.ty (.cons none none Matl.BlendOperation.ty (.cons none none Matl.BlendFactor.ty (.cons none none Matl.BlendFactor.ty (.cons none none Matl.BlendOperation.ty (.cons none none Matl.BlendFactor.ty (.cons none none (.number 4) (.cons none none (.number 4) (.cons none none (.number 4) (.cons none none (.number 4) .nil))))))))))

/-- /repo/ssbh_lib/src/formats/matl.rs:525-528: without `#[repr]` the enum has 1 byte in memory. -/
def Matl.FillMode.ty : Ty := .repr {} 4 1

/-- /repo/ssbh_lib/src/formats/matl.rs:554-561 -/
def Matl.RasterizerStateV16.ty : Ty :=
  .named { padAfter := some 4 } (.cons none none Matl.FillMode.ty (.cons none none Matl.CullMode.ty (.cons none none (.number 4) (.cons none none (.number 4) (.cons none none (.number 4) (.cons none none (.number 4) .nil))))))

/-- /repo/ssbh_lib/src/formats/matl.rs:118-134: `ssbh_enum!` defines an enum which derives `SsbhWrite`, /repo/ssbh_lib/src/enums.rs:149-175 -/
def Matl.ParamV16.tags : List UInt64 := [1, 2, 5, 7, 11, 14, 16, 17, 18]
def Matl.ParamV16.variants : Variants :=
  (.cons none none (.cons none none (.number 4) .nil) (.cons none none (.cons none none (.number 4) .nil) (.cons none none (.cons none none Vector4.ty .nil) (.cons none none (.cons none none Color4f.ty .nil) (.cons none none (.cons none none (.text 4) .nil) (.cons none none (.cons none none Matl.Sampler.ty .nil) (.cons none none (.cons none none Matl.UvTransform.ty .nil) (.cons none none (.cons none none Matl.BlendStateV16.ty .nil) (.cons none none (.cons none none Matl.RasterizerStateV16.ty .nil) .nil)))))))))
def Matl.ParamV16.ty : Ty := .enum {} Matl.ParamV16.variants

/-- /repo/ssbh_lib/src/formats/matl.rs:93-98 -/
def Matl.AttributeV16.ty : Ty :=
  .named {} (.cons none none Matl.ParamId.ty (.cons none none (.tagged Matl.ParamV16.tags Matl.ParamV16.ty) .nil))

/-- /repo/ssbh_lib/src/formats/matl.rs:75-87 -/
def Matl.MatlEntryV16.ty : Ty :=
  .named {} (.cons none none (.text 4) (.cons none none (.list Matl.AttributeV16.ty) (.cons none none (.text 4) .nil)))

/-- `Matl::V15`, /repo/ssbh_lib/src/formats/matl.rs:25-30 -/
def Matl.V15Data.fields : Fields :=
  (.cons none none (.list Matl.MatlEntryV15.ty) .nil)

/-- `Matl::V16`, /repo/ssbh_lib/src/formats/matl.rs:25-30 -/
def Matl.V16Data.fields : Fields :=
  (.cons none none (.list Matl.MatlEntryV16.ty) .nil)

/-- /repo/ssbh_lib/src/formats/matl.rs:25-30 -/
def Matl.variants : Variants :=
  (.cons none none Matl.V15Data.fields (.cons none none Matl.V16Data.fields .nil))
def Matl.ty : Ty := .enum {} Matl.variants

/-! ## Nrpd -/

/-- /repo/ssbh_lib/src/formats/nrpd.rs:74-87: without `#[repr]` the enum has 2 bytes in memory. -/
def Nrpd.UnkFormat.ty : Ty := .repr {} 8 2

/-- /repo/ssbh_lib/src/formats/nrpd.rs:92-99 -/
def Nrpd.Framebuffer0.ty : Ty :=
  .named {} (.cons none none (.text 4) (.cons none none (.number 4) (.cons none none (.number 4) (.cons none none Nrpd.UnkFormat.ty (.cons none none (.number 4) (.cons none none (.number 4) .nil))))))

/-- /repo/ssbh_lib/src/formats/nrpd.rs:104-111 -/
def Nrpd.Framebuffer1.ty : Ty :=
  .named {} (.cons none none (.text 4) (.cons none none (.number 4) (.cons none none (.number 4) (.cons none none (.number 8) (.cons none none (.number 4) (.cons none none (.number 4) .nil))))))

/-- /repo/ssbh_lib/src/formats/nrpd.rs:116-121 -/
def Nrpd.UniformBuffer.ty : Ty :=
  .named {} (.cons none none (.text 4) (.cons none none (.number 4) (.cons none none (.number 4) (.cons none none (.number 8) .nil))))

/-- /repo/ssbh_lib/src/formats/nrpd.rs:126-134 -/
def Nrpd.Framebuffer3.ty : Ty :=
  .named {} (.cons none none (.text 4) (.cons none none (.number 4) (.cons none none (.number 4) (.cons none none (.number 4) (.cons none none (.number 4) (.cons none none (.number 4) (.cons none none (.number 4) .nil)))))))

/-- /repo/ssbh_lib/src/formats/nrpd.rs:139-144 -/
def Nrpd.Framebuffer4.ty : Ty :=
  .named {} (.cons none none (.text 4) (.cons none none (.number 4) (.cons none none (.number 4) (.cons none none (.number 8) .nil))))

/-- /repo/ssbh_lib/src/formats/nrpd.rs:57-64: `ssbh_enum!` defines an enum which derives `SsbhWrite`, /repo/ssbh_lib/src/enums.rs:149-175 -/
def Nrpd.FrameBuffer.tags : List UInt64 := [0, 1, 2, 3, 4]
def Nrpd.FrameBuffer.variants : Variants :=
  (.cons none none (.cons none none Nrpd.Framebuffer0.ty .nil) (.cons none none (.cons none none Nrpd.Framebuffer1.ty .nil) (.cons none none (.cons none none Nrpd.UniformBuffer.ty .nil) (.cons none none (.cons none none Nrpd.Framebuffer3.ty .nil) (.cons none none (.cons none none Nrpd.Framebuffer4.ty .nil) .nil)))))
def Nrpd.FrameBuffer.ty : Ty := .enum {} Nrpd.FrameBuffer.variants

/-- /repo/ssbh_lib/src/formats/nrpd.rs:149-153 -/
def Nrpd.NrpdSampler.ty : Ty :=
  .named {} (.cons none none (.text 4) (.cons none none Matl.Sampler.ty (.cons none none (.number 8) .nil)))

/-- /repo/ssbh_lib/src/formats/nrpd.rs:158-167 -/
def Nrpd.NrpdRasterizerState.ty : Ty :=
  .named {} (.cons none none (.text 4) (.cons none none Matl.FillMode.ty (.cons none none Matl.CullMode.ty (.cons none none (.number 4) (.cons none none (.number 4) (.cons none none (.number 4) (.cons none none (.number 4) .nil)))))))

/-- /repo/ssbh_lib/src/formats/nrpd.rs:192-204 -/
def Nrpd.DepthState.ty : Ty :=
  .named {} (.cons none none (.text 4) (.cons none none (.number 4) (.cons none none (.number 4) (.cons none none (.number 4) (.cons none none (.number 4) (.cons none none (.number 4) (.cons none none (.number 4) (.cons none none (.number 8) (.cons none none (.number 8) (.cons none none (.number 8) (.cons none none (.number 8) .nil)))))))))))

/-- /repo/ssbh_lib/src/formats/nrpd.rs:172-186 -/
def Nrpd.NrpdBlendState.ty : Ty :=
  .named {} (.cons none none (.text 4) (.cons none none Matl.BlendFactor.ty (.cons none none (.number 4) (.cons none none Matl.BlendFactor.ty (.cons none none (.number 4) (.cons none none (.number 4) (.cons none none (.number 4) (.cons none none (.number 4) (.cons none none (.number 4) (.cons none none (.number 4) (.cons none none (.number 4) .nil)))))))))))

/-- /repo/ssbh_lib/src/formats/nrpd.rs:206-212: `ssbh_enum!` defines an enum which derives `SsbhWrite`, /repo/ssbh_lib/src/enums.rs:149-175 -/
def Nrpd.State.tags : List UInt64 := [0, 1, 2, 3]
def Nrpd.State.variants : Variants :=
  (.cons none none (.cons none none Nrpd.NrpdSampler.ty .nil) (.cons none none (.cons none none Nrpd.NrpdRasterizerState.ty .nil) (.cons none none (.cons none none Nrpd.DepthState.ty .nil) (.cons none none (.cons none none Nrpd.NrpdBlendState.ty .nil) .nil))))
def Nrpd.State.ty : Ty := .enum {} Nrpd.State.variants

/-- /repo/ssbh_lib/src/formats/nrpd.rs:237-241 -/
def Nrpd.RenderPassData0.ty : Ty :=
  .named {} (.cons none none (.text 4) (.cons none none (.text 4) (.cons none none (.number 8) .nil)))

/-- /repo/ssbh_lib/src/formats/nrpd.rs:246-249 -/
def Nrpd.RenderPassData1.ty : Ty :=
  .named {} (.cons none none (.text 4) (.cons none none (.text 4) .nil))

/-- /repo/ssbh_lib/src/formats/nrpd.rs:254-262 -/
def Nrpd.RenderPassData2.ty : Ty :=
  .named {} (.cons none none (.text 4) (.cons none none (.text 4) (.cons none none (.ptr (.number 8)) (.cons none none (.number 8) (.cons none none (.ptr (.number 8)) (.cons none none (.number 8) .nil))))))

/-- /repo/ssbh_lib/src/formats/nrpd.rs:299-302 -/
def Nrpd.Unk8Data.ty : Ty :=
  .named {} (.cons none none (.number 4) (.cons none none (.number 4) .nil))

/-- /repo/ssbh_lib/src/formats/nrpd.rs:267-274 -/
def Nrpd.RenderPassData3.ty : Ty :=
  .named {} (.cons none none (.text 4) (.cons none none (.text 4) (.cons none none (.ptr Nrpd.Unk8Data.ty) (.cons none none (.number 8) (.cons none none (.ptr Nrpd.Unk8Data.ty) (.cons none none (.number 8) .nil))))))

/-- /repo/ssbh_lib/src/formats/nrpd.rs:279-286 -/
def Nrpd.RenderPassData8.ty : Ty :=
  .named {} (.cons none none (.text 4) (.cons none none (.text 4) (.cons none none (.ptr (.number 8)) (.cons none none (.number 8) (.cons none none (.ptr (.number 8)) (.cons none none (.number 8) .nil))))))

/-- /repo/ssbh_lib/src/formats/nrpd.rs:307-311 -/
def Nrpd.ColorClear.ty : Ty :=
  .named {} (.cons none none (.text 4) (.cons none none Color4f.ty (.cons none none (.number 8) .nil)))

/-- /repo/ssbh_lib/src/formats/nrpd.rs:316-320 -/
def Nrpd.DepthStencilClear.ty : Ty :=
  .named {} (.cons none none (.text 4) (.cons none none (.number 4) (.cons none none (.number 4) .nil)))

/-- /repo/ssbh_lib/src/formats/nrpd.rs:325-333 -/
def Nrpd.Viewport.ty : Ty :=
  .named {} (.cons none none (.text 4) (.cons none none (.number 8) (.cons none none (.number 4) (.cons none none (.number 4) (.cons none none (.number 4) (.cons none none (.number 4) (.cons none none (.number 8) .nil)))))))

/-- /repo/ssbh_lib/src/formats/nrpd.rs:338-346 -/
def Nrpd.RenderPassData13.ty : Ty :=
  .named {} (.cons none none (.text 4) (.cons none none (.text 4) (.cons none none (.ptr (.number 8)) (.cons none none (.number 8) (.cons none none (.ptr (.number 8)) (.cons none none (.number 8) .nil))))))

/-- /repo/ssbh_lib/src/formats/nrpd.rs:382-385 -/
def Nrpd.StringPair.ty : Ty :=
  .named {} (.cons none none (.text 4) (.cons none none (.text 4) .nil))

/-- /repo/ssbh_lib/src/formats/nrpd.rs:291-294 -/
def Nrpd.RenderPassData19.ty : Ty :=
  .named {} (.cons none none (.text 4) (.cons none none (.number 8) .nil))

/-- /repo/ssbh_lib/src/formats/nrpd.rs:215-232: `ssbh_enum!` defines an enum which derives `SsbhWrite`, /repo/ssbh_lib/src/enums.rs:149-175 -/
def Nrpd.RenderPassData.tags : List UInt64 := [0, 1, 2, 3, 8, 9, 10, 12, 13, 14, 15, 16, 17, 18, 19]
def Nrpd.RenderPassData.variants : Variants :=
  (.cons none none (.cons none none Nrpd.RenderPassData0.ty .nil) (.cons none none (.cons none none Nrpd.RenderPassData1.ty .nil) (.cons none none (.cons none none Nrpd.RenderPassData2.ty .nil) (.cons none none (.cons none none Nrpd.RenderPassData3.ty .nil) (.cons none none (.cons none none Nrpd.RenderPassData8.ty .nil) (.cons none none (.cons none none Nrpd.ColorClear.ty .nil) (.cons none none (.cons none none Nrpd.DepthStencilClear.ty .nil) (.cons none none (.cons none none Nrpd.Viewport.ty .nil) (.cons none none (.cons none none Nrpd.RenderPassData13.ty .nil) (.cons none none (.cons none none Nrpd.StringPair.ty .nil) (.cons none none (.cons none none Nrpd.StringPair.ty .nil) (.cons none none (.cons none none Nrpd.StringPair.ty .nil) (.cons none none (.cons none none (.text 4) .nil) (.cons none none (.cons none none (.text 4) .nil) (.cons none none (.cons none none Nrpd.RenderPassData19.ty .nil) .nil)))))))))))))))
def Nrpd.RenderPassData.ty : Ty := .enum {} Nrpd.RenderPassData.variants

/-- /repo/ssbh_lib/src/formats/nrpd.rs:370-377 -/
def Nrpd.Unk3Data.ty : Ty :=
  .named {} (.cons none none (.text 4) (.cons none none (.text 4) (.cons none none (.number 4) (.cons none none (.number 4) (.cons none none (.number 4) (.cons none none (.number 4) .nil))))))

/-- /repo/ssbh_lib/src/formats/nrpd.rs:361-365: `ssbh_enum!` defines an enum which derives `SsbhWrite`, /repo/ssbh_lib/src/enums.rs:149-175 -/
def Nrpd.RenderPassUnkData.tags : List UInt64 := [0, 3]
def Nrpd.RenderPassUnkData.variants : Variants :=
  (.cons none none (.cons none none .unit .nil) (.cons none none (.cons none none Nrpd.Unk3Data.ty .nil) .nil))
def Nrpd.RenderPassUnkData.ty : Ty := .enum {} Nrpd.RenderPassUnkData.variants

/-- /repo/ssbh_lib/src/formats/nrpd.rs:352-358 -/
def Nrpd.RenderPassContainer.ty : Ty :=
  .named { padAfter := some 8 } (.cons none none (.text 4) (.cons none none (.list (.tagged Nrpd.RenderPassData.tags Nrpd.RenderPassData.ty)) (.cons none none (.list (.tagged Nrpd.RenderPassData.tags Nrpd.RenderPassData.ty)) (.cons none none (.tagged Nrpd.RenderPassUnkData.tags Nrpd.RenderPassUnkData.ty) .nil))))

/-- /repo/ssbh_lib/src/formats/nrpd.rs:398-401 -/
def Nrpd.UnkItem20.ty : Ty :=
  .named {} (.cons none none (.text 4) (.cons none none (.text 4) .nil))

/-- /repo/ssbh_lib/src/formats/nrpd.rs:406-410 -/
def Nrpd.UnkItem21.ty : Ty :=
  .named {} (.cons none none (.text 4) (.cons none none (.text 4) (.cons none none (.array 2 (.number 4)) .nil)))

/-- /repo/ssbh_lib/src/formats/nrpd.rs:415-423 -/
def Nrpd.UnkItem22.ty : Ty :=
  .named {} (.cons none none (.text 4) (.cons none none (.text 4) (.cons none none (.number 4) (.cons none none (.number 4) (.cons none none (.number 4) (.cons none none Nrpd.UnkFormat.ty (.cons none none (.number 4) .nil)))))))

/-- /repo/ssbh_lib/src/formats/nrpd.rs:428-432 -/
def Nrpd.UnkItem24.ty : Ty :=
  .named {} (.cons none none (.text 4) (.cons none none (.text 4) (.cons none none (.array 6 (.number 4)) .nil)))

/-- /repo/ssbh_lib/src/formats/nrpd.rs:434-440: `ssbh_enum!` defines an enum which derives `SsbhWrite`, /repo/ssbh_lib/src/enums.rs:149-175 -/
def Nrpd.UnkItem2.tags : List UInt64 := [0, 1, 2, 4]
def Nrpd.UnkItem2.variants : Variants :=
  (.cons none none (.cons none none Nrpd.UnkItem20.ty .nil) (.cons none none (.cons none none Nrpd.UnkItem21.ty .nil) (.cons none none (.cons none none Nrpd.UnkItem22.ty .nil) (.cons none none (.cons none none Nrpd.UnkItem24.ty .nil) .nil))))
def Nrpd.UnkItem2.ty : Ty := .enum {} Nrpd.UnkItem2.variants

/-- /repo/ssbh_lib/src/formats/nrpd.rs:445-448 -/
def Nrpd.UnkItem3.ty : Ty :=
  .named {} (.cons none none (.text 4) (.cons none none (.text 4) .nil))

/-- /repo/ssbh_lib/src/formats/nrpd.rs:390-393 -/
def Nrpd.UnkItem1.ty : Ty :=
  .named {} (.cons none none (.text 4) (.cons none none (.list Nrpd.UnkItem3.ty) .nil))

/-- `Nrpd::V16`, /repo/ssbh_lib/src/formats/nrpd.rs:21-44 -/
def Nrpd.V16Data.fields : Fields :=
  (.cons none none (.list (.tagged Nrpd.FrameBuffer.tags Nrpd.FrameBuffer.ty)) (.cons none none (.list (.tagged Nrpd.State.tags Nrpd.State.ty)) (.cons none none (.list Nrpd.RenderPassContainer.ty) (.cons none none (.list Nrpd.StringPair.ty) (.cons none none (.list (.tagged Nrpd.UnkItem2.tags Nrpd.UnkItem2.ty)) (.cons none none (.list Nrpd.UnkItem1.ty) (.cons none none (.number 4) (.cons none none (.number 4) (.cons none none (.number 4) (.cons none none (.number 4) (.cons none none (.number 4) (.cons none none (.number 4) (.cons none none (.number 4) (.cons none none (.number 4) (.cons none none (.text 4) (.cons none none (.number 4) (.cons none none (.number 4) (.cons none none (.number 8) .nil))))))))))))))))))

/-- /repo/ssbh_lib/src/formats/nrpd.rs:21-44 -/
def Nrpd.variants : Variants :=
  (.cons none none Nrpd.V16Data.fields .nil)
def Nrpd.ty : Ty := .enum {} Nrpd.variants

end Verif
