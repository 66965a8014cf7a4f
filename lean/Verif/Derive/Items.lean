import Verif.Derive.Attributes
import Verif.Derive.Formats
/-!
# The definitions of the types in ssbh_lib with their attributes

Written by tools/gen_derive.py from the Rust definitions.
-/

namespace Verif

open Derive

/-- /repo/ssbh_lib/src/vectors.rs:11-15 -/
def Vector3.item : Item :=
  ⟨[.other ["cfg_attr"], .other ["cfg_attr"], .other ["derive"]],
    .struct (.named [⟨[], (.number 4)⟩, ⟨[], (.number 4)⟩, ⟨[], (.number 4)⟩])⟩
theorem Vector3.item_derive : (Vector3.item).derive = .ok (Vector3.ty) := rfl

/-- /repo/ssbh_lib/src/vectors.rs:134-138 -/
def Matrix3x3.item : Item :=
  ⟨[.other ["cfg_attr"], .other ["cfg_attr"], .other ["derive"]],
    .struct (.named [⟨[], Vector3.ty⟩, ⟨[], Vector3.ty⟩, ⟨[], Vector3.ty⟩])⟩
theorem Matrix3x3.item_derive : (Matrix3x3.item).derive = .ok (Matrix3x3.ty) := rfl

/-- /repo/ssbh_lib/src/vectors.rs:216-221 -/
def Vector4.item : Item :=
  ⟨[.other ["cfg_attr"], .other ["cfg_attr"], .other ["derive"]],
    .struct (.named [⟨[], (.number 4)⟩, ⟨[], (.number 4)⟩, ⟨[], (.number 4)⟩, ⟨[], (.number 4)⟩])⟩
theorem Vector4.item_derive : (Vector4.item).derive = .ok (Vector4.ty) := rfl

/-- /repo/ssbh_lib/src/vectors.rs:332-337 -/
def Color4f.item : Item :=
  ⟨[.other ["cfg_attr"], .other ["cfg_attr"], .other ["derive"]],
    .struct (.named [⟨[], (.number 4)⟩, ⟨[], (.number 4)⟩, ⟨[], (.number 4)⟩, ⟨[], (.number 4)⟩])⟩
theorem Color4f.item_derive : (Color4f.item).derive = .ok (Color4f.ty) := rfl

/-- /repo/ssbh_lib/src/vectors.rs:343-348 -/
def Matrix4x4.item : Item :=
  ⟨[.other ["cfg_attr"], .other ["cfg_attr"], .other ["derive"]],
    .struct (.named [⟨[], Vector4.ty⟩, ⟨[], Vector4.ty⟩, ⟨[], Vector4.ty⟩, ⟨[], Vector4.ty⟩])⟩
theorem Matrix4x4.item_derive : (Matrix4x4.item).derive = .ok (Matrix4x4.ty) := rfl

/-- /repo/ssbh_lib/src/formats/nlst.rs:14-17 -/
def Nlst.item : Item :=
  ⟨[.other ["cfg_attr"], .other ["cfg_attr"], .other ["derive"], .other ["br"]],
    .enum [⟨[.other ["br"]], .named [⟨[], (.list (.text 4))⟩]⟩]⟩
theorem Nlst.item_derive : (Nlst.item).derive = .ok (Nlst.ty) := rfl

/-- /repo/ssbh_lib/src/formats/shdr.rs:47-52 -/
def Shdr.ShaderStage.item : Item :=
  ⟨[.other ["repr"], .other ["cfg_attr"], .other ["cfg_attr"], .other ["derive"], .other ["br"], .item (.list ["ssbhwrite"] [.item (.list ["repr"] [.item (.path ["u32"])])])],
    .enum (List.replicate 4 ⟨[], .unit⟩) 4⟩
theorem Shdr.ShaderStage.item_derive : (Shdr.ShaderStage.item).derive = .ok (Shdr.ShaderStage.ty) := repr_derive (o := { repr := some "u32" }) rfl rfl rfl

/-- /repo/ssbh_lib/src/formats/shdr.rs:30-39 -/
def Shdr.Shader.item : Item :=
  ⟨[.other ["cfg_attr"], .other ["cfg_attr"], .other ["derive"], .item (.list ["ssbhwrite"] [.item (.nameValue ["pad_after"] (.int 16))])],
    .struct (.named [⟨[], (.text 4)⟩, ⟨[], Shdr.ShaderStage.ty⟩, ⟨[], (.number 4)⟩, ⟨[], .buffer⟩, ⟨[.other ["br"]], (.number 8)⟩])⟩
theorem Shdr.Shader.item_derive : (Shdr.Shader.item).derive = .ok (Shdr.Shader.ty) := rfl

/-- /repo/ssbh_lib/src/formats/shdr.rs:13-16 -/
def Shdr.item : Item :=
  ⟨[.other ["cfg_attr"], .other ["cfg_attr"], .other ["derive"], .other ["br"]],
    .enum [⟨[.other ["br"]], .named [⟨[], (.list Shdr.Shader.ty)⟩]⟩]⟩
theorem Shdr.item_derive : (Shdr.item).derive = .ok (Shdr.ty) := rfl

/-- /repo/ssbh_lib/src/formats/modl.rs:48-57 -/
def Modl.ModlEntry.item : Item :=
  ⟨[.other ["cfg_attr"], .other ["cfg_attr"], .other ["derive"]],
    .struct (.named [⟨[], (.text 4)⟩, ⟨[], (.number 8)⟩, ⟨[], (.text 4)⟩])⟩
theorem Modl.ModlEntry.item_derive : (Modl.ModlEntry.item).derive = .ok (Modl.ModlEntry.ty) := rfl

/-- /repo/ssbh_lib/src/formats/modl.rs:16-34 -/
def Modl.item : Item :=
  ⟨[.other ["cfg_attr"], .other ["cfg_attr"], .other ["derive"], .other ["br"]],
    .enum [⟨[.other ["br"]], .named [⟨[], (.text 4)⟩, ⟨[], (.text 4)⟩, ⟨[], (.list (.text 4))⟩, ⟨[], (.ptr (.text 4))⟩, ⟨[], (.text 8)⟩, ⟨[], (.list Modl.ModlEntry.ty)⟩]⟩]⟩
theorem Modl.item_derive : (Modl.item).derive = .ok (Modl.ty) := rfl

/-- /repo/ssbh_lib/src/formats/skel.rs:97-112 -/
def Skel.BillboardType.item : Item :=
  ⟨[.other ["cfg_attr"], .other ["cfg_attr"], .other ["cfg_attr"], .other ["derive"], .other ["br"], .item (.list ["ssbhwrite"] [.item (.list ["repr"] [.item (.path ["u8"])])])],
    .enum (List.replicate 7 ⟨[], .unit⟩) 1⟩
theorem Skel.BillboardType.item_derive : (Skel.BillboardType.item).derive = .ok (Skel.BillboardType.ty) := repr_derive (o := { repr := some "u8" }) rfl rfl rfl

/-- /repo/ssbh_lib/src/formats/skel.rs:72-76 -/
def Skel.SkelEntryFlags.item : Item :=
  ⟨[.other ["cfg_attr"], .other ["cfg_attr"], .other ["derive"], .item (.list ["ssbhwrite"] [.item (.nameValue ["pad_after"] (.int 2))])],
    .struct (.named [⟨[], (.number 1)⟩, ⟨[.other ["br"]], Skel.BillboardType.ty⟩])⟩
theorem Skel.SkelEntryFlags.item_derive : (Skel.SkelEntryFlags.item).derive = .ok (Skel.SkelEntryFlags.ty) := rfl

/-- /repo/ssbh_lib/src/formats/skel.rs:58-66 -/
def Skel.SkelBoneEntry.item : Item :=
  ⟨[.other ["cfg_attr"], .other ["cfg_attr"], .other ["derive"]],
    .struct (.named [⟨[], (.text 4)⟩, ⟨[], (.number 2)⟩, ⟨[], (.number 2)⟩, ⟨[], Skel.SkelEntryFlags.ty⟩])⟩
theorem Skel.SkelBoneEntry.item_derive : (Skel.SkelBoneEntry.item).derive = .ok (Skel.SkelBoneEntry.ty) := rfl

/-- /repo/ssbh_lib/src/formats/skel.rs:25-43 -/
def Skel.item : Item :=
  ⟨[.other ["cfg_attr"], .other ["cfg_attr"], .other ["derive"], .other ["br"]],
    .enum [⟨[.other ["br"]], .named [⟨[], (.list Skel.SkelBoneEntry.ty)⟩, ⟨[], (.list Matrix4x4.ty)⟩, ⟨[], (.list Matrix4x4.ty)⟩, ⟨[], (.list Matrix4x4.ty)⟩, ⟨[], (.list Matrix4x4.ty)⟩]⟩]⟩
theorem Skel.item_derive : (Skel.item).derive = .ok (Skel.ty) := rfl

/-- /repo/ssbh_lib/src/formats/hlpb.rs:54-77 -/
def Hlpb.AimConstraint.item : Item :=
  ⟨[.other ["cfg_attr"], .other ["cfg_attr"], .other ["derive"]],
    .struct (.named [⟨[], (.text 4)⟩, ⟨[], (.text 4)⟩, ⟨[], (.text 4)⟩, ⟨[], (.text 4)⟩, ⟨[], (.text 4)⟩, ⟨[], (.text 4)⟩, ⟨[], (.text 4)⟩, ⟨[], (.number 4)⟩, ⟨[], (.number 4)⟩, ⟨[], Vector3.ty⟩, ⟨[], Vector3.ty⟩, ⟨[], Vector4.ty⟩, ⟨[], Vector4.ty⟩, ⟨[], (.number 4)⟩, ⟨[], (.number 4)⟩, ⟨[], (.number 4)⟩, ⟨[], (.number 4)⟩, ⟨[], (.number 4)⟩, ⟨[], (.number 4)⟩])⟩
theorem Hlpb.AimConstraint.item_derive : (Hlpb.AimConstraint.item).derive = .ok (Hlpb.AimConstraint.ty) := rfl

/-- /repo/ssbh_lib/src/formats/hlpb.rs:85-112 -/
def Hlpb.OrientConstraint.item : Item :=
  ⟨[.other ["cfg_attr"], .other ["cfg_attr"], .other ["derive"]],
    .struct (.named [⟨[], (.text 4)⟩, ⟨[], (.text 4)⟩, ⟨[], (.text 4)⟩, ⟨[], (.text 4)⟩, ⟨[], (.text 4)⟩, ⟨[], (.number 4)⟩, ⟨[], Vector3.ty⟩, ⟨[], Vector4.ty⟩, ⟨[], Vector4.ty⟩, ⟨[], Vector3.ty⟩, ⟨[], Vector3.ty⟩])⟩
theorem Hlpb.OrientConstraint.item_derive : (Hlpb.OrientConstraint.item).derive = .ok (Hlpb.OrientConstraint.ty) := rfl

/-- /repo/ssbh_lib/src/formats/hlpb.rs:120-125 -/
def Hlpb.ConstraintType.item : Item :=
  ⟨[.other ["cfg_attr"], .other ["cfg_attr"], .other ["derive"], .other ["br"], .item (.list ["ssbhwrite"] [.item (.list ["repr"] [.item (.path ["u32"])])])],
    .enum (List.replicate 2 ⟨[], .unit⟩) 1⟩
theorem Hlpb.ConstraintType.item_derive : (Hlpb.ConstraintType.item).derive = .ok (Hlpb.ConstraintType.ty) := repr_derive (o := { repr := some "u32" }) rfl rfl rfl

/-- /repo/ssbh_lib/src/formats/hlpb.rs:19-36 -/
def Hlpb.item : Item :=
  ⟨[.other ["cfg_attr"], .other ["cfg_attr"], .other ["derive"], .other ["br"]],
    .enum [⟨[.other ["br"]], .named [⟨[], (.list Hlpb.AimConstraint.ty)⟩, ⟨[], (.list Hlpb.OrientConstraint.ty)⟩, ⟨[], (.list (.number 4))⟩, ⟨[], (.list Hlpb.ConstraintType.ty)⟩]⟩]⟩
theorem Hlpb.item_derive : (Hlpb.item).derive = .ok (Hlpb.ty) := rfl

/-- /repo/ssbh_lib/src/formats/nufx.rs:79-86 -/
def Nufx.ShaderStages.item : Item :=
  ⟨[.other ["cfg_attr"], .other ["cfg_attr"], .other ["derive"]],
    .struct (.named [⟨[], (.text 4)⟩, ⟨[], (.text 4)⟩, ⟨[], (.text 4)⟩, ⟨[], (.text 4)⟩, ⟨[], (.text 4)⟩, ⟨[], (.text 4)⟩])⟩
theorem Nufx.ShaderStages.item_derive : (Nufx.ShaderStages.item).derive = .ok (Nufx.ShaderStages.ty) := rfl

/-- /repo/ssbh_lib/src/formats/nufx.rs:68-73 -/
def Nufx.MaterialParameter.item : Item :=
  ⟨[.other ["cfg_attr"], .other ["cfg_attr"], .other ["derive"], .item (.list ["ssbhwrite"] [.item (.nameValue ["pad_after"] (.int 8))])],
    .struct (.named [⟨[], (.number 8)⟩, ⟨[.other ["br"]], (.text 8)⟩])⟩
theorem Nufx.MaterialParameter.item_derive : (Nufx.MaterialParameter.item).derive = .ok (Nufx.MaterialParameter.ty) := rfl

/-- /repo/ssbh_lib/src/formats/nufx.rs:93-103 -/
def Nufx.ShaderProgramV0.item : Item :=
  ⟨[.other ["cfg_attr"], .other ["cfg_attr"], .other ["derive"]],
    .struct (.named [⟨[], (.text 4)⟩, ⟨[], (.text 4)⟩, ⟨[], Nufx.ShaderStages.ty⟩, ⟨[], (.list Nufx.MaterialParameter.ty)⟩])⟩
theorem Nufx.ShaderProgramV0.item_derive : (Nufx.ShaderProgramV0.item).derive = .ok (Nufx.ShaderProgramV0.ty) := rfl

/-- /repo/ssbh_lib/src/formats/nufx.rs:127-130 -/
def Nufx.UnkItem.item : Item :=
  ⟨[.other ["cfg_attr"], .other ["cfg_attr"], .other ["derive"]],
    .struct (.named [⟨[], (.text 4)⟩, ⟨[], (.list (.text 4))⟩])⟩
theorem Nufx.UnkItem.item_derive : (Nufx.UnkItem.item).derive = .ok (Nufx.UnkItem.ty) := rfl

/-- /repo/ssbh_lib/src/formats/nufx.rs:40-43 -/
def Nufx.NufxV0.item : Item :=
  ⟨[.other ["cfg_attr"], .other ["cfg_attr"], .other ["derive"]],
    .struct (.named [⟨[], (.list Nufx.ShaderProgramV0.ty)⟩, ⟨[], (.list Nufx.UnkItem.ty)⟩])⟩
theorem Nufx.NufxV0.item_derive : (Nufx.NufxV0.item).derive = .ok (Nufx.NufxV0.ty) := rfl

/-- /repo/ssbh_lib/src/formats/nufx.rs:58-61 -/
def Nufx.VertexAttribute.item : Item :=
  ⟨[.other ["cfg_attr"], .other ["cfg_attr"], .other ["derive"]],
    .struct (.named [⟨[], (.text 4)⟩, ⟨[], (.text 4)⟩])⟩
theorem Nufx.VertexAttribute.item_derive : (Nufx.VertexAttribute.item).derive = .ok (Nufx.VertexAttribute.ty) := rfl

/-- /repo/ssbh_lib/src/formats/nufx.rs:110-122 -/
def Nufx.ShaderProgramV1.item : Item :=
  ⟨[.other ["cfg_attr"], .other ["cfg_attr"], .other ["derive"]],
    .struct (.named [⟨[], (.text 4)⟩, ⟨[], (.text 4)⟩, ⟨[], Nufx.ShaderStages.ty⟩, ⟨[], (.list Nufx.VertexAttribute.ty)⟩, ⟨[], (.list Nufx.MaterialParameter.ty)⟩])⟩
theorem Nufx.ShaderProgramV1.item_derive : (Nufx.ShaderProgramV1.item).derive = .ok (Nufx.ShaderProgramV1.ty) := rfl

/-- /repo/ssbh_lib/src/formats/nufx.rs:48-51 -/
def Nufx.NufxV1.item : Item :=
  ⟨[.other ["cfg_attr"], .other ["cfg_attr"], .other ["derive"]],
    .struct (.named [⟨[], (.list Nufx.ShaderProgramV1.ty)⟩, ⟨[], (.list Nufx.UnkItem.ty)⟩])⟩
theorem Nufx.NufxV1.item_derive : (Nufx.NufxV1.item).derive = .ok (Nufx.NufxV1.ty) := rfl

/-- /repo/ssbh_lib/src/formats/nufx.rs:19-26 -/
def Nufx.item : Item :=
  ⟨[.other ["cfg_attr"], .other ["cfg_attr"], .other ["derive"], .other ["br"]],
    .enum [⟨[.other ["br"]], .unnamed [⟨[], Nufx.NufxV0.ty⟩]⟩,
      ⟨[.other ["br"]], .unnamed [⟨[], Nufx.NufxV1.ty⟩]⟩]⟩
theorem Nufx.item_derive : (Nufx.item).derive = .ok (Nufx.ty) := rfl

/-- /repo/ssbh_lib/src/formats/anim.rs:217-221 -/
def Anim.TrackTypeV1.item : Item :=
  ⟨[.other ["cfg_attr"], .other ["cfg_attr"], .other ["derive"], .other ["br"], .item (.list ["ssbhwrite"] [.item (.list ["repr"] [.item (.path ["u64"])])])],
    .enum (List.replicate 3 ⟨[], .unit⟩) 1⟩
theorem Anim.TrackTypeV1.item_derive : (Anim.TrackTypeV1.item).derive = .ok (Anim.TrackTypeV1.ty) := repr_derive (o := { repr := some "u64" }) rfl rfl rfl

/-- /repo/ssbh_lib/src/formats/anim.rs:124-128 -/
def Anim.Property.item : Item :=
  ⟨[.other ["cfg_attr"], .other ["cfg_attr"], .other ["derive"]],
    .struct (.named [⟨[], (.text 4)⟩, ⟨[], (.number 8)⟩])⟩
theorem Anim.Property.item_derive : (Anim.Property.item).derive = .ok (Anim.Property.ty) := rfl

/-- /repo/ssbh_lib/src/formats/anim.rs:115-119 -/
def Anim.TrackV1.item : Item :=
  ⟨[.other ["cfg_attr"], .other ["cfg_attr"], .other ["derive"]],
    .struct (.named [⟨[], (.text 4)⟩, ⟨[], Anim.TrackTypeV1.ty⟩, ⟨[], (.list Anim.Property.ty)⟩])⟩
theorem Anim.TrackV1.item_derive : (Anim.TrackV1.item).derive = .ok (Anim.TrackV1.ty) := rfl

/-- /repo/ssbh_lib/src/formats/anim.rs:268-273 -/
def Anim.GroupType.item : Item :=
  ⟨[.other ["cfg_attr"], .other ["cfg_attr"], .other ["cfg_attr"], .other ["derive"], .other ["br"], .item (.list ["ssbhwrite"] [.item (.list ["repr"] [.item (.path ["u64"])])])],
    .enum (List.replicate 4 ⟨[], .unit⟩) 1⟩
theorem Anim.GroupType.item_derive : (Anim.GroupType.item).derive = .ok (Anim.GroupType.ty) := repr_derive (o := { repr := some "u64" }) rfl rfl rfl

/-- /repo/ssbh_lib/src/formats/anim.rs:228-235 -/
def Anim.TrackTypeV2.item : Item :=
  ⟨[.other ["cfg_attr"], .other ["cfg_attr"], .other ["derive"], .other ["br"], .item (.list ["ssbhwrite"] [.item (.list ["repr"] [.item (.path ["u8"])])])],
    .enum (List.replicate 6 ⟨[], .unit⟩) 1⟩
theorem Anim.TrackTypeV2.item_derive : (Anim.TrackTypeV2.item).derive = .ok (Anim.TrackTypeV2.ty) := repr_derive (o := { repr := some "u8" }) rfl rfl rfl

/-- /repo/ssbh_lib/src/formats/anim.rs:242-257 -/
def Anim.CompressionType.item : Item :=
  ⟨[.other ["cfg_attr"], .other ["cfg_attr"], .other ["derive"], .other ["br"], .item (.list ["ssbhwrite"] [.item (.list ["repr"] [.item (.path ["u8"])])])],
    .enum (List.replicate 4 ⟨[], .unit⟩) 1⟩
theorem Anim.CompressionType.item_derive : (Anim.CompressionType.item).derive = .ok (Anim.CompressionType.ty) := repr_derive (o := { repr := some "u8" }) rfl rfl rfl

/-- /repo/ssbh_lib/src/formats/anim.rs:168-172 -/
def Anim.TrackFlags.item : Item :=
  ⟨[.other ["cfg_attr"], .other ["cfg_attr"], .other ["derive"], .item (.list ["ssbhwrite"] [.item (.nameValue ["pad_after"] (.int 2))])],
    .struct (.named [⟨[], Anim.TrackTypeV2.ty⟩, ⟨[.other ["br"]], Anim.CompressionType.ty⟩])⟩
theorem Anim.TrackFlags.item_derive : (Anim.TrackFlags.item).derive = .ok (Anim.TrackFlags.ty) := rfl

/-- /repo/ssbh_lib/src/formats/anim.rs:93-100 -/
def Anim.TrackV2.item : Item :=
  ⟨[.other ["cfg_attr"], .other ["cfg_attr"], .other ["derive"]],
    .struct (.named [⟨[], (.text 4)⟩, ⟨[], Anim.TrackFlags.ty⟩, ⟨[], (.number 4)⟩, ⟨[], Anim.TransformFlags.ty⟩, ⟨[], (.number 4)⟩, ⟨[], (.number 8)⟩])⟩
theorem Anim.TrackV2.item_derive : (Anim.TrackV2.item).derive = .ok (Anim.TrackV2.ty) := rfl

/-- /repo/ssbh_lib/src/formats/anim.rs:85-88 -/
def Anim.Node.item : Item :=
  ⟨[.other ["cfg_attr"], .other ["cfg_attr"], .other ["derive"]],
    .struct (.named [⟨[], (.text 4)⟩, ⟨[], (.list Anim.TrackV2.ty)⟩])⟩
theorem Anim.Node.item_derive : (Anim.Node.item).derive = .ok (Anim.Node.ty) := rfl

/-- /repo/ssbh_lib/src/formats/anim.rs:77-80 -/
def Anim.Group.item : Item :=
  ⟨[.other ["cfg_attr"], .other ["cfg_attr"], .other ["derive"]],
    .struct (.named [⟨[], Anim.GroupType.ty⟩, ⟨[], (.list Anim.Node.ty)⟩])⟩
theorem Anim.Group.item_derive : (Anim.Group.item).derive = .ok (Anim.Group.ty) := rfl

/-- /repo/ssbh_lib/src/formats/anim.rs:159-162 -/
def Anim.UnkSubItem.item : Item :=
  ⟨[.other ["cfg_attr"], .other ["cfg_attr"], .other ["derive"]],
    .struct (.named [⟨[], (.number 4)⟩, ⟨[], (.number 4)⟩])⟩
theorem Anim.UnkSubItem.item_derive : (Anim.UnkSubItem.item).derive = .ok (Anim.UnkSubItem.ty) := rfl

/-- /repo/ssbh_lib/src/formats/anim.rs:142-145 -/
def Anim.UnkItem1.item : Item :=
  ⟨[.other ["cfg_attr"], .other ["cfg_attr"], .other ["derive"]],
    .struct (.named [⟨[], (.number 8)⟩, ⟨[], (.list Anim.UnkSubItem.ty)⟩])⟩
theorem Anim.UnkItem1.item_derive : (Anim.UnkItem1.item).derive = .ok (Anim.UnkItem1.ty) := rfl

/-- /repo/ssbh_lib/src/formats/anim.rs:150-153 -/
def Anim.UnkItem2.item : Item :=
  ⟨[.other ["cfg_attr"], .other ["cfg_attr"], .other ["derive"]],
    .struct (.named [⟨[], (.text 4)⟩, ⟨[], (.list Anim.UnkSubItem.ty)⟩])⟩
theorem Anim.UnkItem2.item_derive : (Anim.UnkItem2.item).derive = .ok (Anim.UnkItem2.ty) := rfl

/-- /repo/ssbh_lib/src/formats/anim.rs:134-137 -/
def Anim.UnkData.item : Item :=
  ⟨[.other ["cfg_attr"], .other ["cfg_attr"], .other ["derive"]],
    .struct (.named [⟨[], (.list Anim.UnkItem1.ty)⟩, ⟨[], (.list Anim.UnkItem2.ty)⟩])⟩
theorem Anim.UnkData.item_derive : (Anim.UnkData.item).derive = .ok (Anim.UnkData.ty) := rfl

/-- /repo/ssbh_lib/src/formats/anim.rs:28-72 -/
def Anim.item : Item :=
  ⟨[.other ["cfg_attr"], .other ["cfg_attr"], .other ["derive"], .other ["br"]],
    .enum [⟨[.other ["br"]], .named [⟨[], (.text 4)⟩, ⟨[], (.number 4)⟩, ⟨[], (.number 4)⟩, ⟨[], (.number 4)⟩, ⟨[], (.number 4)⟩, ⟨[], (.list Anim.TrackV1.ty)⟩, ⟨[], (.list .buffer)⟩]⟩,
      ⟨[.other ["br"]], .named [⟨[], (.number 4)⟩, ⟨[], (.number 2)⟩, ⟨[], (.number 2)⟩, ⟨[], (.text 4)⟩, ⟨[], (.list Anim.Group.ty)⟩, ⟨[], .buffer⟩]⟩,
      ⟨[.other ["br"], .item (.list ["ssbhwrite"] [.item (.nameValue ["align_after"] (.int 8))])], .named [⟨[], (.number 4)⟩, ⟨[], (.number 2)⟩, ⟨[], (.number 2)⟩, ⟨[], (.text 4)⟩, ⟨[], (.list Anim.Group.ty)⟩, ⟨[], .buffer⟩, ⟨[], Anim.UnkData.ty⟩]⟩]⟩
theorem Anim.item_derive : (Anim.item).derive = .ok (Anim.ty) := rfl

/-- /repo/ssbh_lib/src/formats/mesh.rs:129-132 -/
def Mesh.BoundingSphere.item : Item :=
  ⟨[.other ["cfg_attr"], .other ["cfg_attr"], .other ["derive"]],
    .struct (.named [⟨[], Vector3.ty⟩, ⟨[], (.number 4)⟩])⟩
theorem Mesh.BoundingSphere.item_derive : (Mesh.BoundingSphere.item).derive = .ok (Mesh.BoundingSphere.ty) := rfl

/-- /repo/ssbh_lib/src/formats/mesh.rs:139-142 -/
def Mesh.BoundingVolume.item : Item :=
  ⟨[.other ["cfg_attr"], .other ["cfg_attr"], .other ["derive"]],
    .struct (.named [⟨[], Vector3.ty⟩, ⟨[], Vector3.ty⟩])⟩
theorem Mesh.BoundingVolume.item_derive : (Mesh.BoundingVolume.item).derive = .ok (Mesh.BoundingVolume.ty) := rfl

/-- /repo/ssbh_lib/src/formats/mesh.rs:147-151 -/
def Mesh.OrientedBoundingBox.item : Item :=
  ⟨[.other ["cfg_attr"], .other ["cfg_attr"], .other ["derive"]],
    .struct (.named [⟨[], Vector3.ty⟩, ⟨[], Matrix3x3.ty⟩, ⟨[], Vector3.ty⟩])⟩
theorem Mesh.OrientedBoundingBox.item_derive : (Mesh.OrientedBoundingBox.item).derive = .ok (Mesh.OrientedBoundingBox.ty) := rfl

/-- /repo/ssbh_lib/src/formats/mesh.rs:120-124 -/
def Mesh.BoundingInfo.item : Item :=
  ⟨[.other ["cfg_attr"], .other ["cfg_attr"], .other ["derive"]],
    .struct (.named [⟨[], Mesh.BoundingSphere.ty⟩, ⟨[], Mesh.BoundingVolume.ty⟩, ⟨[], Mesh.OrientedBoundingBox.ty⟩])⟩
theorem Mesh.BoundingInfo.item_derive : (Mesh.BoundingInfo.item).derive = .ok (Mesh.BoundingInfo.ty) := rfl

/-- /repo/ssbh_lib/src/formats/mesh.rs:288-293 -/
def Mesh.DrawElementType.item : Item :=
  ⟨[.other ["cfg_attr"], .other ["cfg_attr"], .other ["derive"], .other ["br"], .item (.list ["ssbhwrite"] [.item (.list ["repr"] [.item (.path ["u32"])])])],
    .enum (List.replicate 2 ⟨[], .unit⟩) 1⟩
theorem Mesh.DrawElementType.item_derive : (Mesh.DrawElementType.item).derive = .ok (Mesh.DrawElementType.ty) := repr_derive (o := { repr := some "u32" }) rfl rfl rfl

/-- /repo/ssbh_lib/src/formats/mesh.rs:274-280 -/
def Mesh.DepthFlags.item : Item :=
  ⟨[.other ["cfg_attr"], .other ["cfg_attr"], .other ["derive"], .item (.list ["ssbhwrite"] [.item (.nameValue ["pad_after"] (.int 2))])],
    .struct (.named [⟨[], (.number 1)⟩, ⟨[.other ["br"]], (.number 1)⟩])⟩
theorem Mesh.DepthFlags.item_derive : (Mesh.DepthFlags.item).derive = .ok (Mesh.DepthFlags.ty) := rfl

/-- /repo/ssbh_lib/src/formats/mesh.rs:222-267 -/
def Mesh.MeshObject.item (aT : Ty) : Item :=
  ⟨[.other ["cfg_attr"], .other ["cfg_attr"], .other ["derive"]],
    .struct (.named [⟨[], (.text 4)⟩, ⟨[], (.number 8)⟩, ⟨[], (.text 4)⟩, ⟨[], (.number 4)⟩, ⟨[], (.number 4)⟩, ⟨[], (.number 4)⟩, ⟨[], (.number 4)⟩, ⟨[], (.number 4)⟩, ⟨[], (.number 4)⟩, ⟨[], (.number 4)⟩, ⟨[], (.number 4)⟩, ⟨[], (.number 4)⟩, ⟨[], (.number 4)⟩, ⟨[], (.number 4)⟩, ⟨[], (.number 4)⟩, ⟨[], (.number 4)⟩, ⟨[], Mesh.DrawElementType.ty⟩, ⟨[], (.number 4)⟩, ⟨[], (.number 4)⟩, ⟨[], Mesh.DepthFlags.ty⟩, ⟨[], Mesh.BoundingInfo.ty⟩, ⟨[], (.list aT)⟩])⟩
theorem Mesh.MeshObject.item_derive (aT : Ty) : (Mesh.MeshObject.item aT).derive = .ok (Mesh.MeshObject.ty aT) := rfl

/-- /repo/ssbh_lib/src/formats/mesh.rs:157-164 -/
def Mesh.RiggingFlags.item : Item :=
  ⟨[.other ["cfg_attr"], .other ["cfg_attr"], .other ["derive"], .item (.list ["ssbhwrite"] [.item (.nameValue ["pad_after"] (.int 6))])],
    .struct (.named [⟨[], (.number 1)⟩, ⟨[.other ["br"]], (.number 1)⟩])⟩
theorem Mesh.RiggingFlags.item_derive : (Mesh.RiggingFlags.item).derive = .ok (Mesh.RiggingFlags.ty) := rfl

/-- /repo/ssbh_lib/src/formats/mesh.rs:169-172 -/
def Mesh.BoneBuffer.item (w2T : Ty) : Item :=
  ⟨[.other ["cfg_attr"], .other ["cfg_attr"], .other ["derive"]],
    .struct (.named [⟨[], (.text 4)⟩, ⟨[], w2T⟩])⟩
theorem Mesh.BoneBuffer.item_derive (w2T : Ty) : (Mesh.BoneBuffer.item w2T).derive = .ok (Mesh.BoneBuffer.ty w2T) := rfl

/-- /repo/ssbh_lib/src/formats/mesh.rs:179-184 -/
def Mesh.RiggingGroup.item (w3T : Ty) : Item :=
  ⟨[.other ["cfg_attr"], .other ["cfg_attr"], .other ["derive"]],
    .struct (.named [⟨[], (.text 4)⟩, ⟨[], (.number 8)⟩, ⟨[], Mesh.RiggingFlags.ty⟩, ⟨[], (.list (Mesh.BoneBuffer.ty w3T))⟩])⟩
theorem Mesh.RiggingGroup.item_derive (w3T : Ty) : (Mesh.RiggingGroup.item w3T).derive = .ok (Mesh.RiggingGroup.ty w3T) := rfl

/-- /repo/ssbh_lib/src/formats/mesh.rs:56-75 -/
def Mesh.MeshInner.item (aT : Ty) (w1T : Ty) : Item :=
  ⟨[.other ["cfg_attr"], .other ["cfg_attr"], .other ["derive"]],
    .struct (.named [⟨[], (.text 4)⟩, ⟨[], Mesh.BoundingInfo.ty⟩, ⟨[], (.number 4)⟩, ⟨[], (.list (Mesh.MeshObject.ty aT))⟩, ⟨[], (.list (.number 4))⟩, ⟨[], (.number 8)⟩, ⟨[], (.list .buffer)⟩, ⟨[], .buffer⟩, ⟨[], (.list (Mesh.RiggingGroup.ty w1T))⟩])⟩
theorem Mesh.MeshInner.item_derive (aT : Ty) (w1T : Ty) : (Mesh.MeshInner.item aT w1T).derive = .ok (Mesh.MeshInner.ty aT w1T) := rfl

/-- /repo/ssbh_lib/src/formats/mesh.rs:362-368 -/
def Mesh.AttributeUsageV8.item : Item :=
  ⟨[.other ["cfg_attr"], .other ["cfg_attr"], .other ["derive"], .other ["br"], .item (.list ["ssbhwrite"] [.item (.list ["repr"] [.item (.path ["u32"])])])],
    .enum (List.replicate 5 ⟨[], .unit⟩) 1⟩
theorem Mesh.AttributeUsageV8.item_derive : (Mesh.AttributeUsageV8.item).derive = .ok (Mesh.AttributeUsageV8.ty) := repr_derive (o := { repr := some "u32" }) rfl rfl rfl

/-- /repo/ssbh_lib/src/formats/mesh.rs:324-335 -/
def Mesh.AttributeDataTypeV8.item : Item :=
  ⟨[.other ["cfg_attr"], .other ["cfg_attr"], .other ["derive"], .other ["br"], .item (.list ["ssbhwrite"] [.item (.list ["repr"] [.item (.path ["u32"])])])],
    .enum (List.replicate 5 ⟨[], .unit⟩) 2⟩
theorem Mesh.AttributeDataTypeV8.item_derive : (Mesh.AttributeDataTypeV8.item).derive = .ok (Mesh.AttributeDataTypeV8.ty) := repr_derive (o := { repr := some "u32" }) rfl rfl rfl

/-- /repo/ssbh_lib/src/formats/mesh.rs:80-87 -/
def Mesh.AttributeV8.item : Item :=
  ⟨[.other ["cfg_attr"], .other ["cfg_attr"], .other ["derive"]],
    .struct (.named [⟨[], Mesh.AttributeUsageV8.ty⟩, ⟨[], Mesh.AttributeDataTypeV8.ty⟩, ⟨[], (.number 4)⟩, ⟨[], (.number 4)⟩, ⟨[], (.number 4)⟩])⟩
theorem Mesh.AttributeV8.item_derive : (Mesh.AttributeV8.item).derive = .ok (Mesh.AttributeV8.ty) := rfl

/-- /repo/ssbh_lib/src/formats/mesh.rs:205-208 -/
def Mesh.VertexWeightV8.item : Item :=
  ⟨[.other ["cfg_attr"], .other ["cfg_attr"], .other ["derive"]],
    .struct (.named [⟨[], (.number 4)⟩, ⟨[], (.number 4)⟩])⟩
theorem Mesh.VertexWeightV8.item_derive : (Mesh.VertexWeightV8.item).derive = .ok (Mesh.VertexWeightV8.ty) := rfl

/-- /repo/ssbh_lib/src/formats/mesh.rs:346-353 -/
def Mesh.AttributeUsageV9.item : Item :=
  ⟨[.other ["cfg_attr"], .other ["cfg_attr"], .other ["derive"], .other ["br"], .item (.list ["ssbhwrite"] [.item (.list ["repr"] [.item (.path ["u32"])])])],
    .enum (List.replicate 6 ⟨[], .unit⟩) 1⟩
theorem Mesh.AttributeUsageV9.item_derive : (Mesh.AttributeUsageV9.item).derive = .ok (Mesh.AttributeUsageV9.ty) := repr_derive (o := { repr := some "u32" }) rfl rfl rfl

/-- /repo/ssbh_lib/src/formats/mesh.rs:92-101 -/
def Mesh.AttributeV9.item : Item :=
  ⟨[.other ["cfg_attr"], .other ["cfg_attr"], .other ["derive"]],
    .struct (.named [⟨[], Mesh.AttributeUsageV9.ty⟩, ⟨[], Mesh.AttributeDataTypeV8.ty⟩, ⟨[], (.number 4)⟩, ⟨[], (.number 4)⟩, ⟨[], (.number 8)⟩, ⟨[], (.text 4)⟩, ⟨[], (.list (.text 4))⟩])⟩
theorem Mesh.AttributeV9.item_derive : (Mesh.AttributeV9.item).derive = .ok (Mesh.AttributeV9.ty) := rfl

/-- /repo/ssbh_lib/src/formats/mesh.rs:302-315 -/
def Mesh.AttributeDataTypeV10.item : Item :=
  ⟨[.other ["cfg_attr"], .other ["cfg_attr"], .other ["derive"], .other ["br"], .item (.list ["ssbhwrite"] [.item (.list ["repr"] [.item (.path ["u32"])])])],
    .enum (List.replicate 6 ⟨[], .unit⟩) 1⟩
theorem Mesh.AttributeDataTypeV10.item_derive : (Mesh.AttributeDataTypeV10.item).derive = .ok (Mesh.AttributeDataTypeV10.ty) := repr_derive (o := { repr := some "u32" }) rfl rfl rfl

/-- /repo/ssbh_lib/src/formats/mesh.rs:106-115 -/
def Mesh.AttributeV10.item : Item :=
  ⟨[.other ["cfg_attr"], .other ["cfg_attr"], .other ["derive"]],
    .struct (.named [⟨[], Mesh.AttributeUsageV9.ty⟩, ⟨[], Mesh.AttributeDataTypeV10.ty⟩, ⟨[], (.number 4)⟩, ⟨[], (.number 4)⟩, ⟨[], (.number 8)⟩, ⟨[], (.text 4)⟩, ⟨[], (.list (.text 4))⟩])⟩
theorem Mesh.AttributeV10.item_derive : (Mesh.AttributeV10.item).derive = .ok (Mesh.AttributeV10.ty) := rfl

/-- /repo/ssbh_lib/src/formats/mesh.rs:26-41 -/
def Mesh.item : Item :=
  ⟨[.other ["cfg_attr"], .other ["cfg_attr"], .other ["derive"], .other ["br"], .item (.list ["ssbhwrite"] [.item (.nameValue ["pad_after"] (.int 16)), .item (.nameValue ["align_after"] (.int 8))])],
    .enum [⟨[.other ["br"]], .unnamed [⟨[], (Mesh.MeshInner.ty Mesh.AttributeV8.ty (.list Mesh.VertexWeightV8.ty))⟩]⟩,
      ⟨[.other ["br"]], .unnamed [⟨[], (Mesh.MeshInner.ty Mesh.AttributeV9.ty (.list Mesh.VertexWeightV8.ty))⟩]⟩,
      ⟨[.other ["br"]], .unnamed [⟨[], (Mesh.MeshInner.ty Mesh.AttributeV10.ty .buffer)⟩]⟩]⟩
theorem Mesh.item_derive : (Mesh.item).derive = .ok (Mesh.ty) := rfl

/-- /repo/ssbh_lib/src/formats/matl.rs:147-516 -/
def Matl.ParamId.item : Item :=
  ⟨[.other ["cfg_attr"], .other ["cfg_attr"], .other ["cfg_attr"], .other ["derive"], .other ["br"], .item (.list ["ssbhwrite"] [.item (.list ["repr"] [.item (.path ["u64"])])])],
    .enum (List.replicate 366 ⟨[], .unit⟩) 2⟩
theorem Matl.ParamId.item_derive : (Matl.ParamId.item).derive = .ok (Matl.ParamId.ty) := repr_derive (o := { repr := some "u64" }) rfl rfl rfl

/-- /repo/ssbh_lib/src/formats/matl.rs:571-576 -/
def Matl.WrapMode.item : Item :=
  ⟨[.other ["cfg_attr"], .other ["cfg_attr"], .other ["cfg_attr"], .other ["derive"], .other ["br"], .item (.list ["ssbhwrite"] [.item (.list ["repr"] [.item (.path ["u32"])])])],
    .enum (List.replicate 4 ⟨[], .unit⟩) 1⟩
theorem Matl.WrapMode.item_derive : (Matl.WrapMode.item).derive = .ok (Matl.WrapMode.ty) := repr_derive (o := { repr := some "u32" }) rfl rfl rfl

/-- /repo/ssbh_lib/src/formats/matl.rs:584-588 -/
def Matl.MinFilter.item : Item :=
  ⟨[.other ["cfg_attr"], .other ["cfg_attr"], .other ["cfg_attr"], .other ["derive"], .other ["br"], .item (.list ["ssbhwrite"] [.item (.list ["repr"] [.item (.path ["u32"])])])],
    .enum (List.replicate 3 ⟨[], .unit⟩) 1⟩
theorem Matl.MinFilter.item_derive : (Matl.MinFilter.item).derive = .ok (Matl.MinFilter.ty) := repr_derive (o := { repr := some "u32" }) rfl rfl rfl

/-- /repo/ssbh_lib/src/formats/matl.rs:596-600 -/
def Matl.MagFilter.item : Item :=
  ⟨[.other ["cfg_attr"], .other ["cfg_attr"], .other ["cfg_attr"], .other ["derive"], .other ["br"], .item (.list ["ssbhwrite"] [.item (.list ["repr"] [.item (.path ["u32"])])])],
    .enum (List.replicate 3 ⟨[], .unit⟩) 1⟩
theorem Matl.MagFilter.item_derive : (Matl.MagFilter.item).derive = .ok (Matl.MagFilter.ty) := repr_derive (o := { repr := some "u32" }) rfl rfl rfl

/-- /repo/ssbh_lib/src/formats/matl.rs:608-612 -/
def Matl.FilteringType.item : Item :=
  ⟨[.other ["cfg_attr"], .other ["cfg_attr"], .other ["cfg_attr"], .other ["derive"], .other ["br"], .item (.list ["ssbhwrite"] [.item (.list ["repr"] [.item (.path ["u32"])])])],
    .enum (List.replicate 3 ⟨[], .unit⟩) 1⟩
theorem Matl.FilteringType.item_derive : (Matl.FilteringType.item).derive = .ok (Matl.FilteringType.ty) := repr_derive (o := { repr := some "u32" }) rfl rfl rfl

/-- /repo/ssbh_lib/src/formats/matl.rs:640-646 -/
def Matl.MaxAnisotropy.item : Item :=
  ⟨[.other ["cfg_attr"], .other ["cfg_attr"], .other ["cfg_attr"], .other ["derive"], .other ["br"], .item (.list ["ssbhwrite"] [.item (.list ["repr"] [.item (.path ["u32"])])])],
    .enum (List.replicate 5 ⟨[], .unit⟩) 1⟩
theorem Matl.MaxAnisotropy.item_derive : (Matl.MaxAnisotropy.item).derive = .ok (Matl.MaxAnisotropy.ty) := repr_derive (o := { repr := some "u32" }) rfl rfl rfl

/-- /repo/ssbh_lib/src/formats/matl.rs:617-629 -/
def Matl.Sampler.item : Item :=
  ⟨[.other ["cfg_attr"], .other ["cfg_attr"], .other ["derive"]],
    .struct (.named [⟨[], Matl.WrapMode.ty⟩, ⟨[], Matl.WrapMode.ty⟩, ⟨[], Matl.WrapMode.ty⟩, ⟨[], Matl.MinFilter.ty⟩, ⟨[], Matl.MagFilter.ty⟩, ⟨[], Matl.FilteringType.ty⟩, ⟨[], Color4f.ty⟩, ⟨[], (.number 4)⟩, ⟨[], (.number 4)⟩, ⟨[], (.number 4)⟩, ⟨[], Matl.MaxAnisotropy.ty⟩])⟩
theorem Matl.Sampler.item_derive : (Matl.Sampler.item).derive = .ok (Matl.Sampler.ty) := rfl

/-- /repo/ssbh_lib/src/formats/matl.rs:651-657 -/
def Matl.UvTransform.item : Item :=
  ⟨[.other ["cfg_attr"], .other ["cfg_attr"], .other ["derive"]],
    .struct (.named [⟨[], (.number 4)⟩, ⟨[], (.number 4)⟩, ⟨[], (.number 4)⟩, ⟨[], (.number 4)⟩, ⟨[], (.number 4)⟩])⟩
theorem Matl.UvTransform.item_derive : (Matl.UvTransform.item).derive = .ok (Matl.UvTransform.ty) := rfl

/-- /repo/ssbh_lib/src/formats/matl.rs:666-679 -/
def Matl.BlendFactor.item : Item :=
  ⟨[.other ["cfg_attr"], .other ["cfg_attr"], .other ["cfg_attr"], .other ["derive"], .other ["br"], .item (.list ["ssbhwrite"] [.item (.list ["repr"] [.item (.path ["u32"])])])],
    .enum (List.replicate 11 ⟨[], .unit⟩) 1⟩
theorem Matl.BlendFactor.item_derive : (Matl.BlendFactor.item).derive = .ok (Matl.BlendFactor.ty) := repr_derive (o := { repr := some "u32" }) rfl rfl rfl

/-- /repo/ssbh_lib/src/formats/matl.rs:688-694 -/
def Matl.BlendOperation.item : Item :=
  ⟨[.other ["cfg_attr"], .other ["cfg_attr"], .other ["cfg_attr"], .other ["derive"], .other ["br"], .item (.list ["ssbhwrite"] [.item (.list ["repr"] [.item (.path ["u32"])])])],
    .enum (List.replicate 5 ⟨[], .unit⟩) 1⟩
theorem Matl.BlendOperation.item_derive : (Matl.BlendOperation.item).derive = .ok (Matl.BlendOperation.ty) := repr_derive (o := { repr := some "u32" }) rfl rfl rfl

/-- /repo/ssbh_lib/src/formats/matl.rs:700-711 -/
def Matl.BlendStateV15.item : Item :=
  ⟨[.other ["cfg_attr"], .other ["cfg_attr"], .other ["derive"]],
    .struct (.named [⟨[], Matl.BlendFactor.ty⟩, ⟨[], Matl.BlendOperation.ty⟩, ⟨[], Matl.BlendFactor.ty⟩, ⟨[], Matl.BlendFactor.ty⟩, ⟨[], Matl.BlendOperation.ty⟩, ⟨[], Matl.BlendFactor.ty⟩, ⟨[], (.number 8)⟩, ⟨[], (.number 4)⟩, ⟨[], (.number 4)⟩, ⟨[], (.number 4)⟩])⟩
theorem Matl.BlendStateV15.item_derive : (Matl.BlendStateV15.item).derive = .ok (Matl.BlendStateV15.ty) := rfl

/-- /repo/ssbh_lib/src/formats/matl.rs:537-541 -/
def Matl.CullMode.item : Item :=
  ⟨[.other ["cfg_attr"], .other ["cfg_attr"], .other ["cfg_attr"], .other ["derive"], .other ["br"], .item (.list ["ssbhwrite"] [.item (.list ["repr"] [.item (.path ["u32"])])])],
    .enum (List.replicate 3 ⟨[], .unit⟩) 1⟩
theorem Matl.CullMode.item_derive : (Matl.CullMode.item).derive = .ok (Matl.CullMode.ty) := repr_derive (o := { repr := some "u32" }) rfl rfl rfl

/-- /repo/ssbh_lib/src/formats/matl.rs:546-548 -/
def Matl.RasterizerStateV15.item : Item :=
  ⟨[.other ["cfg_attr"], .other ["cfg_attr"], .other ["derive"]],
    .struct (.named [⟨[], Matl.CullMode.ty⟩])⟩
theorem Matl.RasterizerStateV15.item_derive : (Matl.RasterizerStateV15.item).derive = .ok (Matl.RasterizerStateV15.ty) := rfl

/-- /repo/ssbh_lib/src/formats/matl.rs:100-116 -/
def Matl.ParamV15.item : Item :=
  ⟨[],
    .enum [⟨[.other ["br"]], .unnamed [⟨[], (.number 4)⟩]⟩, ⟨[.other ["br"]], .unnamed [⟨[], (.number 4)⟩]⟩, ⟨[.other ["br"]], .unnamed [⟨[], Vector4.ty⟩]⟩, ⟨[.other ["br"]], .unnamed [⟨[], Color4f.ty⟩]⟩, ⟨[.other ["br"]], .unnamed [⟨[], (.text 4)⟩]⟩, ⟨[.other ["br"]], .unnamed [⟨[], Matl.Sampler.ty⟩]⟩, ⟨[.other ["br"]], .unnamed [⟨[], Matl.UvTransform.ty⟩]⟩, ⟨[.other ["br"]], .unnamed [⟨[], Matl.BlendStateV15.ty⟩]⟩, ⟨[.other ["br"]], .unnamed [⟨[], Matl.RasterizerStateV15.ty⟩]⟩]⟩
theorem Matl.ParamV15.item_derive : (Matl.ParamV15.item).derive = .ok (Matl.ParamV15.ty) := rfl

/-- /repo/ssbh_lib/src/formats/matl.rs:64-69 -/
def Matl.AttributeV15.item : Item :=
  ⟨[.other ["cfg_attr"], .other ["cfg_attr"], .other ["derive"]],
    .struct (.named [⟨[], Matl.ParamId.ty⟩, ⟨[], (.tagged Matl.ParamV15.tags Matl.ParamV15.ty)⟩])⟩
theorem Matl.AttributeV15.item_derive : (Matl.AttributeV15.item).derive = .ok (Matl.AttributeV15.ty) := rfl

/-- /repo/ssbh_lib/src/formats/matl.rs:45-57 -/
def Matl.MatlEntryV15.item : Item :=
  ⟨[.other ["cfg_attr"], .other ["cfg_attr"], .other ["derive"]],
    .struct (.named [⟨[], (.text 4)⟩, ⟨[], (.list Matl.AttributeV15.ty)⟩, ⟨[], (.text 4)⟩])⟩
theorem Matl.MatlEntryV15.item_derive : (Matl.MatlEntryV15.item).derive = .ok (Matl.MatlEntryV15.ty) := rfl

/-- /repo/ssbh_lib/src/formats/matl.rs:718-730 -/
def Matl.BlendStateV16.item : Item :=
  ⟨[.other ["cfg_attr"], .other ["cfg_attr"], .other ["derive"], .item (.list ["ssbhwrite"] [.item (.nameValue ["pad_after"] (.int 8))])],
    .struct (.named [⟨[], Matl.BlendFactor.ty⟩, ⟨[], Matl.BlendOperation.ty⟩, ⟨[], Matl.BlendFactor.ty⟩, ⟨[], Matl.BlendFactor.ty⟩, ⟨[], Matl.BlendOperation.ty⟩, ⟨[], Matl.BlendFactor.ty⟩, ⟨[], (.number 4)⟩, ⟨[], (.number 4)⟩, ⟨[], (.number 4)⟩, ⟨[], (.number 4)⟩])⟩
theorem Matl.BlendStateV16.item_derive : (Matl.BlendStateV16.item).derive = .ok (Matl.BlendStateV16.ty) := rfl

/-- /repo/ssbh_lib/src/formats/matl.rs:525-528 -/
def Matl.FillMode.item : Item :=
  ⟨[.other ["cfg_attr"], .other ["cfg_attr"], .other ["cfg_attr"], .other ["derive"], .other ["br"], .item (.list ["ssbhwrite"] [.item (.list ["repr"] [.item (.path ["u32"])])])],
    .enum (List.replicate 2 ⟨[], .unit⟩) 1⟩
theorem Matl.FillMode.item_derive : (Matl.FillMode.item).derive = .ok (Matl.FillMode.ty) := repr_derive (o := { repr := some "u32" }) rfl rfl rfl

/-- /repo/ssbh_lib/src/formats/matl.rs:554-561 -/
def Matl.RasterizerStateV16.item : Item :=
  ⟨[.other ["cfg_attr"], .other ["cfg_attr"], .other ["derive"], .item (.list ["ssbhwrite"] [.item (.nameValue ["pad_after"] (.int 4))])],
    .struct (.named [⟨[], Matl.FillMode.ty⟩, ⟨[], Matl.CullMode.ty⟩, ⟨[], (.number 4)⟩, ⟨[], (.number 4)⟩, ⟨[], (.number 4)⟩, ⟨[], (.number 4)⟩])⟩
theorem Matl.RasterizerStateV16.item_derive : (Matl.RasterizerStateV16.item).derive = .ok (Matl.RasterizerStateV16.ty) := rfl

/-- /repo/ssbh_lib/src/formats/matl.rs:118-134 -/
def Matl.ParamV16.item : Item :=
  ⟨[],
    .enum [⟨[.other ["br"]], .unnamed [⟨[], (.number 4)⟩]⟩, ⟨[.other ["br"]], .unnamed [⟨[], (.number 4)⟩]⟩, ⟨[.other ["br"]], .unnamed [⟨[], Vector4.ty⟩]⟩, ⟨[.other ["br"]], .unnamed [⟨[], Color4f.ty⟩]⟩, ⟨[.other ["br"]], .unnamed [⟨[], (.text 4)⟩]⟩, ⟨[.other ["br"]], .unnamed [⟨[], Matl.Sampler.ty⟩]⟩, ⟨[.other ["br"]], .unnamed [⟨[], Matl.UvTransform.ty⟩]⟩, ⟨[.other ["br"]], .unnamed [⟨[], Matl.BlendStateV16.ty⟩]⟩, ⟨[.other ["br"]], .unnamed [⟨[], Matl.RasterizerStateV16.ty⟩]⟩]⟩
theorem Matl.ParamV16.item_derive : (Matl.ParamV16.item).derive = .ok (Matl.ParamV16.ty) := rfl

/-- /repo/ssbh_lib/src/formats/matl.rs:93-98 -/
def Matl.AttributeV16.item : Item :=
  ⟨[.other ["cfg_attr"], .other ["cfg_attr"], .other ["derive"]],
    .struct (.named [⟨[], Matl.ParamId.ty⟩, ⟨[], (.tagged Matl.ParamV16.tags Matl.ParamV16.ty)⟩])⟩
theorem Matl.AttributeV16.item_derive : (Matl.AttributeV16.item).derive = .ok (Matl.AttributeV16.ty) := rfl

/-- /repo/ssbh_lib/src/formats/matl.rs:75-87 -/
def Matl.MatlEntryV16.item : Item :=
  ⟨[.other ["cfg_attr"], .other ["cfg_attr"], .other ["derive"]],
    .struct (.named [⟨[], (.text 4)⟩, ⟨[], (.list Matl.AttributeV16.ty)⟩, ⟨[], (.text 4)⟩])⟩
theorem Matl.MatlEntryV16.item_derive : (Matl.MatlEntryV16.item).derive = .ok (Matl.MatlEntryV16.ty) := rfl

/-- /repo/ssbh_lib/src/formats/matl.rs:25-30 -/
def Matl.item : Item :=
  ⟨[.other ["cfg_attr"], .other ["cfg_attr"], .other ["derive"], .other ["br"]],
    .enum [⟨[.other ["br"]], .named [⟨[], (.list Matl.MatlEntryV15.ty)⟩]⟩,
      ⟨[.other ["br"]], .named [⟨[], (.list Matl.MatlEntryV16.ty)⟩]⟩]⟩
theorem Matl.item_derive : (Matl.item).derive = .ok (Matl.ty) := rfl

/-- /repo/ssbh_lib/src/formats/nrpd.rs:74-87 -/
def Nrpd.UnkFormat.item : Item :=
  ⟨[.other ["cfg_attr"], .other ["cfg_attr"], .other ["cfg_attr"], .other ["derive"], .other ["br"], .item (.list ["ssbhwrite"] [.item (.list ["repr"] [.item (.path ["u64"])])])],
    .enum (List.replicate 12 ⟨[], .unit⟩) 2⟩
theorem Nrpd.UnkFormat.item_derive : (Nrpd.UnkFormat.item).derive = .ok (Nrpd.UnkFormat.ty) := repr_derive (o := { repr := some "u64" }) rfl rfl rfl

/-- /repo/ssbh_lib/src/formats/nrpd.rs:92-99 -/
def Nrpd.Framebuffer0.item : Item :=
  ⟨[.other ["cfg_attr"], .other ["cfg_attr"], .other ["derive"]],
    .struct (.named [⟨[], (.text 4)⟩, ⟨[], (.number 4)⟩, ⟨[], (.number 4)⟩, ⟨[], Nrpd.UnkFormat.ty⟩, ⟨[], (.number 4)⟩, ⟨[], (.number 4)⟩])⟩
theorem Nrpd.Framebuffer0.item_derive : (Nrpd.Framebuffer0.item).derive = .ok (Nrpd.Framebuffer0.ty) := rfl

/-- /repo/ssbh_lib/src/formats/nrpd.rs:104-111 -/
def Nrpd.Framebuffer1.item : Item :=
  ⟨[.other ["cfg_attr"], .other ["cfg_attr"], .other ["derive"]],
    .struct (.named [⟨[], (.text 4)⟩, ⟨[], (.number 4)⟩, ⟨[], (.number 4)⟩, ⟨[], (.number 8)⟩, ⟨[], (.number 4)⟩, ⟨[], (.number 4)⟩])⟩
theorem Nrpd.Framebuffer1.item_derive : (Nrpd.Framebuffer1.item).derive = .ok (Nrpd.Framebuffer1.ty) := rfl

/-- /repo/ssbh_lib/src/formats/nrpd.rs:116-121 -/
def Nrpd.UniformBuffer.item : Item :=
  ⟨[.other ["cfg_attr"], .other ["cfg_attr"], .other ["derive"]],
    .struct (.named [⟨[], (.text 4)⟩, ⟨[], (.number 4)⟩, ⟨[], (.number 4)⟩, ⟨[], (.number 8)⟩])⟩
theorem Nrpd.UniformBuffer.item_derive : (Nrpd.UniformBuffer.item).derive = .ok (Nrpd.UniformBuffer.ty) := rfl

/-- /repo/ssbh_lib/src/formats/nrpd.rs:126-134 -/
def Nrpd.Framebuffer3.item : Item :=
  ⟨[.other ["cfg_attr"], .other ["cfg_attr"], .other ["derive"]],
    .struct (.named [⟨[], (.text 4)⟩, ⟨[], (.number 4)⟩, ⟨[], (.number 4)⟩, ⟨[], (.number 4)⟩, ⟨[], (.number 4)⟩, ⟨[], (.number 4)⟩, ⟨[], (.number 4)⟩])⟩
theorem Nrpd.Framebuffer3.item_derive : (Nrpd.Framebuffer3.item).derive = .ok (Nrpd.Framebuffer3.ty) := rfl

/-- /repo/ssbh_lib/src/formats/nrpd.rs:139-144 -/
def Nrpd.Framebuffer4.item : Item :=
  ⟨[.other ["cfg_attr"], .other ["cfg_attr"], .other ["derive"]],
    .struct (.named [⟨[], (.text 4)⟩, ⟨[], (.number 4)⟩, ⟨[], (.number 4)⟩, ⟨[], (.number 8)⟩])⟩
theorem Nrpd.Framebuffer4.item_derive : (Nrpd.Framebuffer4.item).derive = .ok (Nrpd.Framebuffer4.ty) := rfl

/-- /repo/ssbh_lib/src/formats/nrpd.rs:57-64 -/
def Nrpd.FrameBuffer.item : Item :=
  ⟨[],
    .enum [⟨[.other ["br"]], .unnamed [⟨[], Nrpd.Framebuffer0.ty⟩]⟩, ⟨[.other ["br"]], .unnamed [⟨[], Nrpd.Framebuffer1.ty⟩]⟩, ⟨[.other ["br"]], .unnamed [⟨[], Nrpd.UniformBuffer.ty⟩]⟩, ⟨[.other ["br"]], .unnamed [⟨[], Nrpd.Framebuffer3.ty⟩]⟩, ⟨[.other ["br"]], .unnamed [⟨[], Nrpd.Framebuffer4.ty⟩]⟩]⟩
theorem Nrpd.FrameBuffer.item_derive : (Nrpd.FrameBuffer.item).derive = .ok (Nrpd.FrameBuffer.ty) := rfl

/-- /repo/ssbh_lib/src/formats/nrpd.rs:149-153 -/
def Nrpd.NrpdSampler.item : Item :=
  ⟨[.other ["cfg_attr"], .other ["cfg_attr"], .other ["derive"]],
    .struct (.named [⟨[], (.text 4)⟩, ⟨[], Matl.Sampler.ty⟩, ⟨[], (.number 8)⟩])⟩
theorem Nrpd.NrpdSampler.item_derive : (Nrpd.NrpdSampler.item).derive = .ok (Nrpd.NrpdSampler.ty) := rfl

/-- /repo/ssbh_lib/src/formats/nrpd.rs:158-167 -/
def Nrpd.NrpdRasterizerState.item : Item :=
  ⟨[.other ["cfg_attr"], .other ["cfg_attr"], .other ["derive"]],
    .struct (.named [⟨[], (.text 4)⟩, ⟨[], Matl.FillMode.ty⟩, ⟨[], Matl.CullMode.ty⟩, ⟨[], (.number 4)⟩, ⟨[], (.number 4)⟩, ⟨[], (.number 4)⟩, ⟨[], (.number 4)⟩])⟩
theorem Nrpd.NrpdRasterizerState.item_derive : (Nrpd.NrpdRasterizerState.item).derive = .ok (Nrpd.NrpdRasterizerState.ty) := rfl

/-- /repo/ssbh_lib/src/formats/nrpd.rs:192-204 -/
def Nrpd.DepthState.item : Item :=
  ⟨[.other ["cfg_attr"], .other ["cfg_attr"], .other ["derive"]],
    .struct (.named [⟨[], (.text 4)⟩, ⟨[], (.number 4)⟩, ⟨[], (.number 4)⟩, ⟨[], (.number 4)⟩, ⟨[], (.number 4)⟩, ⟨[], (.number 4)⟩, ⟨[], (.number 4)⟩, ⟨[], (.number 8)⟩, ⟨[], (.number 8)⟩, ⟨[], (.number 8)⟩, ⟨[], (.number 8)⟩])⟩
theorem Nrpd.DepthState.item_derive : (Nrpd.DepthState.item).derive = .ok (Nrpd.DepthState.ty) := rfl

/-- /repo/ssbh_lib/src/formats/nrpd.rs:172-186 -/
def Nrpd.NrpdBlendState.item : Item :=
  ⟨[.other ["cfg_attr"], .other ["cfg_attr"], .other ["derive"]],
    .struct (.named [⟨[], (.text 4)⟩, ⟨[], Matl.BlendFactor.ty⟩, ⟨[], (.number 4)⟩, ⟨[], Matl.BlendFactor.ty⟩, ⟨[], (.number 4)⟩, ⟨[], (.number 4)⟩, ⟨[], (.number 4)⟩, ⟨[], (.number 4)⟩, ⟨[], (.number 4)⟩, ⟨[], (.number 4)⟩, ⟨[], (.number 4)⟩])⟩
theorem Nrpd.NrpdBlendState.item_derive : (Nrpd.NrpdBlendState.item).derive = .ok (Nrpd.NrpdBlendState.ty) := rfl

/-- /repo/ssbh_lib/src/formats/nrpd.rs:206-212 -/
def Nrpd.State.item : Item :=
  ⟨[],
    .enum [⟨[.other ["br"]], .unnamed [⟨[], Nrpd.NrpdSampler.ty⟩]⟩, ⟨[.other ["br"]], .unnamed [⟨[], Nrpd.NrpdRasterizerState.ty⟩]⟩, ⟨[.other ["br"]], .unnamed [⟨[], Nrpd.DepthState.ty⟩]⟩, ⟨[.other ["br"]], .unnamed [⟨[], Nrpd.NrpdBlendState.ty⟩]⟩]⟩
theorem Nrpd.State.item_derive : (Nrpd.State.item).derive = .ok (Nrpd.State.ty) := rfl

/-- /repo/ssbh_lib/src/formats/nrpd.rs:237-241 -/
def Nrpd.RenderPassData0.item : Item :=
  ⟨[.other ["cfg_attr"], .other ["cfg_attr"], .other ["derive"]],
    .struct (.named [⟨[], (.text 4)⟩, ⟨[], (.text 4)⟩, ⟨[], (.number 8)⟩])⟩
theorem Nrpd.RenderPassData0.item_derive : (Nrpd.RenderPassData0.item).derive = .ok (Nrpd.RenderPassData0.ty) := rfl

/-- /repo/ssbh_lib/src/formats/nrpd.rs:246-249 -/
def Nrpd.RenderPassData1.item : Item :=
  ⟨[.other ["cfg_attr"], .other ["cfg_attr"], .other ["derive"]],
    .struct (.named [⟨[], (.text 4)⟩, ⟨[], (.text 4)⟩])⟩
theorem Nrpd.RenderPassData1.item_derive : (Nrpd.RenderPassData1.item).derive = .ok (Nrpd.RenderPassData1.ty) := rfl

/-- /repo/ssbh_lib/src/formats/nrpd.rs:254-262 -/
def Nrpd.RenderPassData2.item : Item :=
  ⟨[.other ["cfg_attr"], .other ["cfg_attr"], .other ["derive"]],
    .struct (.named [⟨[], (.text 4)⟩, ⟨[], (.text 4)⟩, ⟨[], (.ptr (.number 8))⟩, ⟨[], (.number 8)⟩, ⟨[], (.ptr (.number 8))⟩, ⟨[], (.number 8)⟩])⟩
theorem Nrpd.RenderPassData2.item_derive : (Nrpd.RenderPassData2.item).derive = .ok (Nrpd.RenderPassData2.ty) := rfl

/-- /repo/ssbh_lib/src/formats/nrpd.rs:299-302 -/
def Nrpd.Unk8Data.item : Item :=
  ⟨[.other ["cfg_attr"], .other ["cfg_attr"], .other ["derive"]],
    .struct (.named [⟨[], (.number 4)⟩, ⟨[], (.number 4)⟩])⟩
theorem Nrpd.Unk8Data.item_derive : (Nrpd.Unk8Data.item).derive = .ok (Nrpd.Unk8Data.ty) := rfl

/-- /repo/ssbh_lib/src/formats/nrpd.rs:267-274 -/
def Nrpd.RenderPassData3.item : Item :=
  ⟨[.other ["cfg_attr"], .other ["cfg_attr"], .other ["derive"]],
    .struct (.named [⟨[], (.text 4)⟩, ⟨[], (.text 4)⟩, ⟨[], (.ptr Nrpd.Unk8Data.ty)⟩, ⟨[], (.number 8)⟩, ⟨[], (.ptr Nrpd.Unk8Data.ty)⟩, ⟨[], (.number 8)⟩])⟩
theorem Nrpd.RenderPassData3.item_derive : (Nrpd.RenderPassData3.item).derive = .ok (Nrpd.RenderPassData3.ty) := rfl

/-- /repo/ssbh_lib/src/formats/nrpd.rs:279-286 -/
def Nrpd.RenderPassData8.item : Item :=
  ⟨[.other ["cfg_attr"], .other ["cfg_attr"], .other ["derive"]],
    .struct (.named [⟨[], (.text 4)⟩, ⟨[], (.text 4)⟩, ⟨[], (.ptr (.number 8))⟩, ⟨[], (.number 8)⟩, ⟨[], (.ptr (.number 8))⟩, ⟨[], (.number 8)⟩])⟩
theorem Nrpd.RenderPassData8.item_derive : (Nrpd.RenderPassData8.item).derive = .ok (Nrpd.RenderPassData8.ty) := rfl

/-- /repo/ssbh_lib/src/formats/nrpd.rs:307-311 -/
def Nrpd.ColorClear.item : Item :=
  ⟨[.other ["cfg_attr"], .other ["cfg_attr"], .other ["derive"]],
    .struct (.named [⟨[], (.text 4)⟩, ⟨[], Color4f.ty⟩, ⟨[], (.number 8)⟩])⟩
theorem Nrpd.ColorClear.item_derive : (Nrpd.ColorClear.item).derive = .ok (Nrpd.ColorClear.ty) := rfl

/-- /repo/ssbh_lib/src/formats/nrpd.rs:316-320 -/
def Nrpd.DepthStencilClear.item : Item :=
  ⟨[.other ["cfg_attr"], .other ["cfg_attr"], .other ["derive"]],
    .struct (.named [⟨[], (.text 4)⟩, ⟨[], (.number 4)⟩, ⟨[], (.number 4)⟩])⟩
theorem Nrpd.DepthStencilClear.item_derive : (Nrpd.DepthStencilClear.item).derive = .ok (Nrpd.DepthStencilClear.ty) := rfl

/-- /repo/ssbh_lib/src/formats/nrpd.rs:325-333 -/
def Nrpd.Viewport.item : Item :=
  ⟨[.other ["cfg_attr"], .other ["cfg_attr"], .other ["derive"]],
    .struct (.named [⟨[], (.text 4)⟩, ⟨[], (.number 8)⟩, ⟨[], (.number 4)⟩, ⟨[], (.number 4)⟩, ⟨[], (.number 4)⟩, ⟨[], (.number 4)⟩, ⟨[], (.number 8)⟩])⟩
theorem Nrpd.Viewport.item_derive : (Nrpd.Viewport.item).derive = .ok (Nrpd.Viewport.ty) := rfl

/-- /repo/ssbh_lib/src/formats/nrpd.rs:338-346 -/
def Nrpd.RenderPassData13.item : Item :=
  ⟨[.other ["cfg_attr"], .other ["cfg_attr"], .other ["derive"]],
    .struct (.named [⟨[], (.text 4)⟩, ⟨[], (.text 4)⟩, ⟨[], (.ptr (.number 8))⟩, ⟨[], (.number 8)⟩, ⟨[], (.ptr (.number 8))⟩, ⟨[], (.number 8)⟩])⟩
theorem Nrpd.RenderPassData13.item_derive : (Nrpd.RenderPassData13.item).derive = .ok (Nrpd.RenderPassData13.ty) := rfl

/-- /repo/ssbh_lib/src/formats/nrpd.rs:382-385 -/
def Nrpd.StringPair.item : Item :=
  ⟨[.other ["cfg_attr"], .other ["cfg_attr"], .other ["derive"]],
    .struct (.named [⟨[], (.text 4)⟩, ⟨[], (.text 4)⟩])⟩
theorem Nrpd.StringPair.item_derive : (Nrpd.StringPair.item).derive = .ok (Nrpd.StringPair.ty) := rfl

/-- /repo/ssbh_lib/src/formats/nrpd.rs:291-294 -/
def Nrpd.RenderPassData19.item : Item :=
  ⟨[.other ["cfg_attr"], .other ["cfg_attr"], .other ["derive"]],
    .struct (.named [⟨[], (.text 4)⟩, ⟨[], (.number 8)⟩])⟩
theorem Nrpd.RenderPassData19.item_derive : (Nrpd.RenderPassData19.item).derive = .ok (Nrpd.RenderPassData19.ty) := rfl

/-- /repo/ssbh_lib/src/formats/nrpd.rs:215-232 -/
def Nrpd.RenderPassData.item : Item :=
  ⟨[],
    .enum [⟨[.other ["br"]], .unnamed [⟨[], Nrpd.RenderPassData0.ty⟩]⟩, ⟨[.other ["br"]], .unnamed [⟨[], Nrpd.RenderPassData1.ty⟩]⟩, ⟨[.other ["br"]], .unnamed [⟨[], Nrpd.RenderPassData2.ty⟩]⟩, ⟨[.other ["br"]], .unnamed [⟨[], Nrpd.RenderPassData3.ty⟩]⟩, ⟨[.other ["br"]], .unnamed [⟨[], Nrpd.RenderPassData8.ty⟩]⟩, ⟨[.other ["br"]], .unnamed [⟨[], Nrpd.ColorClear.ty⟩]⟩, ⟨[.other ["br"]], .unnamed [⟨[], Nrpd.DepthStencilClear.ty⟩]⟩, ⟨[.other ["br"]], .unnamed [⟨[], Nrpd.Viewport.ty⟩]⟩, ⟨[.other ["br"]], .unnamed [⟨[], Nrpd.RenderPassData13.ty⟩]⟩, ⟨[.other ["br"]], .unnamed [⟨[], Nrpd.StringPair.ty⟩]⟩, ⟨[.other ["br"]], .unnamed [⟨[], Nrpd.StringPair.ty⟩]⟩, ⟨[.other ["br"]], .unnamed [⟨[], Nrpd.StringPair.ty⟩]⟩, ⟨[.other ["br"]], .unnamed [⟨[], (.text 4)⟩]⟩, ⟨[.other ["br"]], .unnamed [⟨[], (.text 4)⟩]⟩, ⟨[.other ["br"]], .unnamed [⟨[], Nrpd.RenderPassData19.ty⟩]⟩]⟩
theorem Nrpd.RenderPassData.item_derive : (Nrpd.RenderPassData.item).derive = .ok (Nrpd.RenderPassData.ty) := rfl

/-- /repo/ssbh_lib/src/formats/nrpd.rs:370-377 -/
def Nrpd.Unk3Data.item : Item :=
  ⟨[.other ["cfg_attr"], .other ["cfg_attr"], .other ["derive"]],
    .struct (.named [⟨[], (.text 4)⟩, ⟨[], (.text 4)⟩, ⟨[], (.number 4)⟩, ⟨[], (.number 4)⟩, ⟨[], (.number 4)⟩, ⟨[], (.number 4)⟩])⟩
theorem Nrpd.Unk3Data.item_derive : (Nrpd.Unk3Data.item).derive = .ok (Nrpd.Unk3Data.ty) := rfl

/-- /repo/ssbh_lib/src/formats/nrpd.rs:361-365 -/
def Nrpd.RenderPassUnkData.item : Item :=
  ⟨[],
    .enum [⟨[.other ["br"]], .unnamed [⟨[], .unit⟩]⟩, ⟨[.other ["br"]], .unnamed [⟨[], Nrpd.Unk3Data.ty⟩]⟩]⟩
theorem Nrpd.RenderPassUnkData.item_derive : (Nrpd.RenderPassUnkData.item).derive = .ok (Nrpd.RenderPassUnkData.ty) := rfl

/-- /repo/ssbh_lib/src/formats/nrpd.rs:352-358 -/
def Nrpd.RenderPassContainer.item : Item :=
  ⟨[.other ["cfg_attr"], .other ["cfg_attr"], .other ["derive"], .item (.list ["ssbhwrite"] [.item (.nameValue ["pad_after"] (.int 8))])],
    .struct (.named [⟨[], (.text 4)⟩, ⟨[], (.list (.tagged Nrpd.RenderPassData.tags Nrpd.RenderPassData.ty))⟩, ⟨[], (.list (.tagged Nrpd.RenderPassData.tags Nrpd.RenderPassData.ty))⟩, ⟨[.other ["br"]], (.tagged Nrpd.RenderPassUnkData.tags Nrpd.RenderPassUnkData.ty)⟩])⟩
theorem Nrpd.RenderPassContainer.item_derive : (Nrpd.RenderPassContainer.item).derive = .ok (Nrpd.RenderPassContainer.ty) := rfl

/-- /repo/ssbh_lib/src/formats/nrpd.rs:398-401 -/
def Nrpd.UnkItem20.item : Item :=
  ⟨[.other ["cfg_attr"], .other ["cfg_attr"], .other ["derive"]],
    .struct (.named [⟨[], (.text 4)⟩, ⟨[], (.text 4)⟩])⟩
theorem Nrpd.UnkItem20.item_derive : (Nrpd.UnkItem20.item).derive = .ok (Nrpd.UnkItem20.ty) := rfl

/-- /repo/ssbh_lib/src/formats/nrpd.rs:406-410 -/
def Nrpd.UnkItem21.item : Item :=
  ⟨[.other ["cfg_attr"], .other ["cfg_attr"], .other ["derive"]],
    .struct (.named [⟨[], (.text 4)⟩, ⟨[], (.text 4)⟩, ⟨[], (.array 2 (.number 4))⟩])⟩
theorem Nrpd.UnkItem21.item_derive : (Nrpd.UnkItem21.item).derive = .ok (Nrpd.UnkItem21.ty) := rfl

/-- /repo/ssbh_lib/src/formats/nrpd.rs:415-423 -/
def Nrpd.UnkItem22.item : Item :=
  ⟨[.other ["cfg_attr"], .other ["cfg_attr"], .other ["derive"]],
    .struct (.named [⟨[], (.text 4)⟩, ⟨[], (.text 4)⟩, ⟨[], (.number 4)⟩, ⟨[], (.number 4)⟩, ⟨[], (.number 4)⟩, ⟨[], Nrpd.UnkFormat.ty⟩, ⟨[], (.number 4)⟩])⟩
theorem Nrpd.UnkItem22.item_derive : (Nrpd.UnkItem22.item).derive = .ok (Nrpd.UnkItem22.ty) := rfl

/-- /repo/ssbh_lib/src/formats/nrpd.rs:428-432 -/
def Nrpd.UnkItem24.item : Item :=
  ⟨[.other ["cfg_attr"], .other ["cfg_attr"], .other ["derive"]],
    .struct (.named [⟨[], (.text 4)⟩, ⟨[], (.text 4)⟩, ⟨[], (.array 6 (.number 4))⟩])⟩
theorem Nrpd.UnkItem24.item_derive : (Nrpd.UnkItem24.item).derive = .ok (Nrpd.UnkItem24.ty) := rfl

/-- /repo/ssbh_lib/src/formats/nrpd.rs:434-440 -/
def Nrpd.UnkItem2.item : Item :=
  ⟨[],
    .enum [⟨[.other ["br"]], .unnamed [⟨[], Nrpd.UnkItem20.ty⟩]⟩, ⟨[.other ["br"]], .unnamed [⟨[], Nrpd.UnkItem21.ty⟩]⟩, ⟨[.other ["br"]], .unnamed [⟨[], Nrpd.UnkItem22.ty⟩]⟩, ⟨[.other ["br"]], .unnamed [⟨[], Nrpd.UnkItem24.ty⟩]⟩]⟩
theorem Nrpd.UnkItem2.item_derive : (Nrpd.UnkItem2.item).derive = .ok (Nrpd.UnkItem2.ty) := rfl

/-- /repo/ssbh_lib/src/formats/nrpd.rs:445-448 -/
def Nrpd.UnkItem3.item : Item :=
  ⟨[.other ["cfg_attr"], .other ["cfg_attr"], .other ["derive"]],
    .struct (.named [⟨[], (.text 4)⟩, ⟨[], (.text 4)⟩])⟩
theorem Nrpd.UnkItem3.item_derive : (Nrpd.UnkItem3.item).derive = .ok (Nrpd.UnkItem3.ty) := rfl

/-- /repo/ssbh_lib/src/formats/nrpd.rs:390-393 -/
def Nrpd.UnkItem1.item : Item :=
  ⟨[.other ["cfg_attr"], .other ["cfg_attr"], .other ["derive"]],
    .struct (.named [⟨[], (.text 4)⟩, ⟨[], (.list Nrpd.UnkItem3.ty)⟩])⟩
theorem Nrpd.UnkItem1.item_derive : (Nrpd.UnkItem1.item).derive = .ok (Nrpd.UnkItem1.ty) := rfl

/-- /repo/ssbh_lib/src/formats/nrpd.rs:21-44 -/
def Nrpd.item : Item :=
  ⟨[.other ["cfg_attr"], .other ["cfg_attr"], .other ["derive"], .other ["br"]],
    .enum [⟨[.other ["br"]], .named [⟨[], (.list (.tagged Nrpd.FrameBuffer.tags Nrpd.FrameBuffer.ty))⟩, ⟨[], (.list (.tagged Nrpd.State.tags Nrpd.State.ty))⟩, ⟨[], (.list Nrpd.RenderPassContainer.ty)⟩, ⟨[], (.list Nrpd.StringPair.ty)⟩, ⟨[], (.list (.tagged Nrpd.UnkItem2.tags Nrpd.UnkItem2.ty))⟩, ⟨[], (.list Nrpd.UnkItem1.ty)⟩, ⟨[], (.number 4)⟩, ⟨[], (.number 4)⟩, ⟨[], (.number 4)⟩, ⟨[], (.number 4)⟩, ⟨[], (.number 4)⟩, ⟨[], (.number 4)⟩, ⟨[], (.number 4)⟩, ⟨[], (.number 4)⟩, ⟨[], (.text 4)⟩, ⟨[], (.number 4)⟩, ⟨[], (.number 4)⟩, ⟨[], (.number 8)⟩]⟩]⟩
theorem Nrpd.item_derive : (Nrpd.item).derive = .ok (Nrpd.ty) := rfl

end Verif
