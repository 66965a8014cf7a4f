import Verif.Lib.File
import Verif.Formats.Vectors
/-!
# Anim

Types of /repo/ssbh_lib/src/formats/anim.rs.
Written by tools/gen_formats.py from the Rust definitions.
-/

namespace Verif
namespace Anim

/-- /repo/ssbh_lib/src/formats/anim.rs:217-221 -/
abbrev TrackTypeV1 := ReprEnum [0, 2, 5]
def TrackTypeV1.Transform : TrackTypeV1 := ⟨0, by decide⟩
def TrackTypeV1.UvTransform : TrackTypeV1 := ⟨2, by decide⟩
def TrackTypeV1.Visibility : TrackTypeV1 := ⟨5, by decide⟩
def TrackTypeV1.codec : Codec TrackTypeV1 := reprEnum 8 [0, 2, 5]
instance : LawC TrackTypeV1.codec := reprEnum_law (by decide) (by decide)

/-- /repo/ssbh_lib/src/formats/anim.rs:124-128 -/
structure Property where
  name : SsbhString
  buffer_index : UInt64
  deriving DecidableEq, Repr

def Property.codec : Codec Property :=
  struct 8 (iso (pair ssbhString u64)
    (fun v => (v.name, v.buffer_index))
    (fun (name, buffer_index) => ⟨name, buffer_index⟩))

instance : LawC Property.codec := by
  unfold Property.codec; infer_instance

/-- /repo/ssbh_lib/src/formats/anim.rs:115-119 -/
structure TrackV1 where
  name : SsbhString
  track_type : Anim.TrackTypeV1
  properties : List Anim.Property
  deriving DecidableEq, Repr

def TrackV1.codec : Codec TrackV1 :=
  struct 8 (iso (pair ssbhString (pair Anim.TrackTypeV1.codec (array Anim.Property.codec)))
    (fun v => (v.name, v.track_type, v.properties))
    (fun (name, track_type, properties) => ⟨name, track_type, properties⟩))

instance : LawC TrackV1.codec := by
  unfold TrackV1.codec; infer_instance

/-- /repo/ssbh_lib/src/formats/anim.rs:268-273 -/
abbrev GroupType := ReprEnum [1, 2, 4, 5]
def GroupType.Transform : GroupType := ⟨1, by decide⟩
def GroupType.Visibility : GroupType := ⟨2, by decide⟩
def GroupType.Material : GroupType := ⟨4, by decide⟩
def GroupType.Camera : GroupType := ⟨5, by decide⟩
def GroupType.codec : Codec GroupType := reprEnum 8 [1, 2, 4, 5]
instance : LawC GroupType.codec := reprEnum_law (by decide) (by decide)

/-- /repo/ssbh_lib/src/formats/anim.rs:228-235 -/
abbrev TrackTypeV2 := ReprEnum [1, 2, 3, 5, 8, 9]
def TrackTypeV2.Transform : TrackTypeV2 := ⟨1, by decide⟩
def TrackTypeV2.UvTransform : TrackTypeV2 := ⟨2, by decide⟩
def TrackTypeV2.Float : TrackTypeV2 := ⟨3, by decide⟩
def TrackTypeV2.PatternIndex : TrackTypeV2 := ⟨5, by decide⟩
def TrackTypeV2.Boolean : TrackTypeV2 := ⟨8, by decide⟩
def TrackTypeV2.Vector4 : TrackTypeV2 := ⟨9, by decide⟩
def TrackTypeV2.codec : Codec TrackTypeV2 := reprEnum 1 [1, 2, 3, 5, 8, 9]
instance : LawC TrackTypeV2.codec := reprEnum_law (by decide) (by decide)

/-- /repo/ssbh_lib/src/formats/anim.rs:242-257 -/
abbrev CompressionType := ReprEnum [1, 2, 4, 5]
def CompressionType.Direct : CompressionType := ⟨1, by decide⟩
def CompressionType.ConstTransform : CompressionType := ⟨2, by decide⟩
def CompressionType.Compressed : CompressionType := ⟨4, by decide⟩
def CompressionType.Constant : CompressionType := ⟨5, by decide⟩
def CompressionType.codec : Codec CompressionType := reprEnum 1 [1, 2, 4, 5]
instance : LawC CompressionType.codec := reprEnum_law (by decide) (by decide)

/-- /repo/ssbh_lib/src/formats/anim.rs:168-172 -/
structure TrackFlags where
  track_type : Anim.TrackTypeV2
  compression_type : Anim.CompressionType
  deriving DecidableEq, Repr

def TrackFlags.codec : Codec TrackFlags :=
  struct 1 (padAfter 2 (iso (pair Anim.TrackTypeV2.codec Anim.CompressionType.codec)
    (fun v => (v.track_type, v.compression_type))
    (fun (track_type, compression_type) => ⟨track_type, compression_type⟩)))

instance : LawC TrackFlags.codec := by
  unfold TrackFlags.codec; infer_instance

/-- /repo/ssbh_lib/src/formats/anim.rs:196-208: the 32 bits. -/
abbrev TransformFlags := UInt32
def TransformFlags.codec : Codec TransformFlags := bitfield32
instance : LawC TransformFlags.codec := inferInstanceAs (LawC bitfield32)

/-- /repo/ssbh_lib/src/formats/anim.rs:93-100 -/
structure TrackV2 where
  name : SsbhString
  flags : Anim.TrackFlags
  frame_count : UInt32
  transform_flags : Anim.TransformFlags
  data_offset : UInt32
  data_size : UInt64
  deriving DecidableEq, Repr

def TrackV2.codec : Codec TrackV2 :=
  struct 8 (iso (pair ssbhString (pair Anim.TrackFlags.codec (pair u32 (pair Anim.TransformFlags.codec (pair u32 u64)))))
    (fun v => (v.name, v.flags, v.frame_count, v.transform_flags, v.data_offset, v.data_size))
    (fun (name, flags, frame_count, transform_flags, data_offset, data_size) => ⟨name, flags, frame_count, transform_flags, data_offset, data_size⟩))

instance : LawC TrackV2.codec := by
  unfold TrackV2.codec; infer_instance

/-- /repo/ssbh_lib/src/formats/anim.rs:85-88 -/
structure Node where
  name : SsbhString
  tracks : List Anim.TrackV2
  deriving DecidableEq, Repr

def Node.codec : Codec Node :=
  struct 8 (iso (pair ssbhString (array Anim.TrackV2.codec))
    (fun v => (v.name, v.tracks))
    (fun (name, tracks) => ⟨name, tracks⟩))

instance : LawC Node.codec := by
  unfold Node.codec; infer_instance

/-- /repo/ssbh_lib/src/formats/anim.rs:77-80 -/
structure Group where
  group_type : Anim.GroupType
  nodes : List Anim.Node
  deriving DecidableEq, Repr

def Group.codec : Codec Group :=
  struct 8 (iso (pair Anim.GroupType.codec (array Anim.Node.codec))
    (fun v => (v.group_type, v.nodes))
    (fun (group_type, nodes) => ⟨group_type, nodes⟩))

instance : LawC Group.codec := by
  unfold Group.codec; infer_instance

/-- /repo/ssbh_lib/src/formats/anim.rs:159-162 -/
structure UnkSubItem where
  unk1 : UInt32
  unk2 : UInt32
  deriving DecidableEq, Repr

def UnkSubItem.codec : Codec UnkSubItem :=
  struct 4 (iso (pair u32 u32)
    (fun v => (v.unk1, v.unk2))
    (fun (unk1, unk2) => ⟨unk1, unk2⟩))

instance : LawC UnkSubItem.codec := by
  unfold UnkSubItem.codec; infer_instance

/-- /repo/ssbh_lib/src/formats/anim.rs:142-145 -/
structure UnkItem1 where
  unk1 : UInt64
  unk2 : List Anim.UnkSubItem
  deriving DecidableEq, Repr

def UnkItem1.codec : Codec UnkItem1 :=
  struct 8 (iso (pair u64 (array Anim.UnkSubItem.codec))
    (fun v => (v.unk1, v.unk2))
    (fun (unk1, unk2) => ⟨unk1, unk2⟩))

instance : LawC UnkItem1.codec := by
  unfold UnkItem1.codec; infer_instance

/-- /repo/ssbh_lib/src/formats/anim.rs:150-153 -/
structure UnkItem2 where
  unk1 : SsbhString
  unk2 : List Anim.UnkSubItem
  deriving DecidableEq, Repr

def UnkItem2.codec : Codec UnkItem2 :=
  struct 8 (iso (pair ssbhString (array Anim.UnkSubItem.codec))
    (fun v => (v.unk1, v.unk2))
    (fun (unk1, unk2) => ⟨unk1, unk2⟩))

instance : LawC UnkItem2.codec := by
  unfold UnkItem2.codec; infer_instance

/-- /repo/ssbh_lib/src/formats/anim.rs:134-137 -/
structure UnkData where
  unk1 : List Anim.UnkItem1
  unk2 : List Anim.UnkItem2
  deriving DecidableEq, Repr

def UnkData.codec : Codec UnkData :=
  struct 8 (iso (pair (array Anim.UnkItem1.codec) (array Anim.UnkItem2.codec))
    (fun v => (v.unk1, v.unk2))
    (fun (unk1, unk2) => ⟨unk1, unk2⟩))

instance : LawC UnkData.codec := by
  unfold UnkData.codec; infer_instance

/-- The fields of `Anim::V12`, /repo/ssbh_lib/src/formats/anim.rs:28-72, with the writer of the enum for this variant. -/
structure V12Data where
  name : SsbhString
  unk1 : F32
  final_frame_index : F32
  unk2 : F32
  unk3 : F32
  tracks : List Anim.TrackV1
  buffers : List Bytes
  deriving DecidableEq, Repr

def V12Data.codec : Codec V12Data :=
  struct 8 (iso (pair ssbhString (pair f32 (pair f32 (pair f32 (pair f32 (pair (array Anim.TrackV1.codec) (array byteBuffer)))))))
    (fun v => (v.name, v.unk1, v.final_frame_index, v.unk2, v.unk3, v.tracks, v.buffers))
    (fun (name, unk1, final_frame_index, unk2, unk3, tracks, buffers) => ⟨name, unk1, final_frame_index, unk2, unk3, tracks, buffers⟩))

instance : LawC V12Data.codec := by
  unfold V12Data.codec; infer_instance

/-- The fields of `Anim::V20`, /repo/ssbh_lib/src/formats/anim.rs:28-72, with the writer of the enum for this variant. -/
structure V20Data where
  final_frame_index : F32
  unk1 : UInt16
  unk2 : UInt16
  name : SsbhString
  groups : List Anim.Group
  buffer : Bytes
  deriving DecidableEq, Repr

def V20Data.codec : Codec V20Data :=
  struct 8 (iso (pair f32 (pair u16 (pair u16 (pair ssbhString (pair (array Anim.Group.codec) byteBuffer)))))
    (fun v => (v.final_frame_index, v.unk1, v.unk2, v.name, v.groups, v.buffer))
    (fun (final_frame_index, unk1, unk2, name, groups, buffer) => ⟨final_frame_index, unk1, unk2, name, groups, buffer⟩))

instance : LawC V20Data.codec := by
  unfold V20Data.codec; infer_instance

/-- The fields of `Anim::V21`, /repo/ssbh_lib/src/formats/anim.rs:28-72, with the writer of the enum for this variant. -/
structure V21Data where
  final_frame_index : F32
  unk1 : UInt16
  unk2 : UInt16
  name : SsbhString
  groups : List Anim.Group
  buffer : Bytes
  unk_data : Anim.UnkData
  deriving DecidableEq, Repr

def V21Data.codec : Codec V21Data :=
  struct 8 (iso (pair f32 (pair u16 (pair u16 (pair ssbhString (pair (array Anim.Group.codec) (pair byteBuffer Anim.UnkData.codec))))))
    (fun v => (v.final_frame_index, v.unk1, v.unk2, v.name, v.groups, v.buffer, v.unk_data))
    (fun (final_frame_index, unk1, unk2, name, groups, buffer, unk_data) => ⟨final_frame_index, unk1, unk2, name, groups, buffer, unk_data⟩))

instance : LawC V21Data.codec := by
  unfold V21Data.codec; infer_instance

end Anim

/-- /repo/ssbh_lib/src/formats/anim.rs:28-72 -/
inductive Anim where
  | V12 (v : Anim.V12Data)
  | V20 (v : Anim.V20Data)
  | V21 (v : Anim.V21Data)
  deriving DecidableEq, Repr

/-- /repo/ssbh_lib/src/formats/anim.rs:28-72, and the magic from /repo/ssbh_lib/src/lib.rs:300-309. -/
def Anim.format : Format Anim where
  magic := [0x4d, 0x49, 0x4e, 0x41] -- MINA
  version
    | .V12 _ => (1, 2)
    | .V20 _ => (2, 0)
    | .V21 _ => (2, 1)
  size
    | .V12 v => Anim.V12Data.codec.size v
    | .V20 v => Anim.V20Data.codec.size v
    | .V21 v => Anim.V21Data.codec.size v
  write v w :=
    match v with
    | .V12 v => Anim.V12Data.codec.write v w
    | .V20 v => Anim.V20Data.codec.write v w
    | .V21 v => Anim.V21Data.codec.write v w
  read major minor b p :=
    if major = 1 ∧ minor = 2 then mapRead .V12 (Anim.V12Data.codec.read b p)
    else if major = 2 ∧ minor = 0 then mapRead .V20 (Anim.V20Data.codec.read b p)
    else if major = 2 ∧ minor = 1 then mapRead .V21 (Anim.V21Data.codec.read b p)
    else .error .badTag
  alignAfter
    | .V12 _ => 1
    | .V20 _ => 1
    | .V21 _ => 8

instance : LawFormat Anim.format where
  magic := rfl
  lawful := by
    intro v
    cases v with
    | V12 v => exact format_variant_law (al := 8) (c := Anim.V12Data.codec) (f := Anim.V12) rfl (fun _ => rfl) (fun _ _ => rfl)
    | V20 v => exact format_variant_law (al := 8) (c := Anim.V20Data.codec) (f := Anim.V20) rfl (fun _ => rfl) (fun _ _ => rfl)
    | V21 v => exact format_variant_law (al := 8) (c := Anim.V21Data.codec) (f := Anim.V21) rfl (fun _ => rfl) (fun _ _ => rfl)
  total := by
    intro v w e h
    cases v with
    | V12 v => exact format_variant_total (c := Anim.V12Data.codec) (f := Anim.V12) (fun _ => rfl) h
    | V20 v => exact format_variant_total (c := Anim.V20Data.codec) (f := Anim.V20) (fun _ => rfl) h
    | V21 v => exact format_variant_total (c := Anim.V21Data.codec) (f := Anim.V21) (fun _ => rfl) h
  align := by intro v; cases v <;> simp [Anim.format]
  version := by
    intro major minor b p v p' h
    simp only [Anim.format] at h
    split at h
    · rename_i hv; obtain ⟨x, rfl⟩ := mapRead_ok h; obtain ⟨rfl, rfl⟩ := hv; rfl
    split at h
    · rename_i hv; obtain ⟨x, rfl⟩ := mapRead_ok h; obtain ⟨rfl, rfl⟩ := hv; rfl
    split at h
    · rename_i hv; obtain ⟨x, rfl⟩ := mapRead_ok h; obtain ⟨rfl, rfl⟩ := hv; rfl
    cases h

end Verif
