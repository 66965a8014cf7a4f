import Verif.Lib.File
import Verif.Formats.Vectors
/-!
# Skel

Types of /repo/ssbh_lib/src/formats/skel.rs.
Written by tools/gen_formats.py from the Rust definitions.
-/

namespace Verif
namespace Skel

/-- /repo/ssbh_lib/src/formats/skel.rs:97-112 -/
abbrev BillboardType := ReprEnum [0, 1, 2, 3, 4, 6, 8]
def BillboardType.Disabled : BillboardType := ⟨0, by decide⟩
def BillboardType.XAxisViewPointAligned : BillboardType := ⟨1, by decide⟩
def BillboardType.YAxisViewPointAligned : BillboardType := ⟨2, by decide⟩
def BillboardType.Unk3 : BillboardType := ⟨3, by decide⟩
def BillboardType.XYAxisViewPointAligned : BillboardType := ⟨4, by decide⟩
def BillboardType.YAxisViewPlaneAligned : BillboardType := ⟨6, by decide⟩
def BillboardType.XYAxisViewPlaneAligned : BillboardType := ⟨8, by decide⟩
def BillboardType.codec : Codec BillboardType := reprEnum 1 [0, 1, 2, 3, 4, 6, 8]
instance : LawC BillboardType.codec := reprEnum_law (by decide) (by decide)

/-- /repo/ssbh_lib/src/formats/skel.rs:72-76 -/
structure SkelEntryFlags where
  unk1 : UInt8
  billboard_type : Skel.BillboardType
  deriving DecidableEq, Repr

def SkelEntryFlags.codec : Codec SkelEntryFlags :=
  struct 1 (padAfter 2 (iso (pair u8 Skel.BillboardType.codec)
    (fun v => (v.unk1, v.billboard_type))
    (fun (unk1, billboard_type) => ⟨unk1, billboard_type⟩)))

instance : LawC SkelEntryFlags.codec := by
  unfold SkelEntryFlags.codec; infer_instance

/-- /repo/ssbh_lib/src/formats/skel.rs:58-66 -/
structure SkelBoneEntry where
  name : SsbhString
  index : UInt16
  parent_index : Int16
  flags : Skel.SkelEntryFlags
  deriving DecidableEq, Repr

def SkelBoneEntry.codec : Codec SkelBoneEntry :=
  struct 8 (iso (pair ssbhString (pair u16 (pair i16 Skel.SkelEntryFlags.codec)))
    (fun v => (v.name, v.index, v.parent_index, v.flags))
    (fun (name, index, parent_index, flags) => ⟨name, index, parent_index, flags⟩))

instance : LawC SkelBoneEntry.codec := by
  unfold SkelBoneEntry.codec; infer_instance

/-- The fields of `Skel::V10`, /repo/ssbh_lib/src/formats/skel.rs:25-43, with the writer of the enum for this variant. -/
structure V10Data where
  bone_entries : List Skel.SkelBoneEntry
  world_transforms : List Matrix4x4
  inv_world_transforms : List Matrix4x4
  transforms : List Matrix4x4
  inv_transforms : List Matrix4x4
  deriving DecidableEq, Repr

def V10Data.codec : Codec V10Data :=
  struct 8 (iso (pair (array Skel.SkelBoneEntry.codec) (pair (array Matrix4x4.codec) (pair (array Matrix4x4.codec) (pair (array Matrix4x4.codec) (array Matrix4x4.codec)))))
    (fun v => (v.bone_entries, v.world_transforms, v.inv_world_transforms, v.transforms, v.inv_transforms))
    (fun (bone_entries, world_transforms, inv_world_transforms, transforms, inv_transforms) => ⟨bone_entries, world_transforms, inv_world_transforms, transforms, inv_transforms⟩))

instance : LawC V10Data.codec := by
  unfold V10Data.codec; infer_instance

end Skel

/-- /repo/ssbh_lib/src/formats/skel.rs:25-43 -/
inductive Skel where
  | V10 (v : Skel.V10Data)
  deriving DecidableEq, Repr

/-- /repo/ssbh_lib/src/formats/skel.rs:25-43, and the magic from /repo/ssbh_lib/src/lib.rs:300-309. -/
def Skel.format : Format Skel where
  magic := [0x4c, 0x45, 0x4b, 0x53] -- LEKS
  version
    | .V10 _ => (1, 0)
  size
    | .V10 v => Skel.V10Data.codec.size v
  write v w :=
    match v with
    | .V10 v => Skel.V10Data.codec.write v w
  read major minor b p :=
    if major = 1 ∧ minor = 0 then mapRead .V10 (Skel.V10Data.codec.read b p)
    else .error .badTag
  alignAfter
    | .V10 _ => 1

instance : LawFormat Skel.format where
  magic := rfl
  lawful := by
    intro v
    cases v with
    | V10 v => exact format_variant_law (al := 8) (c := Skel.V10Data.codec) (f := Skel.V10) rfl (fun _ => rfl) (fun _ _ => rfl)
  total := by
    intro v w e h
    cases v with
    | V10 v => exact format_variant_total (c := Skel.V10Data.codec) (f := Skel.V10) (fun _ => rfl) h
  align := by intro v; cases v <;> simp [Skel.format]
  version := by
    intro major minor b p v p' h
    simp only [Skel.format] at h
    split at h
    · rename_i hv; obtain ⟨x, rfl⟩ := mapRead_ok h; obtain ⟨rfl, rfl⟩ := hv; rfl
    cases h

end Verif
