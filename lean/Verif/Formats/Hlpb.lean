import Verif.Lib.File
import Verif.Formats.Vectors
/-!
# Hlpb

Types of /repo/ssbh_lib/src/formats/hlpb.rs.
Written by tools/gen_formats.py from the Rust definitions.
-/

namespace Verif
namespace Hlpb

/-- /repo/ssbh_lib/src/formats/hlpb.rs:54-77 -/
structure AimConstraint where
  name : SsbhString
  aim_bone_name1 : SsbhString
  aim_bone_name2 : SsbhString
  aim_type1 : SsbhString
  aim_type2 : SsbhString
  target_bone_name1 : SsbhString
  target_bone_name2 : SsbhString
  unk1 : UInt32
  unk2 : UInt32
  aim : Vector3
  up : Vector3
  quat1 : Vector4
  quat2 : Vector4
  unk17 : F32
  unk18 : F32
  unk19 : F32
  unk20 : F32
  unk21 : F32
  unk22 : F32
  deriving DecidableEq, Repr

def AimConstraint.codec : Codec AimConstraint :=
  struct 8 (iso (pair ssbhString (pair ssbhString (pair ssbhString (pair ssbhString (pair ssbhString (pair ssbhString (pair ssbhString (pair u32 (pair u32 (pair Vector3.codec (pair Vector3.codec (pair Vector4.codec (pair Vector4.codec (pair f32 (pair f32 (pair f32 (pair f32 (pair f32 f32))))))))))))))))))
    (fun v => (v.name, v.aim_bone_name1, v.aim_bone_name2, v.aim_type1, v.aim_type2, v.target_bone_name1, v.target_bone_name2, v.unk1, v.unk2, v.aim, v.up, v.quat1, v.quat2, v.unk17, v.unk18, v.unk19, v.unk20, v.unk21, v.unk22))
    (fun (name, aim_bone_name1, aim_bone_name2, aim_type1, aim_type2, target_bone_name1, target_bone_name2, unk1, unk2, aim, up, quat1, quat2, unk17, unk18, unk19, unk20, unk21, unk22) => ⟨name, aim_bone_name1, aim_bone_name2, aim_type1, aim_type2, target_bone_name1, target_bone_name2, unk1, unk2, aim, up, quat1, quat2, unk17, unk18, unk19, unk20, unk21, unk22⟩))

instance : LawC AimConstraint.codec := by
  unfold AimConstraint.codec; infer_instance

/-- /repo/ssbh_lib/src/formats/hlpb.rs:85-112 -/
structure OrientConstraint where
  name : SsbhString
  parent_bone_name1 : SsbhString
  parent_bone_name2 : SsbhString
  source_bone_name : SsbhString
  target_bone_name : SsbhString
  unk_type : UInt32
  constraint_axes : Vector3
  quat1 : Vector4
  quat2 : Vector4
  range_min : Vector3
  range_max : Vector3
  deriving DecidableEq, Repr

def OrientConstraint.codec : Codec OrientConstraint :=
  struct 8 (iso (pair ssbhString (pair ssbhString (pair ssbhString (pair ssbhString (pair ssbhString (pair u32 (pair Vector3.codec (pair Vector4.codec (pair Vector4.codec (pair Vector3.codec Vector3.codec))))))))))
    (fun v => (v.name, v.parent_bone_name1, v.parent_bone_name2, v.source_bone_name, v.target_bone_name, v.unk_type, v.constraint_axes, v.quat1, v.quat2, v.range_min, v.range_max))
    (fun (name, parent_bone_name1, parent_bone_name2, source_bone_name, target_bone_name, unk_type, constraint_axes, quat1, quat2, range_min, range_max) => ⟨name, parent_bone_name1, parent_bone_name2, source_bone_name, target_bone_name, unk_type, constraint_axes, quat1, quat2, range_min, range_max⟩))

instance : LawC OrientConstraint.codec := by
  unfold OrientConstraint.codec; infer_instance

/-- /repo/ssbh_lib/src/formats/hlpb.rs:120-125 -/
abbrev ConstraintType := ReprEnum [0, 1]
def ConstraintType.Aim : ConstraintType := ⟨0, by decide⟩
def ConstraintType.Orient : ConstraintType := ⟨1, by decide⟩
def ConstraintType.codec : Codec ConstraintType := reprEnum 4 [0, 1]
instance : LawC ConstraintType.codec := reprEnum_law (by decide) (by decide)

/-- The fields of `Hlpb::V11`, /repo/ssbh_lib/src/formats/hlpb.rs:19-36, with the writer of the enum for this variant. -/
structure V11Data where
  aim_constraints : List Hlpb.AimConstraint
  orient_constraints : List Hlpb.OrientConstraint
  constraint_indices : List UInt32
  constraint_types : List Hlpb.ConstraintType
  deriving DecidableEq, Repr

def V11Data.codec : Codec V11Data :=
  struct 8 (iso (pair (array Hlpb.AimConstraint.codec) (pair (array Hlpb.OrientConstraint.codec) (pair (array u32) (array Hlpb.ConstraintType.codec))))
    (fun v => (v.aim_constraints, v.orient_constraints, v.constraint_indices, v.constraint_types))
    (fun (aim_constraints, orient_constraints, constraint_indices, constraint_types) => ⟨aim_constraints, orient_constraints, constraint_indices, constraint_types⟩))

instance : LawC V11Data.codec := by
  unfold V11Data.codec; infer_instance

end Hlpb

/-- /repo/ssbh_lib/src/formats/hlpb.rs:19-36 -/
inductive Hlpb where
  | V11 (v : Hlpb.V11Data)
  deriving DecidableEq, Repr

/-- /repo/ssbh_lib/src/formats/hlpb.rs:19-36, and the magic from /repo/ssbh_lib/src/lib.rs:300-309. -/
def Hlpb.format : Format Hlpb where
  magic := [0x42, 0x50, 0x4c, 0x48] -- BPLH
  version
    | .V11 _ => (1, 1)
  size
    | .V11 v => Hlpb.V11Data.codec.size v
  write v w :=
    match v with
    | .V11 v => Hlpb.V11Data.codec.write v w
  read major minor b p :=
    if major = 1 ∧ minor = 1 then mapRead .V11 (Hlpb.V11Data.codec.read b p)
    else .error .badTag
  alignAfter
    | .V11 _ => 1

instance : LawFormat Hlpb.format where
  magic := rfl
  lawful := by
    intro v
    cases v with
    | V11 v => exact format_variant_law (al := 8) (c := Hlpb.V11Data.codec) (f := Hlpb.V11) rfl (fun _ => rfl) (fun _ _ => rfl)
  total := by
    intro v w e h
    cases v with
    | V11 v => exact format_variant_total (c := Hlpb.V11Data.codec) (f := Hlpb.V11) (fun _ => rfl) h
  align := by intro v; cases v <;> simp [Hlpb.format]
  version := by
    intro major minor b p v p' h
    simp only [Hlpb.format] at h
    split at h
    · rename_i hv; obtain ⟨x, rfl⟩ := mapRead_ok h; obtain ⟨rfl, rfl⟩ := hv; rfl
    cases h

end Verif
