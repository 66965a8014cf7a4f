import Verif.Formats.Hlpb
import Verif.Data.Text
/-!
# HlpbData

Models /repo/ssbh_data/src/hlpb_data.rs.
-/

namespace Verif
namespace HlpbData

/-- /repo/ssbh_data/src/hlpb_data.rs:27-41 -/
structure AimConstraintData where
  name : String
  aim_bone_name1 : String
  aim_bone_name2 : String
  aim_type1 : String
  aim_type2 : String
  target_bone_name1 : String
  target_bone_name2 : String
  unk1 : UInt32
  unk2 : UInt32
  aim : Vector3
  up : Vector3
  quat1 : Vector4
  quat2 : Vector4
  deriving DecidableEq, Repr

/-- /repo/ssbh_data/src/hlpb_data.rs:47-59 -/
structure OrientConstraintData where
  name : String
  parent_bone_name1 : String
  parent_bone_name2 : String
  source_bone_name : String
  target_bone_name : String
  unk_type : UInt32
  constraint_axes : Vector3
  quat1 : Vector4
  quat2 : Vector4
  range_min : Vector3
  range_max : Vector3
  deriving DecidableEq, Repr

end HlpbData

open HlpbData in
/-- /repo/ssbh_data/src/hlpb_data.rs:14-19 -/
structure HlpbData where
  major_version : UInt16
  minor_version : UInt16
  aim_constraints : List AimConstraintData
  orient_constraints : List OrientConstraintData
  deriving DecidableEq, Repr

namespace HlpbData

/-- /repo/ssbh_data/src/hlpb_data.rs:113-131 -/
def AimConstraintData.ofAim (a : Hlpb.AimConstraint) : AimConstraintData where
  name := toStringLossy a.name
  aim_bone_name1 := toStringLossy a.aim_bone_name1
  aim_bone_name2 := toStringLossy a.aim_bone_name2
  aim_type1 := toStringLossy a.aim_type1
  aim_type2 := toStringLossy a.aim_type2
  target_bone_name1 := toStringLossy a.target_bone_name1
  target_bone_name2 := toStringLossy a.target_bone_name2
  unk1 := a.unk1
  unk2 := a.unk2
  aim := a.aim
  up := a.up
  quat1 := a.quat1
  quat2 := a.quat2

/-- /repo/ssbh_data/src/hlpb_data.rs:139-164. `0` is the bit pattern of `0.0`. -/
def AimConstraintData.toAim (a : AimConstraintData) : Hlpb.AimConstraint where
  name := ssbhText a.name
  aim_bone_name1 := ssbhText a.aim_bone_name1
  aim_bone_name2 := ssbhText a.aim_bone_name2
  aim_type1 := ssbhText a.aim_type1
  aim_type2 := ssbhText a.aim_type2
  target_bone_name1 := ssbhText a.target_bone_name1
  target_bone_name2 := ssbhText a.target_bone_name2
  unk1 := a.unk1
  unk2 := a.unk2
  aim := a.aim
  up := a.up
  quat1 := a.quat1
  quat2 := a.quat2
  unk17 := 0
  unk18 := 0
  unk19 := 0
  unk20 := 0
  unk21 := 0
  unk22 := 0

/-- /repo/ssbh_data/src/hlpb_data.rs:172-188 -/
def OrientConstraintData.ofOrient (o : Hlpb.OrientConstraint) : OrientConstraintData where
  name := toStringLossy o.name
  parent_bone_name1 := toStringLossy o.parent_bone_name1
  parent_bone_name2 := toStringLossy o.parent_bone_name2
  source_bone_name := toStringLossy o.source_bone_name
  target_bone_name := toStringLossy o.target_bone_name
  unk_type := o.unk_type
  constraint_axes := o.constraint_axes
  quat1 := o.quat1
  quat2 := o.quat2
  range_min := o.range_min
  range_max := o.range_max

/-- /repo/ssbh_data/src/hlpb_data.rs:196-212 -/
def OrientConstraintData.toOrient (o : OrientConstraintData) : Hlpb.OrientConstraint where
  name := ssbhText o.name
  parent_bone_name1 := ssbhText o.parent_bone_name1
  parent_bone_name2 := ssbhText o.parent_bone_name2
  source_bone_name := ssbhText o.source_bone_name
  target_bone_name := ssbhText o.target_bone_name
  unk_type := o.unk_type
  constraint_axes := o.constraint_axes
  quat1 := o.quat1
  quat2 := o.quat2
  range_min := o.range_min
  range_max := o.range_max

/-- /repo/ssbh_data/src/hlpb_data.rs:68-83 -/
def ofHlpb : Hlpb → HlpbData
  | .V11 h => {
      major_version := 1
      minor_version := 1
      aim_constraints := h.aim_constraints.map .ofAim
      orient_constraints := h.orient_constraints.map .ofOrient }

/-- `0..len as u32` -/
def indexRange (len : Nat) : List UInt32 := (List.range (UInt32.ofNat len).toNat).map UInt32.ofNat

/-- /repo/ssbh_data/src/hlpb_data.rs:91-105 -/
def toHlpb (data : HlpbData) : Hlpb := .V11 {
  aim_constraints := data.aim_constraints.map (·.toAim)
  orient_constraints := data.orient_constraints.map (·.toOrient)
  constraint_indices := indexRange data.aim_constraints.length ++ indexRange data.orient_constraints.length
  constraint_types := List.replicate data.aim_constraints.length .Aim ++
    List.replicate data.orient_constraints.length .Orient }

end HlpbData
end Verif
