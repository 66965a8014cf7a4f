import Verif.Data.AnimBuffers
import Verif.Data.Text
/-!
# AnimData

Models the conversions of /repo/ssbh_data/src/anim_data.rs between `AnimData` and `Anim`.
-/

namespace Verif
namespace AnimData

/-- /repo/ssbh_data/src/anim_data.rs:636-644 -/
structure TransformFlags where
  override_translation : Bool
  override_rotation : Bool
  override_scale : Bool
  override_compensate_scale : Bool
  deriving DecidableEq, Repr

/-- /repo/ssbh_data/src/anim_data.rs:646-654 with the bit order of /repo/ssbh_lib/src/formats/anim.rs:196-208 -/
def TransformFlags.toAnim (f : TransformFlags) : Anim.TransformFlags :=
  UInt32.ofNat (loadLe [f.override_translation, f.override_rotation, f.override_scale,
    f.override_compensate_scale])

/-- /repo/ssbh_data/src/anim_data.rs:656-665 -/
def TransformFlags.ofAnim (f : Anim.TransformFlags) : TransformFlags :=
  ⟨f.toNat.testBit 0, f.toNat.testBit 1, f.toNat.testBit 2, f.toNat.testBit 3⟩

/-- /repo/ssbh_data/src/anim_data.rs:606-632 -/
structure TrackData where
  name : String
  compensate_scale : Bool
  transform_flags : TransformFlags
  values : TrackValues
  deriving DecidableEq, Repr

/-- /repo/ssbh_data/src/anim_data.rs:583-586 -/
structure NodeData where
  name : String
  tracks : List TrackData
  deriving DecidableEq, Repr

/-- /repo/ssbh_data/src/anim_data.rs:573-577 -/
structure GroupData where
  group_type : Anim.GroupType
  nodes : List NodeData
  deriving DecidableEq, Repr

end AnimData

open AnimData in
/-- /repo/ssbh_data/src/anim_data.rs:69-82 -/
structure AnimData where
  major_version : UInt16
  minor_version : UInt16
  final_frame_index : F32
  groups : List GroupData
  deriving DecidableEq, Repr

namespace AnimData

/-- `iter().map(|x| f(x, &mut state)).collect::<Result<Vec<_>, _>>()` -/
def mapState (f : σ → α → Except ε (β × σ)) : σ → List α → Except ε (List β × σ)
  | s, [] => .ok ([], s)
  | s, x :: xs =>
    match f s x with
    | .error e => .error e
    | .ok (y, s1) =>
      match mapState f s1 xs with
      | .error e => .error e
      | .ok (ys, s2) => .ok (y :: ys, s2)

/-- /repo/ssbh_data/src/anim_data.rs:304-336. The buffer is a cursor at its end; the cast of the position wraps. -/
def createTrack (F : FloatOps) (buffer : Bytes) (t : TrackData) : Except AnimErr (Anim.TrackV2 × Bytes) :=
  let compressionType := inferOptimalCompressionType t.values
  match t.values.write F compressionType t.compensate_scale with
  | .error e => .error e
  | .ok trackData =>
    .ok ({ name := ssbhText t.name
           flags := ⟨t.values.trackType, compressionType⟩
           frame_count := UInt32.ofNat t.values.len
           transform_flags := t.transform_flags.toAnim
           data_offset := UInt32.ofNat buffer.length
           data_size := UInt64.ofNat trackData.length }, buffer ++ trackData)

/-- /repo/ssbh_data/src/anim_data.rs:292-302 -/
def createNode (F : FloatOps) (buffer : Bytes) (n : NodeData) : Except AnimErr (Anim.Node × Bytes) :=
  match mapState (createTrack F) buffer n.tracks with
  | .error e => .error e
  | .ok (tracks, buffer') => .ok (⟨ssbhText n.name, tracks⟩, buffer')

/-- /repo/ssbh_data/src/anim_data.rs:280-290 -/
def createGroup (F : FloatOps) (buffer : Bytes) (g : GroupData) : Except AnimErr (Anim.Group × Bytes) :=
  match mapState (createNode F) buffer g.nodes with
  | .error e => .error e
  | .ok (nodes, buffer') => .ok (⟨g.group_type, nodes⟩, buffer')

/-- /repo/ssbh_data/src/anim_data.rs:232-242: the nested maxima of the frame counts (nodes without tracks and
groups without such nodes are left out; a maximum of nothing is 0 in the end). -/
def maxFrameCount (groups : List Anim.Group) : Nat :=
  let nodeMax (n : Anim.Node) : Option Nat := (n.tracks.map (·.frame_count.toNat)).max?
  let groupMax (g : Anim.Group) : Option Nat := (g.nodes.filterMap nodeMax).max?
  ((groups.filterMap groupMax).max?).getD 0

/-- /repo/ssbh_data/src/anim_data.rs:214-278. `0` is the bit pattern of `0.0`. -/
def create (F : FloatOps) (data : AnimData) : Except AnimErr Anim :=
  let build : (List Anim.Group → Bytes → Anim) → Except AnimErr Anim := fun mk =>
    match mapState (createGroup F) [] data.groups with
    | .error e => .error e
    | .ok (groups, buffer) =>
      if F.ge data.final_frame_index 0 && F.ge data.final_frame_index (F.lastFrame (maxFrameCount groups)) then
        .ok (mk groups buffer)
      else .error (.invalidFinalFrameIndex data.final_frame_index)
  if data.major_version = 2 ∧ data.minor_version = 0 then
    build fun groups buffer => .V20
      { final_frame_index := data.final_frame_index, unk1 := 1, unk2 := 3, name := ssbhText "", groups, buffer }
  else if data.major_version = 2 ∧ data.minor_version = 1 then
    build fun groups buffer => .V21
      { final_frame_index := data.final_frame_index, unk1 := 1, unk2 := 3, name := ssbhText "", groups, buffer,
        unk_data := ⟨[], []⟩ }
  else .error (.unsupportedVersion data.major_version.toNat data.minor_version.toNat)

/-- /repo/ssbh_data/src/anim_data.rs:536-567. `usize` has 64 bits. -/
def readTrack (F : FloatOps) (buffer : Bytes) (t : Anim.TrackV2) : Except AnimErr TrackData :=
  let start := t.data_offset.toNat
  let size := t.data_size.toNat
  if start + size < 2 ^ 64 ∧ start + size ≤ buffer.length then
    match readTrackValues F ((buffer.drop start).take size) t.flags t.frame_count.toNat with
    | .error e => .error e
    | .ok (values, compensateScale) =>
      .ok ⟨toStringLossy t.name, compensateScale, .ofAnim t.transform_flags, values⟩
  else .error (.invalidTrackDataRange start size buffer.length)

/-- A `for` loop with `?` and `push`. -/
def mapExcept (f : α → Except ε β) : List α → Except ε (List β)
  | [] => .ok []
  | x :: xs =>
    match f x with
    | .error e => .error e
    | .ok y =>
      match mapExcept f xs with
      | .error e => .error e
      | .ok ys => .ok (y :: ys)

/-- Inner loops of /repo/ssbh_data/src/anim_data.rs:502-534 -/
def readNode (F : FloatOps) (buffer : Bytes) (n : Anim.Node) : Except AnimErr NodeData :=
  match mapExcept (readTrack F buffer) n.tracks with
  | .error e => .error e
  | .ok tracks => .ok ⟨toStringLossy n.name, tracks⟩

def readGroup (F : FloatOps) (buffer : Bytes) (g : Anim.Group) : Except AnimErr GroupData :=
  match mapExcept (readNode F buffer) g.nodes with
  | .error e => .error e
  | .ok nodes => .ok ⟨g.group_type, nodes⟩

/-- /repo/ssbh_data/src/anim_data.rs:502-534 -/
def readGroupsV20 (F : FloatOps) (groups : List Anim.Group) (buffer : Bytes) : Except AnimErr (List GroupData) :=
  mapExcept (readGroup F buffer) groups

/-- /repo/ssbh_data/src/anim_data.rs:96-114,363-381 for the versions 2.0 and 2.1. Version 1.2 is in
`Data/AnimV12.lean`. -/
def ofAnim (F : FloatOps) : Anim → Option (Except AnimErr AnimData)
  | .V12 _ => none
  | .V20 a => some do return ⟨2, 0, a.final_frame_index, ← readGroupsV20 F a.groups a.buffer⟩
  | .V21 a => some do return ⟨2, 1, a.final_frame_index, ← readGroupsV20 F a.groups a.buffer⟩

end AnimData
end Verif
