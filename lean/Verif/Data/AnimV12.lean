import Verif.Data.AnimData
import Verif.Data.DataFiles
import Verif.Data.Reader
/-!
# AnimData of version 1.2

Reading of old animations, /repo/ssbh_data/src/anim_data.rs:363-500,787-823. The code looks at the data of every
property, prints it and drops it. Printing is not modelled. Two parameters:

* `order`: the groups come out of a `HashMap` in an order that the code does not fix.
* `checks`: whether arithmetic overflow panics (debug builds) or wraps (release builds).
-/

namespace Verif
namespace AnimData

/-- /repo/ssbh_data/src/anim_data.rs:383-389 -/
def groupTypeV12 (t : Anim.TrackTypeV1) : Anim.GroupType :=
  if t = .Transform then .Transform
  else if t = .UvTransform then .Material
  else .Visibility

/-- `[Vector3; 3]` and `[Vector4; 3]`: as many floats. -/
def floats (n : Nat) : Rd (List UInt32) := Rd.vec Rd.u32 n

/-- `V12Test1`: /repo/ssbh_data/src/anim_data.rs:787-799; and `V12Test2`: 801-811, with `n` floats at the end -/
def v12Test (n : Nat) : Rd Unit := do
  let _unk0 ← Rd.u32
  let _unk1 ← Rd.u32
  let _unk2 ← Rd.u32
  let _unk3 ← Rd.bytes 2
  let _unk4 ← Rd.bytes 2
  let _unk5 ← floats n
  return ()

/-- `align_after = 4` -/
def alignFour : Rd Unit := fun _ p => .ok ((), if p % 4 = 0 then p else p + (4 - p % 4))

/-- `V12Test3`: /repo/ssbh_data/src/anim_data.rs:814-823 -/
def v12Test3 : Rd Unit := do
  let frame_count ← Rd.u32
  let _unk1 ← Rd.u32
  let _unk2 ← Rd.bytes frame_count.toNat
  alignFour
  let _unk3 ← floats 9
  return ()

/-- `len - n` on `usize`. `none` is a panic. -/
def subChecked (checks : Bool) (len n : Nat) : Option Unit := if checks = true ∧ len < n then none else some ()

/-- `reader.read_le()?` of a value that is only printed -/
def readDropped (m : Rd Unit) (data : Bytes) (p : Nat) : Option Unit :=
  match m data p with
  | .error _ => none
  | .ok _ => some ()

/-- The body of the loop of /repo/ssbh_data/src/anim_data.rs:435-489. `none` is an error or panic; the caller panics on
errors. -/
def readProperty (checks : Bool) (buffers : List Bytes) (property : Anim.Property) : Option Unit :=
  match buffers[property.buffer_index.toNat]? with
  | none => none
  | some data =>
    match Rd.u32 data 0 with
    | .error _ => none
    | .ok (header, p) =>
      match header.toNat with
      | 0x1003 => readDropped (do let _ ← floats 1; return ()) data p
      | 0x2003 => readDropped (do let _ ← floats 2; return ()) data p
      | 0x3003 => readDropped (do let _ ← floats 3; return ()) data p
      | 0x4003 => readDropped (do let _ ← floats 4; return ()) data p
      | 0x1013 => readDropped (do let _ ← Rd.bytes 2; return ()) data p
      | 0x3409 => do
        readDropped (v12Test 9) data p
        subChecked checks data.length (52 + 4)
      | 0x4308 => do
        readDropped v12Test3 data p
        subChecked checks data.length (72 + 4)
      | 0x4409 => do
        readDropped (v12Test 12) data p
        subChecked checks data.length (64 + 4)
      | _ => some ()

/-- The loop of /repo/ssbh_data/src/anim_data.rs:435-489 -/
def readProperties (checks : Bool) (buffers : List Bytes) : List Anim.Property → Option Unit
  | [] => some ()
  | p :: ps => do
    readProperty checks buffers p
    readProperties checks buffers ps

/-- /repo/ssbh_data/src/anim_data.rs:429-504 with the `unwrap` of 403 -/
def createTrackDataV12 (checks : Bool) (buffers : List Bytes) (track : Anim.TrackV1) : Option TrackData := do
  readProperties checks buffers track.properties
  return {
    name :=
      if track.track_type = .Transform then "Transform"
      else if track.track_type = .Visibility then "Visibility"
      else "Material"
    compensate_scale := false
    transform_flags := ⟨false, false, false, false⟩
    values := .float [] }

/-- `tracks_by_type.entry(group_type).or_insert(Vec::new()).push(node)`, with the entries of the map as a list -/
def pushNode (group_type : Anim.GroupType) (node : NodeData) : List GroupData → List GroupData
  | [] => [⟨group_type, [node]⟩]
  | g :: gs => if g.group_type = group_type then ⟨g.group_type, g.nodes ++ [node]⟩ :: gs else g :: pushNode group_type node gs

/-- The loop of /repo/ssbh_data/src/anim_data.rs:401-408. The nodes are made when tracks are added (416-422 in the
code). -/
def pushTracks (checks : Bool) (buffers : List Bytes) : List Anim.TrackV1 → List GroupData → Option (List GroupData)
  | [], groups => some groups
  | track :: tracks, groups => do
    let track_data ← createTrackDataV12 checks buffers track
    pushTracks checks buffers tracks (pushNode (groupTypeV12 track.track_type) ⟨toStringLossy track.name, [track_data]⟩ groups)

/-- /repo/ssbh_data/src/anim_data.rs:391-427. `none` is a panic. -/
def readGroupsV12 (order : List GroupData → List GroupData) (checks : Bool) (tracks : List Anim.TrackV1)
    (buffers : List Bytes) : Option (List GroupData) := do
  let groups ← pushTracks checks buffers tracks []
  return order groups

/-- /repo/ssbh_data/src/anim_data.rs:96-114,363-373 for version 1.2. `none` is a panic. -/
def ofV12 (order : List GroupData → List GroupData) (checks : Bool) (a : Anim.V12Data) : Option AnimData := do
  let groups ← readGroupsV12 order checks a.tracks a.buffers
  return ⟨1, 2, a.final_frame_index, groups⟩

end AnimData

/-- /repo/ssbh_data/src/lib.rs:111-113, for all versions. `none` is a panic. -/
def AnimData.readAny (F : FloatOps) (order : List AnimData.GroupData → List AnimData.GroupData) (checks : Bool) (b : Bytes) :
    Option (Except DataErr AnimData) :=
  match readAs Anim b with
  | .ok (.V12 a) => (AnimData.ofV12 order checks a).map .ok
  | _ => AnimData.read F b

end Verif
