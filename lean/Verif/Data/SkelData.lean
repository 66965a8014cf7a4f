import Verif.Formats.Skel
import Verif.Data.Text
/-!
# SkelData

Models /repo/ssbh_data/src/skel_data.rs. A matrix `[[f32; 4]; 4]` in column-major order is a `Matrix4x4`
(`from_cols_array` and `to_cols_array`, /repo/ssbh_lib/src/vectors.rs:396-426, only copy). Products and inverses of
matrices of floats, from the `glam` crate, are parameters.
-/

namespace Verif

/-- `Mat4 * Mat4` and `Mat4::inverse` -/
structure MatOps (M : Type) where
  mul : M → M → M
  inverse : M → M

namespace SkelData

/-- /repo/ssbh_data/src/skel_data.rs:48-60. A parent index is a `usize`. -/
structure BoneData where
  name : String
  transform : Matrix4x4
  parent_index : Option Nat
  billboard_type : Skel.BillboardType
  deriving DecidableEq, Repr

end SkelData

/-- /repo/ssbh_data/src/skel_data.rs:34-38 -/
structure SkelData where
  major_version : UInt16
  minor_version : UInt16
  bones : List SkelData.BoneData
  deriving DecidableEq, Repr

namespace SkelData

/-- /repo/ssbh_data/src/skel_data.rs:296-303 -/
inductive BoneTransformError where
  | cycleDetected (index : Nat)
  deriving DecidableEq, Repr

/-- The loop of /repo/ssbh_data/src/skel_data.rs:271-287. The set of visited indices is a list. `fuel` bounds the
number of rounds; `none` means that it is used up. -/
def worldLoop (O : MatOps Matrix4x4) (bones : List BoneData) :
    Nat → BoneData → Matrix4x4 → List Nat → Option (Except BoneTransformError Matrix4x4)
  | 0, _, _, _ => none
  | fuel + 1, bone, transform, visited =>
    match bone.parent_index with
    | none => some (.ok transform)
    | some parentIndex =>
      if parentIndex ∈ visited then some (.error (.cycleDetected parentIndex))
      else
        match bones[parentIndex]? with
        | some parent => worldLoop O bones fuel parent (O.mul parent.transform transform) (parentIndex :: visited)
        | none => some (.ok transform)

/-- /repo/ssbh_data/src/skel_data.rs:263-291. That this many rounds are enough is `C36_terminates`. -/
def worldTransform (O : MatOps Matrix4x4) (data : SkelData) (bone : BoneData) :
    Option (Except BoneTransformError Matrix4x4) :=
  worldLoop O data.bones (data.bones.length + 1) bone bone.transform []

/-- `collect::<Result<Vec<_>, _>>()` -/
def collect : List (Option (Except ε α)) → Option (Except ε (List α))
  | [] => some (.ok [])
  | none :: _ => none
  | some (.error e) :: _ => some (.error e)
  | some (.ok x) :: rest =>
    match collect rest with
    | none => none
    | some (.error e) => some (.error e)
    | some (.ok xs) => some (.ok (x :: xs))

/-- /repo/ssbh_data/src/skel_data.rs:151-197. `index as i16` wraps. -/
def toSkel (O : MatOps Matrix4x4) (data : SkelData) : Option (Except BoneTransformError Skel) :=
  match collect (data.bones.map (worldTransform O data)) with
  | none => none
  | some (.error e) => some (.error e)
  | some (.ok world) => some (.ok (.V10 {
      bone_entries := data.bones.zipIdx.map fun (b, i) => {
        name := ssbhText b.name
        index := UInt16.ofNat i
        parent_index := match b.parent_index with
          | some index => Int16.ofNat index
          | none => -1
        flags := ⟨1, b.billboard_type⟩ }
      world_transforms := world
      inv_world_transforms := world.map O.inverse
      transforms := data.bones.map (·.transform)
      inv_transforms := data.bones.map fun b => O.inverse b.transform }))

/-- /repo/ssbh_data/src/skel_data.rs:228-235. `i16` to `usize` fails on negative numbers. -/
def createBoneData (b : Skel.SkelBoneEntry) (transform : Matrix4x4) : BoneData where
  name := toStringLossy b.name
  transform := transform
  parent_index := if b.parent_index.toInt < 0 then none else some b.parent_index.toInt.toNat
  billboard_type := b.flags.billboard_type

/-- /repo/ssbh_data/src/skel_data.rs:205-226 -/
def ofSkel (skel : Skel) : SkelData :=
  let (major, minor) := Skel.format.version skel
  match skel with
  | .V10 s => ⟨major, minor, (s.bone_entries.zip s.transforms).map fun (b, t) => createBoneData b t⟩

/-- /repo/ssbh_data/src/skel_data.rs:122-135, for matrices of any kind -/
def relativeTransform (O : MatOps M) (world : M) : Option M → M
  | some parentWorld => O.mul world (O.inverse parentWorld)
  | none => world

end SkelData
end Verif
