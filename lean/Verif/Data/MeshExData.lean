import Verif.Formats.MeshEx
import Verif.Data.Text
/-!
# MeshExData

Models /repo/ssbh_data/src/meshex_data.rs. The bounding spheres computed by the `geometry_tools` crate are
parameters.
-/

namespace Verif

/-- /repo/ssbh_data/src/meshex_data.rs:45-49 -/
structure MeshExData.EntryFlags where
  draw_model : Bool
  cast_shadow : Bool
  deriving DecidableEq, Repr

/-- /repo/ssbh_data/src/meshex_data.rs:33-39 -/
structure MeshExData.MeshObjectGroupData where
  bounding_sphere : Mesh.BoundingSphere
  mesh_object_full_name : String
  mesh_object_name : String
  entry_flags : List MeshExData.EntryFlags
  deriving DecidableEq, Repr

/-- /repo/ssbh_data/src/meshex_data.rs:22-24 -/
structure MeshExData where
  mesh_object_groups : List MeshExData.MeshObjectGroupData
  deriving DecidableEq, Repr

namespace MeshExData

/-- `CString::to_string_lossy`, /repo/ssbh_lib/src/strings.rs:52-55, of a pointer which may be null. -/
def nameText (p : Option CStr) : String := (p.bind (·.toStr)).getD ""

/-- `draw_model()`, `cast_shadow()`: bits 0 and 1, /repo/ssbh_lib/src/formats/meshex.rs:78-96 -/
def EntryFlags.ofRaw (f : UInt16) : EntryFlags := ⟨f.toNat.testBit 0, f.toNat.testBit 1⟩

/-- `EntryFlag::new().with_draw_model(..).with_cast_shadow(..)` -/
def EntryFlags.toRaw (f : EntryFlags) : UInt16 := (if f.draw_model then 1 else 0) ||| (if f.cast_shadow then 2 else 0)

/-- `iter().positions(p)` -/
def positions (p : α → Bool) (l : List α) : List Nat :=
  (l.zipIdx.filter fun x => p x.1).map (·.2)

/-- /repo/ssbh_data/src/meshex_data.rs:134-176 -/
def ofMeshEx (m : MeshEx) : MeshExData where
  mesh_object_groups := ((m.mesh_object_groups.getD []).zipIdx).map fun (g, i) => {
    bounding_sphere := g.bounding_sphere
    mesh_object_full_name := nameText g.mesh_object_full_name
    mesh_object_name := nameText g.mesh_object_name
    entry_flags := (positions (fun e => e.mesh_object_group_index.toNat == i) (m.entries.getD [])).filterMap
      fun entryIndex => do return .ofRaw (← (← m.entry_flags)[entryIndex]?) }

/-- The name "All". -/
def allName : CStr := .fromBytes (textBytes "All")

/-- /repo/ssbh_data/src/meshex_data.rs:184-246. `sphereOf` is `calculate_bounding_sphere_from_spheres`;
`0x3f800000` is `1.0`. -/
def toMeshEx (sphereOf : List Mesh.BoundingSphere → Mesh.BoundingSphere) (m : MeshExData) : MeshEx where
  all_data := some ⟨sphereOf (m.mesh_object_groups.map (·.bounding_sphere)), some allName⟩
  mesh_object_groups := some (m.mesh_object_groups.map fun g =>
    ⟨g.bounding_sphere, some (.fromBytes (textBytes g.mesh_object_full_name)),
      some (.fromBytes (textBytes g.mesh_object_name))⟩)
  entries := some (m.mesh_object_groups.zipIdx.flatMap fun (g, i) =>
    g.entry_flags.map fun _ => ⟨UInt32.ofNat i, ⟨0, 0x3f800000, 0⟩⟩)
  entry_flags := some (m.mesh_object_groups.flatMap fun g => g.entry_flags.map (·.toRaw))
  unk1 := 0

/-! ## Names -/

/-- `str::find(pattern)`: the first place where the rest starts with the pattern. Rust gives the position in bytes,
here it is in characters; both order the places in the same way, and cutting there gives the same text. -/
def find (pattern : List Char) : List Char → Option Nat
  | [] => if pattern = [] then some 0 else none
  | c :: cs => if pattern.isPrefixOf (c :: cs) then some 0 else (find pattern cs).map (· + 1)

/-- `str::rfind(pattern)`: the last such place. -/
def rfind (pattern : List Char) : List Char → Option Nat
  | [] => if pattern = [] then some 0 else none
  | c :: cs =>
    match rfind pattern cs with
    | some i => some (i + 1)
    | none => if pattern.isPrefixOf (c :: cs) then some 0 else none

/-- /repo/ssbh_data/src/meshex_data.rs:98-126, on characters. `get(..i)` succeeds at the places found. -/
def stripChars (full : List Char) : List Char :=
  match find "_VIS".toList full, find "_O_".toList full with
  | none, none =>
    if "Shape".toList.isSuffixOf full then
      match rfind "Shape".toList full with
      | some i => full.take i
      | none => full
    else full
  | vis, o => full.take (min (vis.getD full.length) (o.getD full.length))

def stripMeshNameTags (s : String) : String := .ofList (stripChars s.toList)

/-! ## Creation from mesh objects -/

/-- `iter().group_by(key)`: maximal runs of equal keys. -/
def groupBy [DecidableEq κ] (key : α → κ) : List α → List (κ × List α)
  | [] => []
  | x :: xs =>
    match groupBy key xs with
    | [] => [(key x, [x])]
    | (k, ys) :: rest => if key x = k then (k, x :: ys) :: rest else (key x, [x]) :: (k, ys) :: rest

/-- /repo/ssbh_data/src/meshex_data.rs:54-91, for objects of any kind with a name. `sphereOf` stands for collecting
the points of the objects and `calculate_bounding_sphere_from_points`. -/
def fromMeshObjects (name : α → String) (sphereOf : List α → Mesh.BoundingSphere) (objects : List α) : MeshExData where
  mesh_object_groups := (groupBy name objects).map fun (n, group) => {
    bounding_sphere := sphereOf group
    mesh_object_full_name := n
    mesh_object_name := stripMeshNameTags n
    entry_flags := group.map fun _ => ⟨true, true⟩ }

end MeshExData
end Verif
