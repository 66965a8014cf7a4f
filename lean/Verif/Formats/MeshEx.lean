import Verif.Formats.Mesh
/-!
# MeshEx

Types of /repo/ssbh_lib/src/formats/meshex.rs. The file has no SSBH header; reader and writer of the file are
written by hand.
-/

namespace Verif

/-- /repo/ssbh_lib/src/formats/meshex.rs:48-54 -/
structure MeshEx.MeshEntry where
  mesh_object_group_index : UInt32
  unk1 : Vector3
  deriving DecidableEq, Repr

/-- /repo/ssbh_lib/src/formats/meshex.rs:60-63 -/
structure MeshEx.AllData where
  bounding_sphere : Mesh.BoundingSphere
  name : Option CStr
  deriving DecidableEq, Repr

/-- /repo/ssbh_lib/src/formats/meshex.rs:69-76 -/
structure MeshEx.MeshObjectGroup where
  bounding_sphere : Mesh.BoundingSphere
  mesh_object_full_name : Option CStr
  mesh_object_name : Option CStr
  deriving DecidableEq, Repr

/-- /repo/ssbh_lib/src/formats/meshex.rs:17-41, without the temporary fields. An entry flag is its raw
`u16` (/repo/ssbh_lib/src/formats/meshex.rs:78-98); `EntryFlags` (lines 104-109) is a newtype of a list. -/
structure MeshEx where
  all_data : Option MeshEx.AllData
  mesh_object_groups : Option (List MeshEx.MeshObjectGroup)
  entries : Option (List MeshEx.MeshEntry)
  entry_flags : Option (List UInt16)
  unk1 : UInt32
  deriving DecidableEq, Repr

namespace MeshEx

def MeshEntry.codec : Codec MeshEntry :=
  struct 16 (iso (pair u32 Vector3.codec)
    (fun v => (v.mesh_object_group_index, v.unk1)) (fun (a, b) => ⟨a, b⟩))

def AllData.codec : Codec AllData :=
  struct 16 (iso (pair Mesh.BoundingSphere.codec (absPtr 8 (cstring 16)))
    (fun v => (v.bounding_sphere, v.name)) (fun (a, b) => ⟨a, b⟩))

def MeshObjectGroup.codec : Codec MeshObjectGroup :=
  struct 16 (iso (pair Mesh.BoundingSphere.codec (pair (absPtr 8 (cstring 4)) (absPtr 8 (cstring 4))))
    (fun v => (v.bounding_sphere, v.mesh_object_full_name, v.mesh_object_name)) (fun (a, b, c) => ⟨a, b, c⟩))

/-- `EntryFlags` with the count known to the reader: /repo/ssbh_lib/src/formats/meshex.rs:100-105. -/
def flagsCodec (n : Nat) : Codec (List UInt16) := struct 16 (vecN n bitfield16)

/-- The fields after the file length and the two counts, in order. The writers do not use the counts.
/repo/ssbh_lib/src/formats/meshex.rs:28-40 and 149-153. -/
def rest (entryCount groupCount : Nat) : Codec (Option AllData × Option (List MeshObjectGroup) ×
    Option (List MeshEntry) × Option (List UInt16) × UInt32) :=
  pair (absPtr 8 AllData.codec) (pair (absPtr 8 (vecN groupCount MeshObjectGroup.codec))
    (pair (absPtr 8 (vecN entryCount MeshEntry.codec)) (pair (absPtr 8 (flagsCodec entryCount)) u32)))

/-- `.as_ref().map(|e| e.len() as u32).unwrap_or(0u32)` -/
def len32 : Option (List α) → UInt32
  | some vs => UInt32.ofNat vs.length
  | none => 0

/-- `SsbhWrite for MeshEx`: /repo/ssbh_lib/src/formats/meshex.rs:107-165. On an error the second component is the
writer state at that point, or `none` if the model does not know it. -/
def ssbhWrite (v : MeshEx) (w : W) : Except (WErr × Option W) W :=
  let entryCount := len32 v.entries
  let entryFlagCount := len32 v.entry_flags
  if entryCount ≠ entryFlagCount then .error (.invalid, some w)
  else
    let w := w.bump 64
    let w := w.put (leBytes 8 0)
    match (pair u32 (pair u32 (rest 0 0))).write
        (entryCount, len32 v.mesh_object_groups, v.all_data, v.mesh_object_groups, v.entries, v.entry_flags,
          v.unk1) w with
    | .error e => .error (e, none)
    | .ok w =>
      let newSize := roundUp w.buf.length 16
      let w := alignEnd 16 w
      if newSize < 2 ^ 64 then .ok ((w.seek 0).put (leBytes 8 newSize))
      else .error (.overflow, none)

/-- `MeshEx::write` to an empty output, /repo/ssbh_lib/src/lib.rs:284-287. -/
def write (v : MeshEx) : Except (WErr × Option W) Bytes :=
  match v.ssbhWrite W.init with
  | .error e => .error e
  | .ok w => .ok w.buf

/-- `MeshEx::read`: /repo/ssbh_lib/src/lib.rs:277-282, /repo/ssbh_lib/src/formats/meshex.rs:17-41. -/
def read (b : Bytes) : Except RErr MeshEx :=
  match (pair u64 (pair u32 u32)).read b 0 with
  | .error e => .error e
  | .ok ((_, entryCount, groupCount), p) =>
    match (rest entryCount.toNat groupCount.toNat).read b p with
    | .error e => .error e
    | .ok ((allData, groups, entries, flags, unk1), _) => .ok ⟨allData, groups, entries, flags, unk1⟩

/-! ## Laws -/

theorem fixed_of {c : Codec α} [h : LawF c] (x : α) : LawfulAt c true x (c.size x) (c.size x) := h.lawful x

theorem name_lawful (N : Nat) [NeZero N] : LawfulC (absPtr 8 (cstring N)) := by
  have hN : 0 < N := Nat.pos_of_ne_zero (NeZero.ne N)
  exact absPtr_lawful (by decide) hN (cstring_lawful hN)

theorem AllData.lawful : LawfulC AllData.codec :=
  struct_lawful (iso_lawful _ (pair_lawful LawF.lawful ((name_lawful 16).field true)))

theorem MeshObjectGroup.lawful : LawfulC MeshObjectGroup.codec :=
  struct_lawful (iso_lawful _ (pair_lawful LawF.lawful
    (pair_lawful ((name_lawful 4).field true) ((name_lawful 4).field true))))

instance : LawC MeshEntry.codec := by unfold MeshEntry.codec; infer_instance

theorem MeshObjectGroup.size (v : MeshObjectGroup) : MeshObjectGroup.codec.size v = 32 := rfl

theorem flags_lawfulAt (vs : List UInt16) {n : Nat} (hn : vs.length = n) :
    LawfulAt (flagsCodec n) false vs (n * 2) (n * 2) := by
  have h := vecN_lawfulAt (a := bitfield16) (k := 2) (n := n) LawF.lawful (fun _ => rfl) vs hn
  intro w w' _ hw
  have e : (vecN n bitfield16).size vs = n * 2 := by
    show sliceSize bitfield16 vs = _
    rw [sliceSize_eq (k := 2) (fun _ => rfl), hn]
  have hw : (vecN n bitfield16).write vs (w.bump (n * 2)) = .ok w' := by
    rw [← e]; exact hw
  obtain ⟨N, s, r⟩ := h (w.bump (n * 2)) w' (by simp) hw
  exact ⟨_, s.bump, fun b hb => r b hb.left⟩

theorem rest_lawfulAt (v : MeshEx) {ec gc : Nat} (he : ∀ vs, v.entries = some vs → vs.length = ec)
    (hf : ∀ vs, v.entry_flags = some vs → vs.length = ec)
    (hg : ∀ vs, v.mesh_object_groups = some vs → vs.length = gc) :
    LawfulAt (rest ec gc) true (v.all_data, v.mesh_object_groups, v.entries, v.entry_flags, v.unk1) 36 36 := by
  refine pair_lawfulAt (m := 8) (n := 28) ?_ (pair_lawfulAt (m := 8) (n := 20) ?_
    (pair_lawfulAt (m := 8) (n := 12) ?_ (pair_lawfulAt (m := 8) (n := 4) ?_ ?_)))
  · exact (absPtr_lawfulAt (by decide) (show 0 < 16 by decide) _ (fun x _ => ⟨_, _, AllData.lawful x⟩)).field true
  · exact (absPtr_lawfulAt (by decide) (show 0 < 16 by decide) _ (fun x hx => ⟨_, _,
      vecN_lawfulAt (MeshObjectGroup.lawful.field true) MeshObjectGroup.size x (hg x hx)⟩)).field true
  · exact (absPtr_lawfulAt (by decide) (show 0 < 16 by decide) _ (fun x hx => ⟨_, _,
      vecN_lawfulAt (k := 16) LawF.lawful (fun _ => rfl) x (he x hx)⟩)).field true
  · exact (absPtr_lawfulAt (by decide) (show 0 < 16 by decide) _ (fun x hx => ⟨_, _,
      flags_lawfulAt x (hf x hx)⟩)).field true
  · exact fixed_of (c := u32) v.unk1

end MeshEx
end Verif
