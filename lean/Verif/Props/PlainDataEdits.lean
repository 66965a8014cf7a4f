import Verif.Props.PlainEdits
import Verif.Props.DataEdits
import Verif.Data.DataFiles
import Verif.Props.MeshExData
import Verif.Props.AdjData
/-!
# C93: small changes of MeshExData and AdjData
-/

namespace Verif.Props
open Verif Derive MeshExData

/-! ## Specification -/

/-- The bytes that change in a group of mesh objects. -/
def editGroupData (g g' : MeshObjectGroupData) : Option Nat :=
  plus (some (editSphere g.bounding_sphere g'.bounding_sphere)) <|
  plus (editText g.mesh_object_full_name g'.mesh_object_full_name) <|
  plus (editText g.mesh_object_name g'.mesh_object_name) <|
  editAll (fun f f' => some (changed 2 f f')) g.entry_flags g'.entry_flags

/-- The bytes that change in a MeshExData. The 16 bytes are the bounding sphere of everything. -/
def editMeshExData (d d' : MeshExData) : Option Nat :=
  plus (some (changed 16 (d.mesh_object_groups.map (·.bounding_sphere)) (d'.mesh_object_groups.map (·.bounding_sphere)))) <|
  editAll editGroupData d.mesh_object_groups d'.mesh_object_groups

/-- The bytes that change in an AdjData. -/
def editAdjData (d d' : AdjData) : Option Nat :=
  editAll (fun e e' => plus (some (changed 4 e.mesh_object_index e'.mesh_object_index))
    (editAll (fun x x' => some (changed 2 x x')) e.vertex_adjacency e'.vertex_adjacency)) d.entries d'.entries

/-! ## Proofs -/

theorem name_text (s s' : String) : editName (some (.fromBytes (textBytes s))) (some (.fromBytes (textBytes s'))) = editText s s' := rfl

theorem sphere_le (x y : Mesh.BoundingSphere) : editSphere x y ≤ 16 := by
  have h1 := changed_le 4 x.center.x y.center.x
  have h2 := changed_le 4 x.center.y y.center.y
  have h3 := changed_le 4 x.center.z y.center.z
  have h4 := changed_le 4 x.radius y.radius
  unfold editSphere editVector3
  omega

theorem sphere_self (x : Mesh.BoundingSphere) : editSphere x x = 0 := by
  simp [editSphere, editVector3, changed_self]

theorem changed_map_le [DecidableEq α] [DecidableEq β] (n : Nat) (f : α → β) (a a' : α) : changed n (f a) (f a') ≤ changed n a a' := by
  unfold changed
  by_cases h : a = a'
  · simp [h]
  · rw [if_neg h]; split <;> omega

theorem groups_parts : ∀ {l l' : List MeshObjectGroupData} {k : Nat}, editAll editGroupData l l' = some k → ∃ a b, a + b ≤ k ∧
    editAll editGroup (l.map fun g => ⟨g.bounding_sphere, some (.fromBytes (textBytes g.mesh_object_full_name)), some (.fromBytes (textBytes g.mesh_object_name))⟩)
      (l'.map fun g => ⟨g.bounding_sphere, some (.fromBytes (textBytes g.mesh_object_full_name)), some (.fromBytes (textBytes g.mesh_object_name))⟩) = some a ∧
    Upto (editAll (fun x x' => some (changed 2 x x')) (l.flatMap fun g => g.entry_flags.map (·.toRaw)) (l'.flatMap fun g => g.entry_flags.map (·.toRaw))) b ∧
    l.map (·.entry_flags.length) = l'.map (·.entry_flags.length)
  | [], [], _, h => by cases h; exact ⟨0, 0, le_rfl, rfl, .zero, rfl⟩
  | [], _ :: _, _, h => by cases h
  | _ :: _, [], _, h => by cases h
  | g :: l, g' :: l', _, h => by
    obtain ⟨x, y, hx, hy, rfl⟩ := plus_parts h
    obtain ⟨a, b, hab, h1, h2, h3⟩ := groups_parts hy
    obtain ⟨x1, z1, hx1, hz1, rfl⟩ := plus_parts hx
    obtain ⟨x2, z2, hx2, hz2, rfl⟩ := plus_parts hz1
    obtain ⟨x3, x4, hx3, hx4, rfl⟩ := plus_parts hz2
    have he : Upto (editAll (fun x x' => some (changed 2 x x')) (g.entry_flags.map (·.toRaw)) (g'.entry_flags.map (·.toRaw))) x4 := by
      rw [editAll_map]
      exact editAll_upto (fun f f' k h => by cases h; exact ⟨_, changed_map_le 2 EntryFlags.toRaw f f', rfl⟩) hx4
    refine ⟨(x1 + (x2 + x3)) + a, x4 + b, by omega, ?_, ?_, ?_⟩
    · rw [List.map_cons, List.map_cons, editAll, h1, editGroup]
      dsimp only
      rw [hx1, name_text, name_text, hx2, hx3]
      rfl
    · rw [List.flatMap_cons, List.flatMap_cons]
      exact editAll_append h2 he
    · rw [List.map_cons, List.map_cons, h3, editAll_length hx4]

theorem entries_same {β : Type} (f : Nat → β) : ∀ {l l' : List MeshObjectGroupData}, l.map (·.entry_flags.length) = l'.map (·.entry_flags.length) → ∀ n,
    ((l.zipIdx n).flatMap fun (g, i) => g.entry_flags.map fun _ => f i) = (l'.zipIdx n).flatMap fun (g, i) => g.entry_flags.map fun _ => f i
  | [], [], _, _ => rfl
  | [], _ :: _, h, _ => by cases h
  | _ :: _, [], h, _ => by cases h
  | g :: l, g' :: l', h, n => by
    rw [List.map_cons, List.map_cons, List.cons.injEq] at h
    rw [List.zipIdx_cons, List.zipIdx_cons, List.flatMap_cons, List.flatMap_cons, entries_same f h.2]
    simp only [List.map_const', h.1]

/-- C93 for MeshExData: names of the same length, flags and bounding spheres. -/
theorem C93_meshExData (sphereOf : List Mesh.BoundingSphere → Mesh.BoundingSphere) (d d' : MeshExData) (k : Nat) (h : editMeshExData d d' = some k)
    (b : Bytes) (hb : d.write sphereOf = .ok b) : ∃ b', d'.write sphereOf = .ok b' ∧ CloseBytes k b b' := by
  obtain ⟨x, y, hx, hy, rfl⟩ := plus_parts h
  obtain ⟨m, n, hmn, hg, ⟨n', hn', hf⟩, hl⟩ := groups_parts hy
  have hs : editSphere (sphereOf (d.mesh_object_groups.map (·.bounding_sphere))) (sphereOf (d'.mesh_object_groups.map (·.bounding_sphere))) ≤ x := by
    cases hx
    unfold changed
    split
    · rename_i he; rw [he, sphere_self]
    · exact sphere_le _ _
  have hw : (d.toMeshEx sphereOf).write = .ok b := by
    unfold MeshExData.write at hb
    revert hb
    cases (d.toMeshEx sphereOf).write with
    | error e => intro hb; cases hb
    | ok c => intro hb; cases hb; rfl
  have he : editMeshEx (d.toMeshEx sphereOf) (d'.toMeshEx sphereOf) =
      some (editSphere (sphereOf (d.mesh_object_groups.map (·.bounding_sphere))) (sphereOf (d'.mesh_object_groups.map (·.bounding_sphere))) + (m + n')) := by
    have h1 : editOption editAllData (d.toMeshEx sphereOf).all_data (d'.toMeshEx sphereOf).all_data = some (editSphere (sphereOf (d.mesh_object_groups.map (·.bounding_sphere))) (sphereOf (d'.mesh_object_groups.map (·.bounding_sphere)))) := by
      simp only [toMeshEx, editOption, editAllData, editName, editBytes_refl, plus_zero']
    have h2 : editOption (editAll editGroup) (d.toMeshEx sphereOf).mesh_object_groups (d'.toMeshEx sphereOf).mesh_object_groups = some m := hg
    have h3 : editOption (editAll editEntry) (d.toMeshEx sphereOf).entries (d'.toMeshEx sphereOf).entries = some 0 := by
      have e : (d'.toMeshEx sphereOf).entries = (d.toMeshEx sphereOf).entries := by
        simp only [toMeshEx]
        rw [entries_same (fun i => (⟨UInt32.ofNat i, ⟨0, 0x3f800000, 0⟩⟩ : MeshEx.MeshEntry)) hl 0]
      rw [e]
      exact editAll_refl (fun e => by simp [editEntry, editVector3, changed_self]) _
    have h4 : editOption (editAll fun x x' => some (changed 2 x x')) (d.toMeshEx sphereOf).entry_flags (d'.toMeshEx sphereOf).entry_flags = some n' := hf
    rw [editMeshEx, h1, h2, h3, h4, show (d.toMeshEx sphereOf).unk1 = (d'.toMeshEx sphereOf).unk1 from rfl, changed_self, zero_plus, plus_zero']
    rfl
  obtain ⟨b', hb', hc⟩ := C93_meshEx _ _ _ he b hw
  refine ⟨b', ?_, CloseBytes.mono (by omega) hc⟩
  rw [MeshExData.write, hb']

/-- Switching the flags of one entry changes at most its two bytes. -/
theorem C93_flags (sphereOf : List Mesh.BoundingSphere → Mesh.BoundingSphere) (d : MeshExData) (i j : Nat) (g : MeshObjectGroupData)
    (hi : d.mesh_object_groups[i]? = some g) (hj : j < g.entry_flags.length) (f : EntryFlags) (b : Bytes) (hb : d.write sphereOf = .ok b) :
    ∃ b', (MeshExData.mk (d.mesh_object_groups.set i { g with entry_flags := g.entry_flags.set j f })).write sphereOf = .ok b' ∧ CloseBytes 2 b b' := by
  have hr : ∀ g : MeshObjectGroupData, editGroupData g g = some 0 := fun g => by
    rw [editGroupData, sphere_self, editText_refl, editText_refl, editAll_refl (fun f => by rw [changed_self])]
    rfl
  have hg : editAll editGroupData d.mesh_object_groups (d.mesh_object_groups.set i { g with entry_flags := g.entry_flags.set j f }) =
      some (changed 2 g.entry_flags[j] f) := (editAll_set hr hi _).trans (by
    unfold editGroupData
    dsimp only
    rw [sphere_self, editText_refl, editText_refl, editAll_set (fun f => by rw [changed_self]) (List.getElem?_eq_getElem hj), zero_plus, zero_plus, zero_plus])
  have hs : (d.mesh_object_groups.set i { g with entry_flags := g.entry_flags.set j f }).map (·.bounding_sphere) = d.mesh_object_groups.map (·.bounding_sphere) := by
    obtain ⟨hi', he⟩ := List.getElem?_eq_some_iff.mp hi
    refine List.ext_getElem? fun n => ?_
    rw [List.getElem?_map, List.getElem?_map]
    by_cases hn : i = n
    · subst hn
      rw [List.getElem?_set_self hi', hi]
      rfl
    · rw [List.getElem?_set_ne hn]
  obtain ⟨b', h1, h2⟩ := C93_meshExData sphereOf d ⟨d.mesh_object_groups.set i { g with entry_flags := g.entry_flags.set j f }⟩ (changed 2 g.entry_flags[j] f)
    (by rw [editMeshExData, hs, changed_self, zero_plus, hg]) b hb
  exact ⟨b', h1, CloseBytes.mono (changed_le 2 _ _) h2⟩

theorem scan_parts : ∀ {l l' : List AdjEntryData} {k : Nat} (n : Nat), editAll (fun e e' => plus (some (changed 4 e.mesh_object_index e'.mesh_object_index))
      (editAll (fun x x' => some (changed 2 x x')) e.vertex_adjacency e'.vertex_adjacency)) l l' = some k → ∃ a b, a + b ≤ k ∧
    editAll (fun e e' : Adj.AdjEntry => some (changed 4 e.mesh_object_index e'.mesh_object_index +
      changed 4 e.index_buffer_offset e'.index_buffer_offset)) (AdjData.scanEntries n l) (AdjData.scanEntries n l') = some a ∧
    Upto (editAll (fun x x' => some (changed 2 x x')) (l.flatMap (·.vertex_adjacency)) (l'.flatMap (·.vertex_adjacency))) b
  | [], [], _, _, h => by cases h; exact ⟨0, 0, le_rfl, rfl, .zero⟩
  | [], _ :: _, _, _, h => by cases h
  | _ :: _, [], _, _, h => by cases h
  | e :: l, e' :: l', _, n, h => by
    obtain ⟨x, y, hx, hy, rfl⟩ := plus_parts h
    obtain ⟨x1, x2, hx1, hx2, rfl⟩ := plus_parts hx
    obtain ⟨a, b, hab, h1, h2⟩ := scan_parts (n + e.vertex_adjacency.length * 2) hy
    cases hx1
    have hle := changed_map_le 4 UInt32.ofNat e.mesh_object_index e'.mesh_object_index
    refine ⟨changed 4 (UInt32.ofNat e.mesh_object_index) (UInt32.ofNat e'.mesh_object_index) + a, x2 + b, by omega, ?_, ?_⟩
    · rw [AdjData.scanEntries, AdjData.scanEntries, ← editAll_length hx2, editAll, h1]
      simp only [changed_self, Nat.add_zero]
      rfl
    · rw [List.flatMap_cons, List.flatMap_cons]
      exact editAll_append h2 ⟨x2, le_rfl, hx2⟩

/-- C93 for AdjData: adjacencies of the same length. -/
theorem C93_adjData (d d' : AdjData) (k : Nat) (h : editAdjData d d' = some k) (b : Bytes) (hb : d.write = .ok b) :
    ∃ b', d'.write = .ok b' ∧ CloseBytes k b b' := by
  obtain ⟨m, n, hmn, hs, ⟨n', hn', hf⟩⟩ := scan_parts 0 h
  have he : editAdj d.toAdj d'.toAdj = some (m + n') := by
    rw [editAdj, AdjData.toAdj, AdjData.toAdj]
    dsimp only
    rw [hs, hf]
    rfl
  have hc := C93_adj _ _ _ he
  unfold AdjData.write at hb ⊢
  cases hw : d.toAdj.write with
  | error e => rw [hw] at hb; cases hb
  | ok c =>
    rw [hw] at hb hc
    cases hb
    cases hw' : d'.toAdj.write with
    | error e => rw [hw'] at hc; exact hc.elim
    | ok c' => rw [hw'] at hc; exact ⟨c', rfl, CloseBytes.mono (by omega) hc⟩

/-! ## A non-trivial case -/

/-- The third group of the sample gets another name and is no longer drawn. -/
example (b : Bytes) (hb : sampleMeshEx.write (fun _ => ⟨⟨0, 0, 0⟩, 0⟩) = .ok b) :
    ∃ b', (MeshExData.mk (sampleMeshEx.mesh_object_groups.set 2 ⟨⟨⟨1, 2, 3⟩, 4⟩, "eye_VIS_O_OBJShape", "ear", [⟨false, true⟩]⟩)).write
      (fun _ => ⟨⟨0, 0, 0⟩, 0⟩) = .ok b' ∧ CloseBytes 4 b b' :=
  C93_meshExData _ _ _ 4 (by decide +kernel) b hb

example : ((sampleMeshEx.write fun _ => ⟨⟨0, 0, 0⟩, 0⟩).toOption).isSome = true := by decide +kernel

example (b : Bytes) (hb : exAdjData.write = .ok b) : ∃ b', (AdjData.mk [⟨3, [1, 9, -1]⟩, ⟨4, []⟩, ⟨6, [7, 8]⟩]).write = .ok b' ∧ CloseBytes 8 b b' :=
  C93_adjData _ _ 8 (by decide +kernel) b hb

example : (exAdjData.write.toOption).isSome = true := by decide +kernel

end Verif.Props
