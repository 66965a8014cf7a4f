import Verif.Data.MeshExDataLaws
/-!
# MeshEx data

C33: conversion to a file and back. C34: tags of mesh names. C46: creation from mesh objects.
-/

namespace Verif
namespace Props
open MeshExData

/-! ## C33 -/

/-- Every group comes back in order with its bounding sphere, its flags in order and its names cut at NUL. -/
theorem C33_round_trip (sphereOf : List Mesh.BoundingSphere → Mesh.BoundingSphere) (m : MeshExData)
    (h : m.mesh_object_groups.length ≤ 2 ^ 32) :
    ofMeshEx (toMeshEx sphereOf m) = ⟨m.mesh_object_groups.map fun g =>
      { g with
        mesh_object_full_name := cutNul g.mesh_object_full_name
        mesh_object_name := cutNul g.mesh_object_name }⟩ := by
  simp only [ofMeshEx, toMeshEx, Option.getD_some, MeshExData.mk.injEq]
  apply List.ext_getElem?
  intro i
  simp only [List.getElem?_map, List.getElem?_zipIdx, Nat.zero_add, Option.map_map]
  cases hg : m.mesh_object_groups[i]? with
  | none => rfl
  | some g =>
    simp only [Option.map_some, Function.comp, nameText_fromBytes, Option.some.injEq, MeshObjectGroupData.mk.injEq,
      true_and]
    have hi : i < m.mesh_object_groups.length := (List.getElem?_eq_some_iff.mp hg).1
    have hlen : ∀ x : MeshObjectGroupData × Nat,
        (x.1.entry_flags.map fun _ => (⟨UInt32.ofNat x.2, ⟨0, 0x3f800000, 0⟩⟩ : MeshEx.MeshEntry)).length =
          (x.1.entry_flags.map (·.toRaw)).length := by simp
    have hf : (fun entryIndex : Nat => (do
          return EntryFlags.ofRaw (← (← some (m.mesh_object_groups.flatMap fun g => g.entry_flags.map (·.toRaw)))[entryIndex]?)
          : Option EntryFlags)) =
        fun entryIndex => ((m.mesh_object_groups.flatMap fun g => g.entry_flags.map (·.toRaw)).map .ofRaw)[entryIndex]? := by
      funext k
      rw [List.getElem?_map]
      generalize m.mesh_object_groups.flatMap (fun g => g.entry_flags.map (·.toRaw)) = fl
      show (fl[k]?).bind _ = _
      cases fl[k]? <;> rfl
    rw [hf, ← zipIdx_flatMap_fst m.mesh_object_groups 0, positions_filterMap]
    · rw [List.map_flatMap, flatMap_zip (by simp)]
      have hs := select_index (g := fun g : MeshObjectGroupData => g.entry_flags)
        (key := fun j => (⟨UInt32.ofNat j, ⟨0, 0x3f800000, 0⟩⟩ : MeshEx.MeshEntry))
        (is := fun e i => e.mesh_object_group_index.toNat == i) m.mesh_object_groups 0 i (by
          intro j _ hj
          have : (UInt32.ofNat j).toNat = j := by
            simpa using Nat.mod_eq_of_lt (show j < 2 ^ 32 by omega)
          simp [this])
      have hz : (fun x : MeshObjectGroupData × Nat =>
          (x.1.entry_flags.map fun _ => (⟨UInt32.ofNat x.2, ⟨0, 0x3f800000, 0⟩⟩ : MeshEx.MeshEntry)).zip
            ((x.1.entry_flags.map (·.toRaw)).map EntryFlags.ofRaw)) =
          fun x => x.1.entry_flags.map fun y => (⟨UInt32.ofNat x.2, ⟨0, 0x3f800000, 0⟩⟩, y) := by
        funext x
        rw [List.map_map, List.zip_map']
        apply List.map_congr_left
        intro f _
        simp [flags_round_trip]
      rw [hz, hs]
      simp [hg, Function.comp_def]
    · simp only [List.length_map]
      exact flatMap_length_eq hlen _

/-- Text without NUL comes back unchanged, so the whole value does. -/
theorem C33_identity (sphereOf : List Mesh.BoundingSphere → Mesh.BoundingSphere) (m : MeshExData)
    (h : m.mesh_object_groups.length ≤ 2 ^ 32)
    (hn : ∀ g ∈ m.mesh_object_groups, '\x00' ∉ g.mesh_object_full_name.toList ∧ '\x00' ∉ g.mesh_object_name.toList) :
    ofMeshEx (toMeshEx sphereOf m) = m := by
  rw [C33_round_trip sphereOf m h]
  have : (m.mesh_object_groups.map fun g =>
      { g with
        mesh_object_full_name := cutNul g.mesh_object_full_name
        mesh_object_name := cutNul g.mesh_object_name }) = m.mesh_object_groups := by
    rw [List.map_congr_left (g := id), List.map_id]
    intro g hg
    rw [cutNul_of_not_mem (hn g hg).1, cutNul_of_not_mem (hn g hg).2]
    rfl
  rw [this]

/-- In the file, every entry refers to an existing group, and there are as many flags as
entries, which is as many as there were flags. -/
theorem C33_entries (sphereOf : List Mesh.BoundingSphere → Mesh.BoundingSphere) (m : MeshExData)
    (h : m.mesh_object_groups.length ≤ 2 ^ 32) :
    ∃ groups entries flags, (toMeshEx sphereOf m).mesh_object_groups = some groups ∧
      (toMeshEx sphereOf m).entries = some entries ∧ (toMeshEx sphereOf m).entry_flags = some flags ∧
      groups.length = m.mesh_object_groups.length ∧
      (∀ e ∈ entries, e.mesh_object_group_index.toNat < groups.length) ∧
      entries.length = flags.length ∧
      flags.length = (m.mesh_object_groups.map (·.entry_flags.length)).sum := by
  refine ⟨_, _, _, rfl, rfl, rfl, by simp, ?_, ?_, ?_⟩
  · intro e he
    simp only [List.mem_flatMap, List.mem_map] at he
    obtain ⟨⟨g, i⟩, hx, f, _, rfl⟩ := he
    have hi : i < m.mesh_object_groups.length := by
      have := (List.mem_zipIdx hx).2.1
      omega
    have : (UInt32.ofNat i).toNat = i := by simpa using Nat.mod_eq_of_lt (show i < 2 ^ 32 by omega)
    simpa [this] using hi
  · rw [← zipIdx_flatMap_fst m.mesh_object_groups 0]
    exact flatMap_length_eq (by simp) _
  · simp [List.length_flatMap]

def sampleMeshEx : MeshExData :=
  let s : Mesh.BoundingSphere := ⟨⟨1, 2, 3⟩, 4⟩
  ⟨[⟨s, "bodyShape", "body", [⟨true, false⟩, ⟨false, true⟩]⟩, ⟨s, "none", "none", []⟩,
    ⟨s, "eye_VIS_O_OBJShape", "eye", [⟨true, true⟩]⟩]⟩

example : ofMeshEx (toMeshEx (fun _ => ⟨⟨0, 0, 0⟩, 0⟩) sampleMeshEx) = sampleMeshEx :=
  C33_identity _ _ (by decide) (by decide +kernel)

example : ((toMeshEx (fun _ => ⟨⟨0, 0, 0⟩, 0⟩) sampleMeshEx).entries.map fun l =>
    l.map (·.mesh_object_group_index)) = some [0, 0, 2] := by decide

/-! ## C34 -/

abbrev vis : List Char := ['_', 'V', 'I', 'S']
abbrev o : List Char := ['_', 'O', '_']
abbrev shape : List Char := ['S', 'h', 'a', 'p', 'e']

/-- The three outcomes of stripping, which cover every name. -/
theorem strip_cases (s : List Char) :
    ((vis <:+: s ∨ o <:+: s) ∧ (∃ t, s = stripChars s ++ t ∧ (vis <+: t ∨ o <+: t)) ∧
      ¬vis <:+: stripChars s ∧ ¬o <:+: stripChars s) ∨
    (¬vis <:+: s ∧ ¬o <:+: s ∧ s = stripChars s ++ shape) ∨
    (¬vis <:+: s ∧ ¬o <:+: s ∧ ¬shape <:+ s ∧ stripChars s = s) := by
  have hv : vis ≠ [] := by decide
  have ho : o ≠ [] := by decide
  have e1 : "_VIS".toList = vis := by decide
  have e2 : "_O_".toList = o := by decide
  have e3 : "Shape".toList = shape := by decide
  -- cutting at a place which is before every tag and at the start of a tag
  have key : ∀ n, n ≤ s.length → (vis <+: s.drop n ∨ o <+: s.drop n) →
      (∀ j, j < n → ¬vis <+: s.drop j) → (∀ j, j < n → ¬o <+: s.drop j) →
      (∃ t, s = s.take n ++ t ∧ (vis <+: t ∨ o <+: t)) ∧ ¬vis <:+: s.take n ∧ ¬o <:+: s.take n := by
    intro n _ hn h1 h2
    refine ⟨⟨s.drop n, (List.take_append_drop n s).symm, hn⟩, fun h => ?_, fun h => ?_⟩
    · obtain ⟨j, hj, hp⟩ := infix_take hv h
      exact h1 j hj hp
    · obtain ⟨j, hj, hp⟩ := infix_take ho h
      exact h2 j hj hp
  have before : ∀ {p : List Char}, p ≠ [] → ¬p <:+: s → ∀ j, ¬p <+: s.drop j := by
    intro p _ h j hj
    exact h (hj.isInfix.trans (List.drop_suffix j s).isInfix)
  unfold stripChars
  rw [e1, e2, e3]
  cases h1 : find vis s with
  | none =>
    have hn1 := (find_none hv).mp h1
    cases h2 : find o s with
    | none =>
      have hn2 := (find_none ho).mp h2
      right
      simp only
      by_cases hs : shape <:+ s
      · left
        refine ⟨hn1, hn2, ?_⟩
        rw [if_pos (List.isSuffixOf_iff_suffix.mpr hs)]
        obtain ⟨a, ha⟩ := hs
        rw [← ha, rfind_suffix (by decide)]
        simp
      · right
        refine ⟨hn1, hn2, hs, ?_⟩
        rw [if_neg (fun h => hs (List.isSuffixOf_iff_suffix.mp h))]
    | some i =>
      left
      obtain ⟨hp, hb, hl⟩ := find_some h2
      refine ⟨.inr (hp.isInfix.trans (List.drop_suffix i s).isInfix), ?_⟩
      simp only [Option.getD_none, Option.getD_some]
      rw [Nat.min_eq_right hl]
      exact key i hl (.inr hp) (fun j _ => before hv hn1 j) hb
  | some i =>
    left
    obtain ⟨hp, hb, hl⟩ := find_some h1
    refine ⟨.inl (hp.isInfix.trans (List.drop_suffix i s).isInfix), ?_⟩
    cases h2 : find o s with
    | none =>
      simp only [Option.getD_none, Option.getD_some]
      rw [Nat.min_eq_left hl]
      exact key i hl (.inl hp) hb (fun j _ => before ho ((find_none ho).mp h2) j)
    | some k =>
      obtain ⟨hp', hb', hl'⟩ := find_some h2
      simp only [Option.getD_some]
      by_cases hik : i ≤ k
      · rw [Nat.min_eq_left hik]
        exact key i hl (.inl hp) hb (fun j hj => hb' j (by omega))
      · rw [Nat.min_eq_right (by omega)]
        exact key k hl' (.inr hp') (fun j hj => hb j (by omega)) hb'

/-- The result is a prefix of the name. -/
theorem C34_prefix (s : String) : (stripMeshNameTags s).toList <+: s.toList := by
  rw [stripMeshNameTags, String.toList_ofList]
  rcases strip_cases s.toList with ⟨_, ⟨t, h, _⟩, _⟩ | ⟨_, _, h⟩ | ⟨_, _, _, h⟩
  · exact ⟨t, h.symm⟩
  · exact ⟨_, h.symm⟩
  · rw [h]; exact List.prefix_rfl

/-- The result contains no tag. -/
theorem C34_no_tags (s : String) : ¬vis <:+: (stripMeshNameTags s).toList ∧ ¬o <:+: (stripMeshNameTags s).toList := by
  rw [stripMeshNameTags, String.toList_ofList]
  rcases strip_cases s.toList with ⟨_, _, h⟩ | ⟨h1, h2, h⟩ | ⟨h1, h2, _, h⟩
  · exact h
  · have hi : stripChars s.toList <:+: s.toList := ⟨[], shape, by rw [List.nil_append]; exact h.symm⟩
    exact ⟨fun h => h1 (h.trans hi), fun h => h2 (h.trans hi)⟩
  · rw [h]; exact ⟨h1, h2⟩

/-- A name without tags and without the suffix is unchanged. -/
theorem C34_unchanged (s : String) (h1 : ¬vis <:+: s.toList) (h2 : ¬o <:+: s.toList) (h3 : ¬shape <:+ s.toList) :
    stripMeshNameTags s = s := by
  rcases strip_cases s.toList with ⟨h, _⟩ | ⟨_, _, h⟩ | ⟨_, _, _, h⟩
  · cases h with
    | inl h => exact absurd h h1
    | inr h => exact absurd h h2
  · exact absurd ⟨_, h.symm⟩ h3
  · rw [stripMeshNameTags, h, String.ofList_toList]

/-- A name with a tag is cut exactly before its first tag. -/
theorem C34_cut_at_tag (s : String) (h : vis <:+: s.toList ∨ o <:+: s.toList) :
    ∃ t, s.toList = (stripMeshNameTags s).toList ++ t ∧ (vis <+: t ∨ o <+: t) := by
  rw [stripMeshNameTags, String.toList_ofList]
  rcases strip_cases s.toList with ⟨_, h, _⟩ | ⟨h1, h2, _⟩ | ⟨h1, h2, _⟩
  · exact h
  · exact absurd h (by simp [h1, h2])
  · exact absurd h (by simp [h1, h2])

/-- A name without tags but with the suffix loses one suffix. -/
theorem C34_cut_shape (s : String) (h1 : ¬vis <:+: s.toList) (h2 : ¬o <:+: s.toList) (h3 : shape <:+ s.toList) :
    s = stripMeshNameTags s ++ "Shape" := by
  apply String.toList_inj.mp
  rw [String.toList_append, stripMeshNameTags, String.toList_ofList]
  rcases strip_cases s.toList with ⟨h, _⟩ | ⟨_, _, h⟩ | ⟨_, _, h, _⟩
  · exact absurd h (by simp [h1, h2])
  · exact h
  · exact absurd h3 h

/-- Stripping twice is the same as once, unless the result of stripping ends in the suffix. -/
theorem C34_idempotent_partial (s : String) (h : ¬shape <:+ (stripMeshNameTags s).toList) :
    stripMeshNameTags (stripMeshNameTags s) = stripMeshNameTags s :=
  C34_unchanged _ (C34_no_tags s).1 (C34_no_tags s).2 h

/-- Stripping is not idempotent. -/
theorem C34_not_idempotent : stripMeshNameTags "bodyShape_VIS_O_OBJ" = "bodyShape" ∧
    stripMeshNameTags (stripMeshNameTags "bodyShape_VIS_O_OBJ") = "body" := by decide +kernel

example : stripMeshNameTags "c00BodyShape" = "c00Body" ∧ stripMeshNameTags "eye_O_VIS_OShape" = "eye" ∧
    stripMeshNameTags "plain" = "plain" := by decide +kernel

/-! ## C46 -/

/-- The mesh objects are split into runs: joined together the runs give the objects in order, no run is empty, all
objects of a run have the same name, and neighbouring runs have different names. Each run gives one group, with its
name, the stripped name, and one entry for each of its objects with all flags set. -/
theorem C46_groups (name : α → String) (sphereOf : List α → Mesh.BoundingSphere) (objects : List α) :
    ∃ runs : List (String × List α), runs.flatMap (·.2) = objects ∧
      (∀ r ∈ runs, r.2 ≠ [] ∧ ∀ x ∈ r.2, name x = r.1) ∧
      (∀ i a b, runs[i]? = some a → runs[i + 1]? = some b → a.1 ≠ b.1) ∧
      (fromMeshObjects name sphereOf objects).mesh_object_groups = runs.map fun r =>
        ⟨sphereOf r.2, r.1, stripMeshNameTags r.1, List.replicate r.2.length ⟨true, true⟩⟩ := by
  refine ⟨groupBy name objects, groupBy_flatten _ _, groupBy_key _ _, groupBy_neighbours _ _, ?_⟩
  unfold fromMeshObjects
  apply List.map_congr_left
  rintro ⟨n, group⟩ _
  simp only [List.map_const']

/-- There is one entry for every mesh object. -/
theorem C46_entries (name : α → String) (sphereOf : List α → Mesh.BoundingSphere) (objects : List α) :
    ((fromMeshObjects name sphereOf objects).mesh_object_groups.map (·.entry_flags.length)).sum = objects.length := by
  obtain ⟨runs, hf, _, _, hg⟩ := C46_groups name sphereOf objects
  rw [hg, ← hf, List.length_flatMap, List.map_map]
  congr 1
  apply List.map_congr_left
  intro r _
  simp

example : ((fromMeshObjects id (fun _ => ⟨⟨0, 0, 0⟩, 0⟩) ["aShape", "aShape", "b", "aShape"]).mesh_object_groups.map
    fun g => (g.mesh_object_full_name, g.mesh_object_name, g.entry_flags.length)) =
    [("aShape", "a", 2), ("b", "b", 1), ("aShape", "a", 1)] := by decide +kernel

end Props
end Verif
