import Verif.Props.Shown
import Verif.Props.SkelData
import Verif.Props.AnimFiles
/-!
# C66: what saving adds

The fields of saved files that are not in the data: `C56` has the other ones. Saved meshes are in `C61`.
-/

namespace Verif.Props
open Verif SkelData AnimData

/-! ## Modl -/

/-- No text is missing. -/
def SavedModl : Modl → Prop
  | .V17 m => m.model_name ≠ none ∧ m.skeleton_file_name ≠ none ∧ m.mesh_file_name ≠ none ∧
    (∀ s ∈ m.material_file_names, s ≠ none) ∧ m.animation_file_name ≠ some none ∧
    ∀ e ∈ m.entries, e.mesh_object_name ≠ none ∧ e.material_label ≠ none

theorem ssbhText_ne (s : String) : ssbhText s ≠ none := by
  simp [ssbhText]

theorem C66_modl (d : ModlData) (bytes : Bytes) (h : d.write = .ok bytes) :
    ∃ m, readAs Modl bytes = .ok m ∧ SavedModl m := by
  refine ⟨_, C01_format_round_trip d.toModl bytes (liftWrite_ok.mp h), ssbhText_ne _, ssbhText_ne _, ssbhText_ne _, ?_, ?_, ?_⟩
  · intro s hs
    obtain ⟨t, _, rfl⟩ := List.mem_map.mp hs
    exact ssbhText_ne _
  · cases h : d.animation_file_name with
    | none => simp
    | some t => simpa [h] using ssbhText_ne t
  · intro e he
    obtain ⟨t, _, rfl⟩ := List.mem_map.mp he
    exact ⟨ssbhText_ne _, ssbhText_ne _⟩

example : ∃ bytes, sampleModl.write = .ok bytes := isOk_iff.mp (by decide +kernel)

/-! ## Hlpb -/

/-- The list of all constraints has first the aim and then the orient constraints, in their order. -/
structure SavedHlpb (d : HlpbData) (h : Hlpb.V11Data) : Prop where
  zero : ∀ a ∈ h.aim_constraints, a.unk17 = 0 ∧ a.unk18 = 0 ∧ a.unk19 = 0 ∧ a.unk20 = 0 ∧ a.unk21 = 0 ∧ a.unk22 = 0
  aim_texts : ∀ a ∈ h.aim_constraints, a.name ≠ none ∧ a.aim_bone_name1 ≠ none ∧ a.aim_bone_name2 ≠ none ∧
    a.aim_type1 ≠ none ∧ a.aim_type2 ≠ none ∧ a.target_bone_name1 ≠ none ∧ a.target_bone_name2 ≠ none
  orient_texts : ∀ o ∈ h.orient_constraints, o.name ≠ none ∧ o.parent_bone_name1 ≠ none ∧ o.parent_bone_name2 ≠ none ∧
    o.source_bone_name ≠ none ∧ o.target_bone_name ≠ none
  types : h.constraint_types.length = d.aim_constraints.length + d.orient_constraints.length
  indices : h.constraint_indices.length = d.aim_constraints.length + d.orient_constraints.length
  aim : ∀ i < d.aim_constraints.length,
    h.constraint_types[i]? = some .Aim ∧ (h.constraint_indices[i]?).map (·.toNat) = some i
  orient : ∀ i < d.orient_constraints.length, h.constraint_types[d.aim_constraints.length + i]? = some .Orient ∧
    (h.constraint_indices[d.aim_constraints.length + i]?).map (·.toNat) = some i

theorem indexRange_length {n : Nat} (h : n < 2 ^ 32) : (HlpbData.indexRange n).length = n := by
  simp [HlpbData.indexRange]; omega

theorem indexRange_get {n i : Nat} (h : n < 2 ^ 32) (hi : i < n) : ((HlpbData.indexRange n)[i]?).map (·.toNat) = some i := by
  have : i < n % 4294967296 := by omega
  simp [HlpbData.indexRange, this]
  omega

theorem C66_hlpb (d : HlpbData) (bytes : Bytes) (h : d.write = .ok bytes) (ha : d.aim_constraints.length < 2 ^ 32)
    (ho : d.orient_constraints.length < 2 ^ 32) : ∃ m, readAs Hlpb bytes = .ok (.V11 m) ∧ SavedHlpb d m := by
  refine ⟨_, C01_format_round_trip d.toHlpb bytes (liftWrite_ok.mp h), ?_, ?_, ?_, ?_, ?_, ?_, ?_⟩
  · intro a h
    obtain ⟨t, _, rfl⟩ := List.mem_map.mp h
    exact ⟨rfl, rfl, rfl, rfl, rfl, rfl⟩
  · intro a h
    obtain ⟨t, _, rfl⟩ := List.mem_map.mp h
    exact ⟨ssbhText_ne _, ssbhText_ne _, ssbhText_ne _, ssbhText_ne _, ssbhText_ne _, ssbhText_ne _, ssbhText_ne _⟩
  · intro a h
    obtain ⟨t, _, rfl⟩ := List.mem_map.mp h
    exact ⟨ssbhText_ne _, ssbhText_ne _, ssbhText_ne _, ssbhText_ne _, ssbhText_ne _⟩
  · simp
  · simp [indexRange_length ha, indexRange_length ho]
  · intro i hi
    have hl := indexRange_length ha
    refine ⟨?_, by rw [List.getElem?_append_left (by omega)]; exact indexRange_get ha hi⟩
    rw [List.getElem?_append_left (by simpa using hi)]
    simp [hi]
  · intro i hi
    have hl := indexRange_length ha
    refine ⟨by simp [hi], ?_⟩
    rw [List.getElem?_append_right (by omega), hl, Nat.add_sub_cancel_left]
    exact indexRange_get ho hi

example : (∃ bytes, sampleHlpb.write = .ok bytes) ∧ sampleHlpb.aim_constraints.length < 2 ^ 32 ∧
    sampleHlpb.orient_constraints.length < 2 ^ 32 := ⟨isOk_iff.mp (by decide +kernel), by decide, by decide⟩

/-! ## Matl -/

/-- The number of the type of a parameter in the file. -/
def kindOf : Option Matl.ParamV16 → Nat
  | none => 0
  | some (.Float _) => 1
  | some (.Boolean _) => 2
  | some (.Vector4 _) => 5
  | some (.Unk7 _) => 7
  | some (.String _) => 11
  | some (.Sampler _) => 14
  | some (.UvTransform _) => 16
  | some (.BlendState _) => 17
  | some (.RasterizerState _) => 18

/-- Values which the game files have in the fields that are not in the data. -/
def SavedParam : Option Matl.ParamV16 → Prop
  | some (.Boolean b) => b = 0 ∨ b = 1
  | some (.String s) => s ≠ none
  | some (.Sampler s) => s.unk11 = 0 ∧ s.unk12 = 2139095022 ∧
      (s.max_anisotropy = .One → s.texture_filtering_type = .Default) ∧
      (s.max_anisotropy ≠ .One → s.texture_filtering_type = .AnisotropicFiltering)
  | some (.BlendState s) => (s.alpha_sample_to_coverage = 0 ∨ s.alpha_sample_to_coverage = 1) ∧
      s.unk8 = 0 ∧ s.unk9 = 0 ∧ s.unk10 = 5
  | some (.RasterizerState s) => s.unk4 = 0 ∧ s.unk5 = 0 ∧ s.unk6 = 16777217
  | some (.Unk7 _) => False
  | none => False
  | _ => True

structure SavedMaterial (e : MatlData.MatlEntryData) (r : Matl.MatlEntryV16) : Prop where
  label : r.material_label ≠ none
  shader : r.shader_label ≠ none
  /-- Blend states, booleans, floats, vectors, rasterizer states, samplers, textures, UV transforms. -/
  order : r.attributes.map (fun a => kindOf a.param) =
    List.replicate e.blend_states.length 17 ++ List.replicate e.booleans.length 2 ++ List.replicate e.floats.length 1 ++
    List.replicate e.vectors.length 5 ++ List.replicate e.rasterizer_states.length 18 ++
    List.replicate e.samplers.length 14 ++ List.replicate e.textures.length 11 ++ List.replicate e.uv_transforms.length 16
  params : ∀ a ∈ r.attributes, SavedParam a.param

theorem savedMaterial (e : MatlData.MatlEntryData) : SavedMaterial e e.toV16 where
  label := ssbhText_ne _
  shader := ssbhText_ne _
  order := by
    have key : ∀ {α : Type} (f : α → Matl.ParamV16) (k : Nat) (_ : ∀ a, kindOf (some (f a)) = k) (l : List (MatlData.ParamData α)),
        (l.map (MatlData.attrV16 f)).map (fun a => kindOf a.param) = List.replicate l.length k := by
      intro α f k hk l
      induction l with
      | nil => rfl
      | cons a l ih => simp only [List.map_cons, List.length_cons, List.replicate_succ, ih, MatlData.attrV16, hk]
    simp only [MatlData.MatlEntryData.toV16, List.map_append]
    rw [key _ 17 (fun _ => rfl), key _ 2 (fun _ => rfl), key _ 1 (fun _ => rfl), key _ 5 (fun _ => rfl),
      key _ 18 (fun _ => rfl), key _ 14 (fun _ => rfl), key _ 11 (fun _ => rfl), key _ 16 (fun _ => rfl)]
  params := by
    have key : ∀ {α : Type} {f : α → Matl.ParamV16} (_ : ∀ a, SavedParam (some (f a))) {l : List (MatlData.ParamData α)}
        {a : Matl.AttributeV16} (_ : a ∈ l.map (MatlData.attrV16 f)), SavedParam a.param := by
      intro α f hf l a ha
      obtain ⟨t, _, rfl⟩ := List.mem_map.mp ha
      exact hf _
    intro a ha
    simp only [MatlData.MatlEntryData.toV16, List.mem_append] at ha
    rcases ha with ((((((ha | ha) | ha) | ha) | ha) | ha) | ha) | ha
    · refine key (f := fun s : MatlData.BlendStateData => .BlendState s.toV16) (fun s => ⟨?_, rfl, rfl, rfl⟩) ha
      cases h : s.alpha_sample_to_coverage <;> simp [MatlData.BlendStateData.toV16, h]
    · refine key (f := fun b : Bool => .Boolean (if b then 1 else 0)) (fun b => ?_) ha
      cases b <;> simp [SavedParam]
    · exact key (f := .Float) (fun _ => trivial) ha
    · exact key (f := .Vector4) (fun _ => trivial) ha
    · exact key (f := fun s : MatlData.RasterizerStateData => .RasterizerState s.toV16) (fun s => ⟨rfl, rfl, rfl⟩) ha
    · refine key (f := fun s : MatlData.SamplerData => .Sampler s.toSampler) (fun s => ⟨rfl, rfl, ?_, ?_⟩) ha
      · intro h; exact if_pos h
      · intro h; exact if_neg h
    · exact key (f := fun s => .String (ssbhText s)) (fun s => ssbhText_ne _) ha
    · exact key (f := .UvTransform) (fun _ => trivial) ha

theorem C66_matl (d : MatlData) (bytes : Bytes) (h : d.write = .ok bytes) :
    ∃ m, readAs Matl bytes = .ok (.V16 m) ∧ List.Forall₂ SavedMaterial d.entries m.entries := by
  unfold MatlData.write at h
  split at h
  · cases h
  rename_i f hf
  unfold MatlData.toMatl at hf
  split at hf
  · cases hf
    refine ⟨_, C01_format_round_trip _ bytes (liftWrite_ok.mp h), ?_⟩
    generalize d.entries = l
    induction l with
    | nil => exact .nil
    | cons e l ih => exact .cons (savedMaterial e) ih
  · cases hf

example : ∃ bytes, sampleMatl.write = .ok bytes := isOk_iff.mp (by decide +kernel)

/-! ## Skel -/

/-- The five lists of the file have one entry for each bone. -/
structure SavedSkel (O : MatOps Matrix4x4) (d : SkelData) (s : Skel.V10Data) : Prop where
  lengths : s.bone_entries.length = d.bones.length ∧ s.world_transforms.length = d.bones.length ∧
    s.inv_world_transforms.length = d.bones.length ∧ s.transforms.length = d.bones.length ∧
    s.inv_transforms.length = d.bones.length
  entries : ∀ (i : Nat) b e, d.bones[i]? = some b → s.bone_entries[i]? = some e →
    e.name ≠ none ∧ e.index.toNat = i % 65536 ∧ e.flags.unk1 = 1 ∧ (b.parent_index = none → e.parent_index = -1)
  transforms : ∀ (i : Nat) b, d.bones[i]? = some b →
    s.transforms[i]? = some b.transform ∧ s.inv_transforms[i]? = some (O.inverse b.transform)
  /-- The product from the last ancestor down to the bone, and its inverse. -/
  world : ∀ (i : Nat) b, d.bones[i]? = some b → ∃ ancestors, Chain d.bones b.parent_index ancestors ∧
    s.world_transforms[i]? = some (ancestors.reverse.foldr (fun p t => O.mul p.transform t) b.transform) ∧
    s.inv_world_transforms[i]? =
      some (O.inverse (ancestors.reverse.foldr (fun p t => O.mul p.transform t) b.transform))

theorem C66_skel (O : MatOps Matrix4x4) (d : SkelData) (bytes : Bytes) (h : d.write O = .ok bytes) :
    ∃ s, readAs Skel bytes = .ok (.V10 s) ∧ SavedSkel O d s := by
  unfold SkelData.write at h
  split at h
  · rename_i f hf
    obtain ⟨s⟩ := f
    refine ⟨s, C01_format_round_trip _ bytes (liftWrite_ok.mp h), ?_⟩
    have harr := C35_file_arrays O d s hf
    unfold SkelData.toSkel at hf
    split at hf
    · cases hf
    · cases hf
    · rename_i w hw
      cases hf
      have hlen : w.length = d.bones.length := by
        rw [collect_ok] at hw
        simpa using (congrArg List.length hw).symm
      refine ⟨⟨by simp, hlen, by simp [hlen], by simp, by simp⟩, ?_, ?_, ?_⟩
      · intro i b e hb he
        simp only [List.getElem?_map, List.getElem?_zipIdx, hb, Option.map_some, Option.some.injEq] at he
        subst he
        refine ⟨ssbhText_ne _, by simp, rfl, fun hp => by simp [hp]⟩
      · intro i b hb
        exact ⟨(harr i b hb).2.1, (harr i b hb).2.2.1⟩
      · intro i b hb
        obtain ⟨_, _, _, m, hm, h1, h2⟩ := harr i b hb
        have hc : ¬RunsIntoCycle d.bones b := by
          rw [← C36_cycle_iff O]
          rintro ⟨e, he⟩
          rw [hm] at he
          cases he
        obtain ⟨l, hl, he⟩ := C36_product O d b hc
        rw [hm] at he
        cases he
        exact ⟨l, hl, h1, h2⟩
  · cases h

/-- Three bones in a chain and one whose parent is missing. -/
example : ∃ bytes, chainSkel.write countOps = .ok bytes := isOk_iff.mp (by decide +kernel)

/-! ## MeshEx -/

/-- One entry for each flag of each group, in order. -/
structure SavedMeshEx (sphereOf : List Mesh.BoundingSphere → Mesh.BoundingSphere) (d : MeshExData) (m : MeshEx) : Prop where
  all : ∃ name, m.all_data = some ⟨sphereOf (d.mesh_object_groups.map (·.bounding_sphere)), some name⟩ ∧
    name.bytes = ascii "All"
  groups : ∃ gs, m.mesh_object_groups = some gs ∧
    ∀ g ∈ gs, g.mesh_object_full_name ≠ none ∧ g.mesh_object_name ≠ none
  entries : ∃ es fs, m.entries = some es ∧ m.entry_flags = some fs ∧ es.length = fs.length ∧
    (∀ e ∈ es, e.unk1 = ⟨0, 0x3f800000, 0⟩) ∧ (∀ f ∈ fs, f.toNat < 4) ∧
    es.map (·.mesh_object_group_index.toNat) =
      d.mesh_object_groups.zipIdx.flatMap (fun (g, i) => List.replicate g.entry_flags.length i)
  unk1 : m.unk1 = 0

theorem C66_meshex (sphereOf : List Mesh.BoundingSphere → Mesh.BoundingSphere) (d : MeshExData) (bytes : Bytes)
    (h : d.write sphereOf = .ok bytes) (h1 : d.mesh_object_groups.length < 2 ^ 32)
    (h2 : (d.mesh_object_groups.map (·.entry_flags.length)).sum < 2 ^ 32) :
    ∃ m, MeshEx.read bytes = .ok m ∧ SavedMeshEx sphereOf d m := by
  unfold MeshExData.write at h
  split at h
  · cases h
  rename_i b hb
  cases h
  obtain ⟨groups, entries, flags, e1, e2, e3, l1, _, l2, l3⟩ := C33_entries sphereOf d (Nat.le_of_lt h1)
  refine ⟨_, (C15_meshex_file _ _ hb (by rw [e2]; simp only [countOf, Option.getD_some]; omega)
    (by rw [e3]; simp only [countOf, Option.getD_some]; omega)
    (by rw [e1]; simp only [countOf, Option.getD_some]; omega)).2.2, ?_, ?_, ?_, rfl⟩
  · exact ⟨_, rfl, by decide +kernel⟩
  · refine ⟨_, rfl, ?_⟩
    intro g hg
    obtain ⟨t, _, rfl⟩ := List.mem_map.mp hg
    exact ⟨by simp, by simp⟩
  · refine ⟨entries, flags, e2, e3, l2, ?_, ?_, ?_⟩
    · intro e he
      cases e2
      simp only [List.mem_flatMap, List.mem_map] at he
      obtain ⟨_, _, _, _, rfl⟩ := he
      rfl
    · intro f hf
      cases e3
      simp only [List.mem_flatMap, List.mem_map] at hf
      obtain ⟨_, _, ⟨b1, b2⟩, _, rfl⟩ := hf
      cases b1 <;> cases b2 <;> decide
    · cases e2
      rw [List.map_flatMap]
      apply List.flatMap_congr
      rintro ⟨g, i⟩ hx
      have hi : i < d.mesh_object_groups.length := by
        have := (List.mem_zipIdx hx).2.1
        omega
      have : (UInt32.ofNat i).toNat = i := by simp; omega
      simp [this, List.map_const']

example : (∃ bytes, sampleMeshEx.write (fun _ => ⟨⟨0, 0, 0⟩, 0⟩) = .ok bytes) ∧
    sampleMeshEx.mesh_object_groups.length < 2 ^ 32 ∧
    (sampleMeshEx.mesh_object_groups.map (·.entry_flags.length)).sum < 2 ^ 32 :=
  ⟨isOk_iff.mp (by decide +kernel), by decide, by decide⟩

/-! ## Anim -/

/-- The type in the file. -/
def savedType : TrackValues → Anim.TrackTypeV2
  | .transform _ => .Transform
  | .uvTransform _ => .UvTransform
  | .float _ => .Float
  | .patternIndex _ => .PatternIndex
  | .boolean _ => .Boolean
  | .vector4 _ => .Vector4

/-- The largest number of frames which are not compressed. -/
def directFrames : TrackValues → Nat
  | .transform _ => 5
  | .uvTransform _ => 6
  | .float _ => 10
  | .patternIndex _ => 10
  | .boolean _ => 34
  | .vector4 _ => 7

structure SavedTrack (t : TrackData) (r : Anim.TrackV2) : Prop where
  name : r.name ≠ none
  frames : r.frame_count.toNat = t.values.len % 2 ^ 32
  type : r.flags.track_type = savedType t.values
  single : t.values.len ≤ 1 →
    r.flags.compression_type = if savedType t.values = .Transform then .ConstTransform else .Constant
  few : 1 < t.values.len → t.values.len ≤ directFrames t.values → r.flags.compression_type = .Direct
  many : directFrames t.values < t.values.len → r.flags.compression_type = .Compressed

structure SavedGroups (d : AnimData) (groups : List Anim.Group) : Prop where
  nodes : ∀ g ∈ groups, ∀ n ∈ g.nodes, n.name ≠ none
  tracks : List.Forall₂ SavedTrack (dataTracks d.groups) (fileTracks groups)

def SavedAnim (d : AnimData) : Anim → Prop
  | .V12 _ => False
  | .V20 a => d.minor_version = 0 ∧ a.final_frame_index = d.final_frame_index ∧ a.unk1 = 1 ∧ a.unk2 = 3 ∧
    (∃ c, a.name = some c ∧ c.bytes = []) ∧ SavedGroups d a.groups
  | .V21 a => d.minor_version = 1 ∧ a.final_frame_index = d.final_frame_index ∧ a.unk1 = 1 ∧ a.unk2 = 3 ∧
    (∃ c, a.name = some c ∧ c.bytes = []) ∧ a.unk_data = ⟨[], []⟩ ∧ SavedGroups d a.groups

theorem savedTrack (F : FloatOps) (n : Nat) (t : TrackData) : SavedTrack t (trackAt F n t) := by
  obtain ⟨name, cs, tf, values⟩ := t
  have hl : values.overhead / values.dataSize + 1 = directFrames values := by
    have ho := values.overhead_eq
    have hd : values.dataSize = match values with
        | .transform _ => 44
        | .uvTransform _ => 20
        | .float _ => 4
        | .patternIndex _ => 4
        | .boolean _ => 1
        | .vector4 _ => 16 := by
      cases values <;> rfl
    cases values <;> (simp only at ho hd; rw [ho, hd]; simp [directFrames])
  have h2 : 1 < directFrames values := by cases values <;> simp [directFrames]
  refine ⟨ssbhText_ne _, by simp [trackAt], by cases values <;> rfl, fun h => ?_, fun h h' => ?_, fun h => ?_⟩ <;>
    dsimp only at *
  · simp only [trackAt, inferOptimalCompressionType, if_pos h]
    cases values <;> rfl
  · simp only [trackAt, inferOptimalCompressionType, hl]
    rw [if_neg (by omega), if_neg (by omega)]
  · simp only [trackAt, inferOptimalCompressionType, hl]
    rw [if_neg (by omega), if_pos (by omega)]

theorem scanMap_forall₂ {g : Nat → α → β} {e : α → Bytes} {R : α → β → Prop} (h : ∀ n a, R a (g n a)) :
    ∀ (l : List α) (n : Nat), List.Forall₂ R l (scanMap g e n l)
  | [], _ => .nil
  | _ :: l, _ => .cons (h ..) (scanMap_forall₂ h l _)

theorem scanMap_mem {g : Nat → α → β} {e : α → Bytes} {b : β} : ∀ {l : List α} {n : Nat}, b ∈ scanMap g e n l →
    ∃ n a, b = g n a
  | _ :: _, _, h => by
    rcases List.mem_cons.mp h with rfl | h
    · exact ⟨_, _, rfl⟩
    · exact scanMap_mem h

theorem savedGroups (F : FloatOps) (d : AnimData) : SavedGroups d (groupsOf F d.groups) where
  nodes := by
    intro g hg n hn
    obtain ⟨_, _, rfl⟩ := scanMap_mem hg
    obtain ⟨_, _, rfl⟩ := scanMap_mem hn
    exact ssbhText_ne _
  tracks := by
    rw [fileTracks_groupsOf]
    exact scanMap_forall₂ (savedTrack F) _ _

theorem C66_anim (F : FloatOps) (d : AnimData) (bytes : Bytes) (h : d.write F = .ok bytes) :
    ∃ a, readAs Anim bytes = .ok a ∧ SavedAnim d a := by
  unfold AnimData.write at h
  split at h
  · cases h
  rename_i a ha
  refine ⟨a, C01_format_round_trip a bytes (liftWrite_ok.mp h), ?_⟩
  rw [create_eq] at ha
  split at ha
  · rename_i hv
    split at ha
    · split at ha
      · rename_i h0
        cases ha
        exact ⟨h0, rfl, rfl, rfl, ⟨_, rfl, by decide +kernel⟩, savedGroups F d⟩
      · rename_i h0
        cases ha
        exact ⟨hv.2.resolve_left h0, rfl, rfl, rfl, ⟨_, rfl, by decide +kernel⟩, rfl, savedGroups F d⟩
    · cases ha
  · cases ha

example : ∃ bytes, smallAnim.write simpleOps = .ok bytes := isOk_iff.mp (by decide +kernel)

end Verif.Props
