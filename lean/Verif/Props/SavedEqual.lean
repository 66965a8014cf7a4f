import Verif.Props.Compare
import Verif.Props.AnimEdits
import Verif.Props.AnimTracks
/-!
# C114: Saving data that a program made

When the data that is opened from a saved file is equal (`==`) to the data that was saved.
-/

namespace Verif.Props

/-- All texts of helper bones. -/
def hlpbTexts (d : HlpbData) : List String :=
  (d.aim_constraints.flatMap fun a =>
    [a.name, a.aim_bone_name1, a.aim_bone_name2, a.aim_type1, a.aim_type2, a.target_bone_name1, a.target_bone_name2]) ++
  d.orient_constraints.flatMap fun o =>
    [o.name, o.parent_bone_name1, o.parent_bone_name2, o.source_bone_name, o.target_bone_name]

/-- All texts of materials. -/
def matlTexts (d : MatlData) : List String :=
  d.entries.flatMap fun e => e.material_label :: e.shader_label :: e.textures.map (·.data)

/-- All texts of a mesh extension. -/
def meshExTexts (d : MeshExData) : List String :=
  d.mesh_object_groups.flatMap fun g => [g.mesh_object_full_name, g.mesh_object_name]

theorem cutNul_iff (s : String) : cutNul s = s ↔ NulFree s := by
  refine ⟨fun h => ?_, NulFree.cut⟩
  intro hm
  rw [← h, cutNul, String.toList_ofList] at hm
  have : ∀ l : List Char, '\x00' ∉ l.takeWhile (· ≠ '\x00') := by
    intro l
    induction l with
    | nil => simp
    | cons c l ih =>
      rw [List.takeWhile_cons]
      split
      · rename_i hc
        simp only [List.mem_cons, not_or]
        exact ⟨fun e => by simp [← e] at hc, ih⟩
      · simp
  exact this _ hm

theorem eq_cutNul_iff (s : String) : s = cutNul s ↔ NulFree s := eq_comm.trans (cutNul_iff s)

theorem eq_map_iff {f : α → α} : ∀ l : List α, l = l.map f ↔ ∀ a ∈ l, a = f a
  | [] => by simp
  | a :: l => by simp [eq_map_iff l]

theorem map_eq_map_map_iff {f : α → α} {g : α → β} (l : List α) : l.map g = (l.map f).map g ↔ ∀ a ∈ l, g a = g (f a) := by
  rw [List.map_map, List.map_inj_left]
  rfl

theorem all_map_congr {f : α → α} {n : α → Bool} (h : ∀ a, n (f a) = n a) (l : List α) : (l.map f).all n = l.all n := by
  rw [List.all_map]
  congr 1
  exact funext h

theorem C114_modl (d : ModlData) (bytes : Bytes) (h : d.write = .ok bytes) :
    ∃ d', ModlData.read bytes = .ok d' ∧
      (d = d' ↔ (d.major_version = 1 ∧ d.minor_version = 7) ∧ ∀ s ∈ modlTexts d, NulFree s) := by
  refine ⟨_, C45_modl d bytes h, ?_⟩
  obtain ⟨v, w, m, s, f, a, n, e⟩ := d
  simp only [mapModlText, ModlData.mk.injEq, eq_cutNul_iff, eq_map_iff, modlTexts]
  have ha : a = a.map cutNul ↔ ∀ s ∈ a.toList, NulFree s := by
    cases a <;> simp [eq_cutNul_iff]
  have he : (∀ x ∈ e, x = { x with mesh_object_name := cutNul x.mesh_object_name, material_label := cutNul x.material_label }) ↔
      ∀ s ∈ e.flatMap fun e => [e.mesh_object_name, e.material_label], NulFree s := by
    simp only [List.mem_flatMap, List.mem_cons, List.not_mem_nil, or_false]
    constructor
    · rintro h s ⟨x, hx, rfl | rfl⟩
      · exact (eq_cutNul_iff _).mp (congrArg ModlData.ModlEntryData.mesh_object_name (h x hx))
      · exact (eq_cutNul_iff _).mp (congrArg ModlData.ModlEntryData.material_label (h x hx))
    · intro h x hx
      rw [(h _ ⟨x, hx, .inl rfl⟩).cut, (h _ ⟨x, hx, .inr rfl⟩).cut]
  rw [ha, he]
  simp only [List.mem_cons, List.mem_append, List.not_mem_nil, or_false, or_imp, forall_and, forall_eq]
  tauto

theorem C114_hlpb (d : HlpbData) (bytes : Bytes) (h : d.write = .ok bytes) :
    ∃ d', HlpbData.read bytes = .ok d' ∧
      (d.eqR d' = true ↔ (d.major_version = 1 ∧ d.minor_version = 1) ∧ (∀ s ∈ hlpbTexts d, NulFree s) ∧ d.nanFree = true) := by
  refine ⟨_, C45_hlpb d bytes h, ?_⟩
  rw [C113_hlpb]
  obtain ⟨v, w, as, os⟩ := d
  have ha : ∀ a : HlpbData.AimConstraintData, a.plus = (mapAimText cutNul a).plus ↔
      ∀ s ∈ [a.name, a.aim_bone_name1, a.aim_bone_name2, a.aim_type1, a.aim_type2, a.target_bone_name1, a.target_bone_name2], NulFree s := by
    intro a
    simp [HlpbData.AimConstraintData.plus, mapAimText, eq_cutNul_iff]
  have ho : ∀ o : HlpbData.OrientConstraintData, o.plus = (mapOrientText cutNul o).plus ↔
      ∀ s ∈ [o.name, o.parent_bone_name1, o.parent_bone_name2, o.source_bone_name, o.target_bone_name], NulFree s := by
    intro o
    simp [HlpbData.OrientConstraintData.plus, mapOrientText, eq_cutNul_iff]
  simp only [HlpbData.plus, HlpbData.nanFree, HlpbData.mk.injEq, map_eq_map_map_iff, ha, ho, hlpbTexts,
    all_map_congr (f := mapAimText cutNul) (n := HlpbData.AimConstraintData.nanFree) (fun _ => rfl), all_map_congr (f := mapOrientText cutNul) (n := HlpbData.OrientConstraintData.nanFree) (fun _ => rfl), List.mem_append,
    List.mem_flatMap, or_imp, forall_and, forall_exists_index, and_imp]
  have sw1 {α : Type} {l : List α} {g : α → List String} : (∀ a ∈ l, ∀ s ∈ g a, NulFree s) ↔ ∀ s, ∀ a ∈ l, s ∈ g a → NulFree s :=
    ⟨fun h s a ha hs => h a ha s hs, fun h a ha s hs => h s a ha hs⟩
  rw [sw1, sw1]
  tauto

theorem C114_matl (d : MatlData) (bytes : Bytes) (h : d.write = .ok bytes) :
    ∃ d', MatlData.read bytes = .ok d' ∧ (d.eqR d' = true ↔ (∀ s ∈ matlTexts d, NulFree s) ∧ d.nanFree = true) := by
  obtain ⟨⟨h1, h2⟩, hr⟩ := C45_matl d bytes h
  refine ⟨_, hr, ?_⟩
  rw [C113_matl]
  obtain ⟨v, w, es⟩ := d
  have he : ∀ e : MatlData.MatlEntryData, e.plus = (mapEntryText cutNul e).plus ↔
      ∀ s ∈ e.material_label :: e.shader_label :: e.textures.map (·.data), NulFree s := by
    intro e
    have ht : e.textures = (e.textures.map fun t => { t with data := cutNul t.data }) ↔ ∀ s ∈ e.textures.map (·.data), NulFree s := by
      rw [eq_map_iff]
      simp only [List.mem_map, forall_exists_index, and_imp, forall_apply_eq_imp_iff₂]
      refine forall_congr' fun t => imp_congr_right fun _ => ?_
      rw [← eq_cutNul_iff]
      exact ⟨fun h => congrArg MatlData.ParamData.data h, fun h => by rw [← h]⟩
    simp only [MatlData.MatlEntryData.plus, mapEntryText, MatlData.MatlEntryData.mk.injEq, eq_cutNul_iff, ht, List.mem_cons, or_imp,
      forall_and, forall_eq]
    tauto
  simp only at h1 h2
  simp only [MatlData.plus, MatlData.nanFree, MatlData.mk.injEq, map_eq_map_map_iff, he, matlTexts, h1, h2,
    all_map_congr (f := mapEntryText cutNul) (n := MatlData.MatlEntryData.nanFree) (fun _ => rfl), List.mem_flatMap, forall_exists_index, and_imp]
  constructor
  · rintro ⟨⟨_, _, h⟩, n, _⟩
    exact ⟨fun s a ha hs => h a ha s hs, n⟩
  · rintro ⟨h, n⟩
    exact ⟨⟨trivial, trivial, fun a ha s hs => h s a ha hs⟩, n, n⟩

theorem C114_skel (O : MatOps Matrix4x4) (d : SkelData) (bytes : Bytes) (h : d.write O = .ok bytes) :
    ∃ d', SkelData.read bytes = .ok d' ∧
      (d.eqR d' = true ↔ (d.major_version = 1 ∧ d.minor_version = 0) ∧ (∀ b ∈ d.bones, NulFree b.name) ∧
        (∀ b ∈ d.bones, ∀ p, b.parent_index = some p → p < 32768) ∧ d.nanFree = true) := by
  refine ⟨_, C45_skel O d bytes h, ?_⟩
  rw [C113_skel]
  obtain ⟨v, w, bs⟩ := d
  have hp : ∀ p : Option Nat, p = storedParent p ↔ ∀ i, p = some i → i < 32768 := by
    intro p
    cases p with
    | none => simp [storedParent]
    | some i =>
      simp only [storedParent, Option.some.injEq, forall_eq']
      split
      · simp only [Option.some.injEq]; omega
      · simp only [reduceCtorEq, false_iff]; omega
  have hb : ∀ b : SkelData.BoneData,
      b.plus = SkelData.BoneData.plus { b with name := cutNul b.name, parent_index := storedParent b.parent_index } ↔
      NulFree b.name ∧ ∀ p, b.parent_index = some p → p < 32768 := by
    intro b
    simp only [SkelData.BoneData.plus, SkelData.BoneData.mk.injEq, eq_cutNul_iff, hp]
    tauto
  simp only [SkelData.plus, SkelData.nanFree, SkelData.mk.injEq, map_eq_map_map_iff, hb, forall_and,
    all_map_congr (f := fun b : SkelData.BoneData => { b with name := cutNul b.name, parent_index := storedParent b.parent_index })
      (n := SkelData.BoneData.nanFree) (fun _ => rfl)]
  tauto

/-- For fewer than 2^32 groups and flags. -/
theorem C114_meshex (sphereOf : List Mesh.BoundingSphere → Mesh.BoundingSphere) (d : MeshExData) (bytes : Bytes)
    (h : d.write sphereOf = .ok bytes) (hg : d.mesh_object_groups.length < 2 ^ 32)
    (hf : (d.mesh_object_groups.map (·.entry_flags.length)).sum < 2 ^ 32) :
    ∃ d', MeshExData.read bytes = .ok d' ∧ (d.eqR d' = true ↔ (∀ s ∈ meshExTexts d, NulFree s) ∧ d.nanFree = true) := by
  refine ⟨_, C45_meshex sphereOf d bytes h hg hf, ?_⟩
  rw [C113_meshex]
  obtain ⟨gs⟩ := d
  have he : ∀ g : MeshExData.MeshObjectGroupData, g.plus = MeshExData.MeshObjectGroupData.plus
      { g with mesh_object_full_name := cutNul g.mesh_object_full_name, mesh_object_name := cutNul g.mesh_object_name } ↔
      ∀ s ∈ [g.mesh_object_full_name, g.mesh_object_name], NulFree s := by
    intro g
    simp [MeshExData.MeshObjectGroupData.plus, eq_cutNul_iff]
  simp only [MeshExData.plus, MeshExData.nanFree, MeshExData.mk.injEq, map_eq_map_map_iff, he, meshExTexts,
    all_map_congr (f := fun g : MeshExData.MeshObjectGroupData =>
      { g with mesh_object_full_name := cutNul g.mesh_object_full_name, mesh_object_name := cutNul g.mesh_object_name })
      (n := MeshExData.MeshObjectGroupData.nanFree) (fun _ => rfl), List.mem_flatMap, forall_exists_index, and_imp]
  constructor
  · rintro ⟨h, n, _⟩
    exact ⟨fun s a ha hs => h a ha s hs, n⟩
  · rintro ⟨h, n⟩
    exact ⟨fun a ha s hs => h s a ha hs, n, n⟩

/-! ## Animations -/

/-- Tracks that are saved without loss whatever the values are: few frames, or switches. -/
def ExactTrack (t : AnimData.TrackData) : Prop := t.values.len ≤ fewFrames t.values ∨ ∃ vs, t.values = .boolean vs

/-- Scale compensation is only saved in tracks of transforms with a frame. -/
def KeepsScale (t : AnimData.TrackData) : Prop := t.compensate_scale = true → ∃ x xs, t.values = .transform (x :: xs)

theorem exact_kept {F : FloatOps} {t t' : AnimData.TrackData} (h : Kept F t t') (he : ExactTrack t) : t'.values = t.values := by
  rcases he with he | ⟨vs, he⟩
  · exact h.exact (few_uncompressed he)
  · by_cases hc : inferOptimalCompressionType t.values = .Compressed
    · obtain ⟨b, hw, hr⟩ := h.decoded
      obtain ⟨b', hw', hr'⟩ := C22_boolean_lossless F vs t.compensate_scale
      rw [he] at hw hr hc
      rw [hc] at hw hr
      rw [hw'] at hw
      cases hw
      have := hr' []
      rw [List.append_nil] at this
      have hr2 := hr.symm.trans this
      rw [he]
      exact congrArg Prod.fst (Except.ok.inj hr2)
    · exact h.exact hc

theorem kept_plus {F : FloatOps} {t t' : AnimData.TrackData} (h : Kept F t t') (he : ExactTrack t) :
    (t.plus = t'.plus ↔ NulFree t.name ∧ KeepsScale t) ∧ t'.nanFree = t.nanFree := by
  have hv := exact_kept h he
  refine ⟨?_, by unfold AnimData.TrackData.nanFree; rw [hv]⟩
  simp only [AnimData.TrackData.plus, AnimData.TrackData.mk.injEq, hv, h.flags, h.name, eq_cutNul_iff, h.compensate, and_true]
  refine and_congr_right fun _ => ?_
  unfold KeepsScale
  cases hc : t.compensate_scale <;> cases hv : t.values with
  | transform l => cases l <;> simp
  | _ => simp

theorem map_plus_iff {f : α → β} {g : α → β} {P : α → Prop} (l : List α) (h : ∀ a ∈ l, f a = g a ↔ P a) :
    l.map f = l.map g ↔ ∀ a ∈ l, P a := by
  rw [List.map_inj_left]
  exact forall_congr' fun a => forall_congr' fun ha => h a ha

theorem all_congr_mem {f : α → α} {n : α → Bool} : ∀ l : List α, (∀ a ∈ l, n (f a) = n a) → (l.map f).all n = l.all n
  | [], _ => rfl
  | a :: l, h => by
    rw [List.map_cons, List.all_cons, List.all_cons, h a (List.mem_cons_self ..), all_congr_mem l fun b hb => h b (List.mem_cons_of_mem _ hb)]

/-- For fewer than 2^32 frames in each track and less than 4 GiB of track data. -/
theorem C114_anim (F : FloatOps) (d : AnimData) (bytes : Bytes) (h : d.write F = .ok bytes)
    (hl : ∀ t ∈ dataTracks d.groups, t.values.len < 2 ^ 32)
    (hb : ∀ anim groups buffer, AnimData.create F d = .ok anim → parts anim = some (groups, buffer) → buffer.length < 2 ^ 32)
    (hx : ∀ t ∈ dataTracks d.groups, ExactTrack t) :
    ∃ d', AnimData.read F bytes = some (.ok d') ∧
      (d.eqR d' = true ↔ (∀ g ∈ d.groups, ∀ n ∈ g.nodes, NulFree n.name) ∧
        (∀ t ∈ dataTracks d.groups, NulFree t.name ∧ KeepsScale t) ∧ d.nanFree = true) := by
  obtain ⟨f, hf, hr⟩ := C45_anim F d bytes h hl hb
  refine ⟨_, hr, ?_⟩
  rw [C113_anim]
  obtain ⟨v, w, fin, gs⟩ := d
  have hx' : ∀ g ∈ gs, ∀ n ∈ g.nodes, ∀ t ∈ n.tracks, ExactTrack t := fun g hg n hn t ht =>
    hx t (List.mem_flatMap.mpr ⟨g, hg, List.mem_flatMap.mpr ⟨n, hn, ht⟩⟩)
  have hp : gs.map AnimData.GroupData.plus = (mapTracks f gs).map AnimData.GroupData.plus ↔
      ∀ g ∈ gs, ∀ n ∈ g.nodes, NulFree n.name ∧ ∀ t ∈ n.tracks, NulFree t.name ∧ KeepsScale t := by
    unfold mapTracks
    rw [List.map_map]
    refine map_plus_iff gs fun g hg => ?_
    simp only [Function.comp, AnimData.GroupData.plus, AnimData.GroupData.mk.injEq, true_and, List.map_map]
    refine map_plus_iff g.nodes fun n hn => ?_
    simp only [Function.comp, AnimData.NodeData.plus, AnimData.NodeData.mk.injEq, List.map_map, eq_cutNul_iff]
    refine and_congr_right fun _ => ?_
    exact map_plus_iff n.tracks fun t ht => (kept_plus (hf t) (hx' g hg n hn t ht)).1
  have hn : (mapTracks f gs).all AnimData.GroupData.nanFree = gs.all AnimData.GroupData.nanFree := by
    refine all_congr_mem gs fun g hg => ?_
    refine all_congr_mem (f := fun n : AnimData.NodeData => ⟨cutNul n.name, n.tracks.map f⟩) g.nodes fun n hn => ?_
    exact all_congr_mem n.tracks fun t ht => (kept_plus (hf t) (hx' g hg n hn t ht)).2
  simp only [AnimData.plus, AnimData.nanFree, AnimData.mk.injEq, hp, hn, true_and, and_self]
  constructor
  · rintro ⟨h, n⟩
    refine ⟨fun g hg n hn => (h g hg n hn).1, fun t ht => ?_, n⟩
    obtain ⟨g, hg, ht⟩ := List.mem_flatMap.mp ht
    obtain ⟨n, hn, ht⟩ := List.mem_flatMap.mp ht
    exact (h g hg n hn).2 t ht
  · rintro ⟨h, h', n⟩
    exact ⟨fun g hg n hn => ⟨h g hg n hn, fun t ht =>
      h' t (List.mem_flatMap.mpr ⟨g, hg, List.mem_flatMap.mpr ⟨n, hn, ht⟩⟩)⟩, n⟩

-- data that is saved and equal afterwards, and data that is not: the version, a text with NUL, a NaN
example : ∃ bytes d', (zeroAim 0x80000000).write = .ok bytes ∧ HlpbData.read bytes = .ok d' ∧ (zeroAim 0x80000000).eqR d' = true := by
  obtain ⟨bytes, h⟩ : ∃ b, (zeroAim 0x80000000).write = .ok b := isOk_iff.mp (by decide +kernel)
  obtain ⟨d', hr, he⟩ := C114_hlpb _ _ h
  exact ⟨bytes, d', h, hr, he.mpr ⟨by decide, by decide +kernel, by decide +kernel⟩⟩
example : ∃ bytes, (zeroAim 0x7fc00000).write = .ok bytes := isOk_iff.mp (by decide +kernel)
example : (zeroAim 0x7fc00000).nanFree = false := by decide +kernel
example : ¬∀ s ∈ modlTexts { sampleModl with mesh_file_name := "a\x00b" }, NulFree s := by decide +kernel
example : ∃ bytes, ({ sampleModl with mesh_file_name := "a\x00b" } : ModlData).write = .ok bytes := isOk_iff.mp (by decide +kernel)
example : (∀ s ∈ modlTexts sampleModl, NulFree s) ∧ (∀ s ∈ matlTexts sampleMatl, NulFree s) ∧ sampleMatl.nanFree = true ∧
    sampleMatl.entries ≠ [] := by decide +kernel
example : (∀ b ∈ chainSkel.bones, NulFree b.name) ∧ chainSkel.nanFree = true ∧ chainSkel.bones ≠ [] := by decide +kernel
example : (∀ s ∈ meshExTexts sampleMeshEx, NulFree s) ∧ sampleMeshEx.mesh_object_groups ≠ [] := by decide +kernel
-- the tracks of an animation that meet the conditions, and one which does not keep its flag
example : ∃ bytes, smallAnim.write simpleOps = .ok bytes := isOk_iff.mp (by decide +kernel)
example : smallAnim.nanFree = true ∧ (∀ g ∈ smallAnim.groups, ∀ n ∈ g.nodes, NulFree n.name) ∧ dataTracks smallAnim.groups ≠ [] ∧
    (∀ t ∈ dataTracks smallAnim.groups, NulFree t.name ∧ t.compensate_scale = false ∧ t.values.len ≤ fewFrames t.values) := by
  decide +kernel
example : ¬KeepsScale ⟨"a", true, ⟨true, false, false, true⟩, .float [3]⟩ := by
  intro h
  obtain ⟨_, _, h⟩ := h rfl
  cases h

end Verif.Props
