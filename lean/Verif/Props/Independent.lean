import Verif.Props.Limits
import Verif.Props.SkelData
/-!
# Parts of files that do not depend on each other

C111: what becomes of a track, a mesh object or the matrices of a bone depends on nothing else in the file.
-/

namespace Verif
namespace Props
open AnimData MeshData SkelData

/-! ## Tracks -/

/-- The track at a position: number of the group, of the node in it, and of the track in that. -/
def trackIn (groups : List GroupData) (i j k : Nat) : Option TrackData :=
  (groups[i]?).bind fun g => (g.nodes[j]?).bind fun n => n.tracks[k]?

theorem trackIn_map (f : TrackData → TrackData) (groups : List GroupData) (i j k : Nat) :
    trackIn (mapTracks f groups) i j k = (trackIn groups i j k).map f := by
  simp only [trackIn, mapTracks, List.getElem?_map]
  cases groups[i]? with
  | none => rfl
  | some g =>
    simp only [Option.map_some, Option.bind_some, List.getElem?_map]
    cases g.nodes[j]? with
    | none => rfl
    | some n => simp only [Option.map_some, Option.bind_some, List.getElem?_map]

/-- What is kept determines the track. -/
theorem kept_unique {F : FloatOps} {t a b : TrackData} (ha : Kept F t a) (hb : Kept F t b) : a = b := by
  obtain ⟨x, hx, h1⟩ := ha.decoded
  obtain ⟨y, hy, h2⟩ := hb.decoded
  rw [hx] at hy
  cases hy
  rw [h1] at h2
  cases a
  cases b
  simp only [Except.ok.injEq, Prod.mk.injEq] at h2
  have n1 := ha.name.trans hb.name.symm
  have n2 := ha.flags.trans hb.flags.symm
  simp only at n1 n2 h2
  rw [n1, n2, h2.1, h2.2]

/-- C111: a track that is saved with two animations, at any positions, is the same in both when they are opened, whatever else they
have, and whichever of the two versions they have. -/
theorem C111_track (F : FloatOps) (d e d' e' : AnimData) (a b : Bytes) (i j k i' j' k' : Nat)
    (ha : d.write F = .ok a) (hb : e.write F = .ok b)
    (hd : ∀ t ∈ dataTracks d.groups, t.values.len < 2 ^ 32) (hda : a.length < 2 ^ 32)
    (he : ∀ t ∈ dataTracks e.groups, t.values.len < 2 ^ 32) (heb : b.length < 2 ^ 32)
    (hr : AnimData.read F a = some (.ok d')) (hr' : AnimData.read F b = some (.ok e'))
    (ht : trackIn d.groups i j k = trackIn e.groups i' j' k') :
    trackIn d'.groups i j k = trackIn e'.groups i' j' k' := by
  obtain ⟨f, hf, h1⟩ := C45_anim_file F d a ha hd hda
  obtain ⟨g, hg, h2⟩ := C45_anim_file F e b hb he heb
  rw [h1] at hr
  rw [h2] at hr'
  cases hr
  cases hr'
  rw [trackIn_map, trackIn_map, ht]
  exact congrArg (Option.map · _) (funext fun t => kept_unique (hf t) (hg t))

/-- The track at a position of a file. -/
def fileTrackIn (groups : List Anim.Group) (i j k : Nat) : Option Anim.TrackV2 :=
  (groups[i]?).bind fun g => (g.nodes[j]?).bind fun n => n.tracks[k]?

/-- The bytes in the range of a track. -/
def rangeBytes (buffer : Bytes) (t : Anim.TrackV2) : Bytes := (buffer.drop t.data_offset.toNat).take t.data_size.toNat

theorem mapExcept_get {f : α → Except ε β} : ∀ {xs : List α} {ys : List β}, mapExcept f xs = .ok ys →
    ∀ i : Nat, (∀ x, xs[i]? = some x → ∃ y, f x = .ok y ∧ ys[i]? = some y) ∧ (xs[i]? = none → ys[i]? = none)
  | [], ys, h, i => by
    cases h
    exact ⟨fun x hx => by simp at hx, fun _ => by simp⟩
  | x :: xs, ys, h, i => by
    simp only [mapExcept] at h
    split at h
    · cases h
    rename_i y hy
    split at h
    · cases h
    rename_i zs hz
    cases h
    cases i with
    | zero =>
      refine ⟨fun u hu => ?_, fun hu => by simp at hu⟩
      simp only [List.getElem?_cons_zero, Option.some.injEq] at hu
      subst hu
      exact ⟨y, hy, rfl⟩
    | succ i => simpa only [List.getElem?_cons_succ] using mapExcept_get hz i

theorem groups_of_opened {F : FloatOps} {a : Anim} {d : AnimData} {groups : List Anim.Group} {buffer : Bytes}
    (hp : parts a = some (groups, buffer)) (h : ofAnim F a = some (.ok d)) :
    readGroupsV20 F groups buffer = .ok d.groups := by
  cases a with
  | V12 a => cases hp
  | V20 a =>
    cases hp
    simp only [ofAnim, Option.some.injEq] at h
    cases hg : readGroupsV20 F a.groups a.buffer with
    | error e => rw [hg] at h; cases h
    | ok gs => rw [hg] at h; cases h; rfl
  | V21 a =>
    cases hp
    simp only [ofAnim, Option.some.injEq] at h
    cases hg : readGroupsV20 F a.groups a.buffer with
    | error e => rw [hg] at h; cases h
    | ok gs => rw [hg] at h; cases h; rfl

/-- The opened track at a position is the one that is read from the track of the file there. -/
theorem opened_track {F : FloatOps} {groups : List Anim.Group} {buffer : Bytes} {gs : List GroupData}
    (h : readGroupsV20 F groups buffer = .ok gs) {i j k : Nat} {t : Anim.TrackV2}
    (ht : fileTrackIn groups i j k = some t) : ∃ x, readTrack F buffer t = .ok x ∧ trackIn gs i j k = some x := by
  simp only [fileTrackIn, Option.bind_eq_some_iff] at ht
  obtain ⟨g, hg, n, hn, ht⟩ := ht
  obtain ⟨g', h1, hg'⟩ := (mapExcept_get h i).1 g hg
  simp only [readGroup] at h1
  split at h1
  · cases h1
  rename_i nodes h2
  cases h1
  obtain ⟨n', h3, hn'⟩ := (mapExcept_get h2 j).1 n hn
  simp only [readNode] at h3
  split at h3
  · cases h3
  rename_i tracks h4
  cases h3
  obtain ⟨x, h5, hx⟩ := (mapExcept_get h4 k).1 t ht
  exact ⟨x, h5, by simp only [trackIn, hg', hn', hx, Option.bind_some]⟩

/-- What is read for a track depends on its fields and the bytes in its range. -/
theorem readTrack_bytes {F : FloatOps} {buffer buffer' : Bytes} {t t' : Anim.TrackV2} {x x' : TrackData}
    (h : readTrack F buffer t = .ok x) (h' : readTrack F buffer' t' = .ok x')
    (hn : toStringLossy t.name = toStringLossy t'.name) (hf : t.flags = t'.flags) (hc : t.frame_count = t'.frame_count)
    (ht : t.transform_flags = t'.transform_flags) (hb : rangeBytes buffer t = rangeBytes buffer' t') : x = x' := by
  simp only [readTrack] at h h'
  simp only [rangeBytes] at hb
  split at h
  · split at h'
    · rw [hb, hf, hc] at h
      split at h
      · cases h
      · rename_i v c hv
        rw [hv] at h'
        cases h
        cases h'
        rw [hn, ht]
    · cases h'
  · cases h

/-- C111: what is opened for a track of any file of version 2.0 or 2.1, also of another program, depends only on its name, type,
compression, number of frames, flags, and on the bytes in its range. It does not matter where the range is, what is
around it, whether other tracks use the same bytes, or what other tracks there are. -/
theorem C111_track_bytes (F : FloatOps) (a b : Anim) (d e : AnimData) (ga gb : List Anim.Group) (ba bb : Bytes)
    (pa : parts a = some (ga, ba)) (pb : parts b = some (gb, bb)) (ha : ofAnim F a = some (.ok d))
    (hb : ofAnim F b = some (.ok e)) (i j k i' j' k' : Nat) (t t' : Anim.TrackV2)
    (ht : fileTrackIn ga i j k = some t) (ht' : fileTrackIn gb i' j' k' = some t')
    (hn : toStringLossy t.name = toStringLossy t'.name) (hf : t.flags = t'.flags) (hc : t.frame_count = t'.frame_count)
    (hm : t.transform_flags = t'.transform_flags) (hr : rangeBytes ba t = rangeBytes bb t') :
    (trackIn d.groups i j k).isSome ∧ trackIn d.groups i j k = trackIn e.groups i' j' k' := by
  obtain ⟨x, hx, h1⟩ := opened_track (groups_of_opened pa ha) ht
  obtain ⟨y, hy, h2⟩ := opened_track (groups_of_opened pb hb) ht'
  rw [h1, h2, readTrack_bytes hx hy hn hf hc hm hr]
  exact ⟨rfl, rfl⟩

/-- The same file with only one track. -/
def onlyTrack (t : Anim.TrackV2) : Anim → Anim
  | .V12 a => .V12 a
  | .V20 a => .V20 { a with groups := [⟨.Transform, [⟨none, [t]⟩]⟩] }
  | .V21 a => .V21 { a with groups := [⟨.Transform, [⟨none, [t]⟩]⟩] }

theorem mapExcept_ok_iff {f : α → Except ε β} : ∀ {xs : List α},
    (∃ ys, mapExcept f xs = .ok ys) ↔ ∀ x ∈ xs, ∃ y, f x = .ok y
  | [] => ⟨fun _ _ hx => (nomatch hx), fun _ => ⟨[], rfl⟩⟩
  | x :: xs => by
    constructor
    · rintro ⟨ys, h⟩ u hu
      simp only [mapExcept] at h
      split at h
      · cases h
      rename_i y hy
      split at h
      · cases h
      rename_i zs hz
      rcases List.mem_cons.mp hu with rfl | hu
      · exact ⟨y, hy⟩
      · exact mapExcept_ok_iff.mp ⟨zs, hz⟩ u hu
    · intro h
      obtain ⟨y, hy⟩ := h x List.mem_cons_self
      obtain ⟨zs, hz⟩ := mapExcept_ok_iff.mpr fun u hu => h u (List.mem_cons_of_mem _ hu)
      exact ⟨y :: zs, by simp only [mapExcept, hy, hz]⟩

theorem readNode_ok_iff {F : FloatOps} {buffer : Bytes} {n : Anim.Node} :
    (∃ y, readNode F buffer n = .ok y) ↔ ∀ t ∈ n.tracks, ∃ y, readTrack F buffer t = .ok y := by
  rw [← mapExcept_ok_iff]
  unfold readNode
  constructor
  · rintro ⟨y, h⟩
    split at h
    · cases h
    · rename_i ts hts; exact ⟨ts, hts⟩
  · rintro ⟨ts, hts⟩
    exact ⟨_, by rw [hts]⟩

theorem readGroup_ok_iff {F : FloatOps} {buffer : Bytes} {g : Anim.Group} :
    (∃ y, readGroup F buffer g = .ok y) ↔ ∀ t ∈ g.nodes.flatMap (·.tracks), ∃ y, readTrack F buffer t = .ok y := by
  have : (∃ y, readGroup F buffer g = .ok y) ↔ ∃ ys, mapExcept (readNode F buffer) g.nodes = .ok ys := by
    unfold readGroup
    constructor
    · rintro ⟨y, h⟩
      split at h
      · cases h
      · rename_i ts hts; exact ⟨ts, hts⟩
    · rintro ⟨ts, hts⟩
      exact ⟨_, by rw [hts]⟩
  rw [this, mapExcept_ok_iff]
  simp only [readNode_ok_iff, List.mem_flatMap]
  exact ⟨fun h t ⟨n, hn, ht⟩ => h n hn t ht, fun h n hn t ht => h t ⟨n, hn, ht⟩⟩

theorem readGroups_ok_iff {F : FloatOps} {buffer : Bytes} {groups : List Anim.Group} :
    (∃ y, readGroupsV20 F groups buffer = .ok y) ↔ ∀ t ∈ fileTracks groups, ∃ y, readTrack F buffer t = .ok y := by
  unfold readGroupsV20
  rw [mapExcept_ok_iff]
  simp only [readGroup_ok_iff, fileTracks, List.mem_flatMap]
  exact ⟨fun h t ⟨g, hg, n, hn, ht⟩ => h g hg t ⟨n, hn, ht⟩, fun h g hg t ⟨n, hn, ht⟩ => h t ⟨g, hg, n, hn, ht⟩⟩

theorem opens_iff {F : FloatOps} {a : Anim} {groups : List Anim.Group} {buffer : Bytes} (hp : parts a = some (groups, buffer)) :
    (∃ d, ofAnim F a = some (.ok d)) ↔ ∀ t ∈ fileTracks groups, ∃ y, readTrack F buffer t = .ok y := by
  rw [← readGroups_ok_iff]
  constructor
  · rintro ⟨d, h⟩
    exact ⟨_, groups_of_opened hp h⟩
  · rintro ⟨y, h⟩
    cases a with
    | V12 a => cases hp
    | V20 a => cases hp; exact ⟨_, by simp only [ofAnim, h]; rfl⟩
    | V21 a => cases hp; exact ⟨_, by simp only [ofAnim, h]; rfl⟩

/-- C111: a file can be opened exactly if it can be opened with each of its tracks alone. -/
theorem C111_opens (F : FloatOps) (a : Anim) (groups : List Anim.Group) (buffer : Bytes) (hp : parts a = some (groups, buffer)) :
    (∃ d, ofAnim F a = some (.ok d)) ↔ ∀ t ∈ fileTracks groups, ∃ d, ofAnim F (onlyTrack t a) = some (.ok d) := by
  rw [opens_iff hp]
  have : ∀ t, (∃ d, ofAnim F (onlyTrack t a) = some (.ok d)) ↔ ∃ y, readTrack F buffer t = .ok y := by
    intro t
    have hq : parts (onlyTrack t a) = some ([⟨.Transform, [⟨none, [t]⟩]⟩], buffer) := by
      cases a with
      | V12 a => cases hp
      | V20 a => cases hp; rfl
      | V21 a => cases hp; rfl
    rw [opens_iff hq]
    simp [fileTracks]
  simp only [this]

/-! ## Mesh objects -/

/-- C111: a mesh object that is saved with two meshes of the same version, at any positions, is the same in both when they are opened,
whatever other objects they have, as long as no two objects of a mesh have the same name and subindex. -/
theorem C111_object (F : FloatConv) (bounds : List (Vector F32 3) → Mesh.BoundingInfo) (d e d' e' : MeshData) (a b : Bytes)
    (i i' : Nat) (ha : d.write F bounds = .ok a) (hb : e.write F bounds = .ok b) (hla : a.length < 2 ^ 32)
    (hlb : b.length < 2 ^ 32) (hv : d.minor_version = e.minor_version)
    (hd : d.objects.Pairwise fun a b => ¬ (cutNul a.name = cutNul b.name ∧ a.subindex = b.subindex))
    (he : e.objects.Pairwise fun a b => ¬ (cutNul a.name = cutNul b.name ∧ a.subindex = b.subindex))
    (hr : MeshData.read F a = .ok d') (hr' : MeshData.read F b = .ok e') (ho : d.objects[i]? = e.objects[i']?) :
    d'.objects[i]? = e'.objects[i']? := by
  rw [C45_mesh F bounds d a ha hla hd] at hr
  rw [C45_mesh F bounds e b hb hlb he] at hr'
  cases hr
  cases hr'
  simp only [List.getElem?_map, ho, hv]

/-! ## Bones -/

/-- The bone with this index is met when following parents from `bone`. -/
def IsAncestor (bones : List BoneData) (bone : BoneData) (i : Nat) : Prop := ∃ n, follow bones bone.parent_index n = some i

theorem follow_parent {bones : List BoneData} {p : Nat} {parent : BoneData} (h : bones[p]? = some parent) :
    ∀ n, follow bones (some p) (n + 1) = follow bones parent.parent_index n
  | 0 => by simp [follow, h]
  | n + 1 => by
    have := follow_parent h n
    simp only [follow] at this ⊢
    rw [this]

theorem worldLoop_congr (O : MatOps Matrix4x4) {bones bones' : List BoneData} : ∀ (fuel : Nat) (bone : BoneData) (m : Matrix4x4)
    (visited : List Nat), (∀ i, IsAncestor bones bone i → bones[i]? = bones'[i]?) →
    worldLoop O bones fuel bone m visited = worldLoop O bones' fuel bone m visited
  | 0, _, _, _, _ => rfl
  | fuel + 1, bone, m, visited, h => by
    simp only [worldLoop]
    cases hp : bone.parent_index with
    | none => rfl
    | some p =>
      simp only
      split
      · rfl
      · rw [← h p ⟨0, by simp [follow, hp]⟩]
        cases hq : bones[p]? with
        | none => rfl
        | some parent =>
          simp only
          exact worldLoop_congr O fuel parent _ _ fun i ⟨n, hn⟩ => h i ⟨n + 1, by rw [hp, follow_parent hq, hn]⟩

/-- C111: the world transform of a bone, or that its parents are a cycle, depends only on the bone and its ancestors. -/
theorem C111_bone (O : MatOps Matrix4x4) (s s' : SkelData) (bone : BoneData)
    (h : ∀ i, IsAncestor s.bones bone i → s.bones[i]? = s'.bones[i]?) :
    worldTransform O s bone = worldTransform O s' bone := by
  obtain ⟨r, hr⟩ := C36_terminates O s bone
  obtain ⟨r', hr'⟩ := C36_terminates O s' bone
  have h1 := hr (s.bones.length + s'.bones.length + 1) (by omega)
  have h2 := hr' (s.bones.length + s'.bones.length + 1) (by omega)
  rw [worldLoop_congr O _ bone _ [] h, h2] at h1
  cases h1
  exact (hr _ (Nat.le_refl _)).trans (hr' _ (Nat.le_refl _)).symm

theorem toSkel_world {O : MatOps Matrix4x4} {s : SkelData} {a : Skel.V10Data} (h : s.toSkel O = some (.ok (.V10 a))) {k : Nat}
    {bone : BoneData} (hk : s.bones[k]? = some bone) : ∃ w, worldTransform O s bone = some (.ok w) ∧
      a.world_transforms[k]? = some w ∧ a.inv_world_transforms[k]? = some (O.inverse w) ∧
      a.transforms[k]? = some bone.transform ∧ a.inv_transforms[k]? = some (O.inverse bone.transform) := by
  simp only [toSkel] at h
  split at h
  · cases h
  · cases h
  rename_i world hw
  cases h
  have hc := collect_ok.mp hw
  have hk' := congrArg (·[k]?) hc
  simp only [List.getElem?_map, hk, Option.map_some] at hk'
  cases hq : world[k]? with
  | none => rw [hq] at hk'; cases hk'
  | some w =>
    rw [hq] at hk'
    simp only [Option.map_some, Option.some.injEq] at hk'
    exact ⟨w, hk', rfl, by simp [List.getElem?_map, hq], by simp [List.getElem?_map, hk], by simp [List.getElem?_map, hk]⟩

/-- C111: the four matrices of a bone in a saved file depend only on the bone and its ancestors. -/
theorem C111_bone_file (O : MatOps Matrix4x4) (s s' : SkelData) (a a' : Skel.V10Data) (h : s.toSkel O = some (.ok (.V10 a)))
    (h' : s'.toSkel O = some (.ok (.V10 a'))) (k k' : Nat) (bone : BoneData) (hk : s.bones[k]? = some bone)
    (hk' : s'.bones[k']? = some bone) (hs : ∀ i, IsAncestor s.bones bone i → s.bones[i]? = s'.bones[i]?) :
    (a.world_transforms[k]?).isSome ∧ a.world_transforms[k]? = a'.world_transforms[k']? ∧
      a.inv_world_transforms[k]? = a'.inv_world_transforms[k']? ∧ a.transforms[k]? = a'.transforms[k']? ∧
      a.inv_transforms[k]? = a'.inv_transforms[k']? := by
  obtain ⟨w, h0, h1, h2, h3, h4⟩ := toSkel_world h hk
  obtain ⟨w', g0, g1, g2, g3, g4⟩ := toSkel_world h' hk'
  rw [C111_bone O s s' bone hs, g0] at h0
  cases h0
  rw [h1, h2, h3, h4, g1, g2, g3, g4]
  exact ⟨rfl, rfl, rfl, rfl, rfl⟩

/-- C111: changing a bone changes no matrix of bones that do not have it as an ancestor. -/
theorem C111_bone_edit (O : MatOps Matrix4x4) (s : SkelData) (c : Nat) (new : BoneData) (a a' : Skel.V10Data)
    (h : s.toSkel O = some (.ok (.V10 a)))
    (h' : ({ s with bones := s.bones.set c new } : SkelData).toSkel O = some (.ok (.V10 a'))) (k : Nat) (bone : BoneData)
    (hk : s.bones[k]? = some bone) (hc : k ≠ c) (hn : ¬ IsAncestor s.bones bone c) :
    a.world_transforms[k]? = a'.world_transforms[k]? ∧ a.inv_world_transforms[k]? = a'.inv_world_transforms[k]? ∧
      a.transforms[k]? = a'.transforms[k]? ∧ a.inv_transforms[k]? = a'.inv_transforms[k]? :=
  (C111_bone_file O s _ a a' h h' k k bone hk (by simp [List.getElem?_set_ne hc.symm, hk]) fun i hi => by
    have : c ≠ i := fun e => hn (e ▸ hi)
    simp [List.getElem?_set_ne this]).2

/-- C111: adding bones at the end changes no matrix of the others, if no parent was missing. -/
theorem C111_bone_added (O : MatOps Matrix4x4) (s : SkelData) (more : List BoneData) (a a' : Skel.V10Data)
    (h : s.toSkel O = some (.ok (.V10 a)))
    (h' : ({ s with bones := s.bones ++ more } : SkelData).toSkel O = some (.ok (.V10 a'))) (k : Nat) (bone : BoneData)
    (hk : s.bones[k]? = some bone) (hn : ∀ i, IsAncestor s.bones bone i → i < s.bones.length) :
    a.world_transforms[k]? = a'.world_transforms[k]? ∧ a.inv_world_transforms[k]? = a'.inv_world_transforms[k]? ∧
      a.transforms[k]? = a'.transforms[k]? ∧ a.inv_transforms[k]? = a'.inv_transforms[k]? :=
  (C111_bone_file O s _ a a' h h' k k bone hk
    (by simp [List.getElem?_append_left (List.getElem?_eq_some_iff.mp hk).1, hk])
    fun i hi => by simp [List.getElem?_append_left (hn i hi)]).2

/-! ## Examples -/

/-- The second track of `smallAnim` as the first track of the second group. -/
def otherAnim : AnimData := ⟨2, 0, 2, [⟨.Camera, []⟩, ⟨.Visibility, [⟨"m",
  [⟨"b", false, ⟨false, false, false, false⟩, .boolean [true]⟩, ⟨"c", false, ⟨true, true, true, true⟩, .float [3, 4, 5]⟩]⟩]⟩]⟩

example : trackIn smallAnim.groups 0 0 1 = trackIn otherAnim.groups 1 0 0 ∧ (trackIn smallAnim.groups 0 0 1).isSome ∧
    ∃ a b d' e', smallAnim.write simpleOps = .ok a ∧ otherAnim.write simpleOps = .ok b ∧ a.length < 2 ^ 32 ∧ b.length < 2 ^ 32 ∧
      AnimData.read simpleOps a = some (.ok d') ∧ AnimData.read simpleOps b = some (.ok e') := by
  refine ⟨by decide, by decide, ?_⟩
  have h1 : ∃ a, smallAnim.write simpleOps = .ok a ∧ a.length < 2 ^ 32 := ⟨_, rfl, by decide +kernel⟩
  have h2 : ∃ b, otherAnim.write simpleOps = .ok b ∧ b.length < 2 ^ 32 := ⟨_, rfl, by decide +kernel⟩
  obtain ⟨a, ha, hla⟩ := h1
  obtain ⟨b, hb, hlb⟩ := h2
  obtain ⟨f, _, hr⟩ := C45_anim_file simpleOps smallAnim a ha (by decide) hla
  obtain ⟨g, _, hr'⟩ := C45_anim_file simpleOps otherAnim b hb (by decide) hlb
  exact ⟨a, b, _, _, ha, hb, hla, hlb, hr, hr'⟩

/-- Two tracks that use the same bytes, and a track that uses a part of them. -/
def sharedTracks : Anim := .V20 ⟨0, 1, 3, none, [⟨.Transform, [⟨none, [⟨none, ⟨.Float, .Direct⟩, 2, 0, 1, 8⟩,
  ⟨none, ⟨.Float, .Direct⟩, 2, 0, 1, 8⟩, ⟨none, ⟨.Float, .Direct⟩, 1, 0, 5, 4⟩]⟩]⟩], [9, 1, 0, 0, 0, 2, 0, 0, 0]⟩

/-- The last of them alone. -/
def loneTrack : Anim := .V20 ⟨0, 1, 3, none, [⟨.Transform, [⟨none, [⟨none, ⟨.Float, .Direct⟩, 1, 0, 0, 4⟩]⟩]⟩], [2, 0, 0, 0, 7]⟩

example : (∃ d, ofAnim simpleOps sharedTracks = some (.ok d) ∧
      (trackIn d.groups 0 0 0).map (·.values) = some (.float [1, 2]) ∧ (trackIn d.groups 0 0 2).map (·.values) = some (.float [2])) ∧
    (∃ d, ofAnim simpleOps loneTrack = some (.ok d) ∧ (trackIn d.groups 0 0 0).map (·.values) = some (.float [2])) ∧
    rangeBytes [9, 1, 0, 0, 0, 2, 0, 0, 0] ⟨none, ⟨.Float, .Direct⟩, 1, 0, 5, 4⟩ =
      rangeBytes [2, 0, 0, 0, 7] ⟨none, ⟨.Float, .Direct⟩, 1, 0, 0, 4⟩ :=
  ⟨⟨_, rfl, by decide +kernel, by decide +kernel⟩, ⟨_, rfl, by decide +kernel⟩, by decide⟩

/-- A file that cannot be opened because of one track. -/
example : (∃ e, ofAnim simpleOps (.V20 ⟨0, 1, 3, none, [⟨.Transform, [⟨none, [⟨none, ⟨.Float, .Direct⟩, 1, 0, 0, 4⟩,
    ⟨none, ⟨.Float, .Direct⟩, 1, 0, 0, 8⟩]⟩]⟩], [2, 0, 0, 0, 7]⟩) = some (.error e)) := ⟨_, rfl⟩

/-- The second object of one mesh in a mesh of its own. -/
def secondObject : MeshData := { exampleMesh 10 "b" "a" with objects := (exampleMesh 10 "b" "a").objects.drop 1 }

example : (exampleMesh 10 "b" "a").objects[1]? = secondObject.objects[0]? ∧ (secondObject.objects[0]?).isSome ∧
    (∃ a, (exampleMesh 10 "b" "a").write exampleConv exampleBounds = .ok a) ∧
    (∃ b, secondObject.write exampleConv exampleBounds = .ok b) ∧
    (∀ o ∈ (exampleMesh 10 "b" "a").objects, '\x00' ∉ o.name.toList) :=
  ⟨rfl, rfl, isOk_iff.mp (by decide +kernel), isOk_iff.mp (by decide +kernel), by decide +kernel⟩

/-- In a chain of three bones, changing the last one keeps the matrices of the others; the first one is an ancestor of both. -/
example : ¬ IsAncestor chainSkel.bones ⟨"a", m0 2, some 0, .Disabled⟩ 2 ∧ IsAncestor chainSkel.bones ⟨"b", m0 3, some 1, .Disabled⟩ 0 ∧
    ∃ s s', chainSkel.toSkel countOps = some (.ok (.V10 s)) ∧
      ({ chainSkel with bones := chainSkel.bones.set 2 ⟨"b", m0 7, some 0, .Disabled⟩ } : SkelData).toSkel countOps =
        some (.ok (.V10 s')) ∧ s.world_transforms[1]? = some (m0 12) ∧ s'.world_transforms[1]? = some (m0 12) ∧
      s.world_transforms[2]? = some (m0 33) ∧ s'.world_transforms[2]? = some (m0 17) := by
  refine ⟨?_, ⟨1, by decide⟩, _, _, rfl, rfl, by decide +kernel, by decide +kernel, by decide +kernel, by decide +kernel⟩
  rintro ⟨n, hn⟩
  match n with
  | 0 => simp [follow] at hn
  | 1 => simp [follow, chainSkel] at hn
  | n + 2 =>
    have : follow chainSkel.bones (some 0) (n + 2) = none := by
      rw [follow_parent (parent := ⟨"root", m0 1, none, .Disabled⟩) rfl]
      clear hn
      induction n with
      | zero => rfl
      | succ n ih => rw [follow, ih]; rfl
    rw [this] at hn
    cases hn

end Props
end Verif
