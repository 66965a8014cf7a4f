import Verif.Props.SameFile
import Verif.Props.Truncated
import Verif.Props.Files
import Verif.Props.PlainFiles
import Verif.Props.Limits
import Verif.Props.AnimTracks
import Verif.Props.AnimEdits
/-!
# C100: equal files have equal contents
-/

namespace Verif.Props
open Verif

/-! ## Files of ssbh_lib -/

/-- C100: if the file of one value begins with the file of another one, it is the same value and the same file. -/
theorem C100_ssbh (s s' : Ssbh) (b b' : Bytes) (h : s.write = .ok b) (h' : s'.write = .ok b') (hp : b' <+: b) : s' = s ∧ b' = b := by
  have hr := C01_ssbh_round_trip s' b' h'
  rw [List.prefix_iff_eq_take.mp hp] at hr
  obtain ⟨rfl, _⟩ := C92_saved s s' b b'.length h hr
  rw [h] at h'
  exact ⟨rfl, (Except.ok.inj h').symm⟩

/-- C100 for the types of the formats. -/
theorem C100_format {α : Type} [SsbhType α] [LawSsbh α] (v v' : α) (b : Bytes) (h : writeAs v = .ok b) (h' : writeAs v' = .ok b) : v' = v := by
  have h1 := C01_format_round_trip v b h
  have h2 := C01_format_round_trip v' b h'
  rw [h1] at h2
  exact (Except.ok.inj h2).symm

/-- C100 for MeshEx files. -/
theorem C100_meshex (v v' : MeshEx) (b b' : Bytes) (h : v.write = .ok b) (h' : v'.write = .ok b') (hp : b' <+: b)
    (h1 : countOf v.entries < 2 ^ 32) (h2 : countOf v.entry_flags < 2 ^ 32) (h3 : countOf v.mesh_object_groups < 2 ^ 32)
    (h1' : countOf v'.entries < 2 ^ 32) (h2' : countOf v'.entry_flags < 2 ^ 32) (h3' : countOf v'.mesh_object_groups < 2 ^ 32) :
    v' = v ∧ b' = b := by
  have hr := (C15_meshex_file v' b' h' h1' h2' h3').2.2
  rw [List.prefix_iff_eq_take.mp hp] at hr
  obtain ⟨rfl, _⟩ := C92_saved_meshex v v' b b'.length h h1 h2 h3 hr
  rw [h] at h'
  exact ⟨rfl, (Except.ok.inj h').symm⟩

/-- C100 for Adj files. Here a file may begin with the file of another value, see `C92_adj`. -/
theorem C100_adj (v v' : Adj) (b : Bytes) (h : v.write = .ok b) (h' : v'.write = .ok b) (hn : v.entries.length < 2 ^ 32)
    (hn' : v'.entries.length < 2 ^ 32) : v' = v := by
  have h1 := C17_adj_round_trip v hn b h
  rw [C17_adj_round_trip v' hn' b h'] at h1
  exact Except.ok.inj h1

/-! ## Data types -/

theorem same_iff {α ε ε' : Type} {read : Bytes → Except ε α} {write : α → Except ε' Bytes} {b b' : Bytes} {x x' : α} (h : read b = .ok x)
    (h' : read b' = .ok x') (hw : write x = .ok b) (hw' : write x' = .ok b') : b = b' ↔ x = x' := by
  constructor
  · rintro rfl
    rw [h] at h'
    exact Except.ok.inj h'
  · rintro rfl
    rw [hw] at hw'
    exact Except.ok.inj hw'

/-- C100 for models: the files are equal exactly if the data are, with names up to the first NUL. -/
theorem C100_modl (d d' : ModlData) (b b' : Bytes) (h : d.write = .ok b) (h' : d'.write = .ok b') :
    b = b' ↔ ({ mapModlText cutNul d with major_version := 1, minor_version := 7 } : ModlData) =
      { mapModlText cutNul d' with major_version := 1, minor_version := 7 } :=
  same_iff (C45_modl d b h) (C45_modl d' b' h') (C81_modl d _ b h (C45_modl d b h)) (C81_modl d' _ b' h' (C45_modl d' b' h'))

/-- C100 for helper bones. -/
theorem C100_hlpb (d d' : HlpbData) (b b' : Bytes) (h : d.write = .ok b) (h' : d'.write = .ok b') :
    b = b' ↔ d.aim_constraints.map (mapAimText cutNul) = d'.aim_constraints.map (mapAimText cutNul) ∧
      d.orient_constraints.map (mapOrientText cutNul) = d'.orient_constraints.map (mapOrientText cutNul) := by
  have := same_iff (C45_hlpb d b h) (C45_hlpb d' b' h') (C81_hlpb d _ b h (C45_hlpb d b h)) (C81_hlpb d' _ b' h' (C45_hlpb d' b' h'))
  rw [this]
  simp

/-- C100 for materials. -/
theorem C100_matl (d d' : MatlData) (b b' : Bytes) (h : d.write = .ok b) (h' : d'.write = .ok b') :
    b = b' ↔ d.entries.map (mapEntryText cutNul) = d'.entries.map (mapEntryText cutNul) := by
  have := same_iff (C45_matl d b h).2 (C45_matl d' b' h').2 (C81_matl d _ b h (C45_matl d b h).2) (C81_matl d' _ b' h' (C45_matl d' b' h').2)
  rw [this]
  simp

/-- C100 for skeletons. -/
theorem C100_skel (O : MatOps Matrix4x4) (d d' : SkelData) (b b' : Bytes) (h : d.write O = .ok b) (h' : d'.write O = .ok b')
    (hp : ∀ x ∈ d.bones, ∀ p, x.parent_index = some p → p < 2 ^ 15) (hp' : ∀ x ∈ d'.bones, ∀ p, x.parent_index = some p → p < 2 ^ 15) :
    b = b' ↔ d.bones.map (fun x => { x with name := cutNul x.name }) = d'.bones.map (fun x => { x with name := cutNul x.name }) := by
  have e : ∀ (d : SkelData), (∀ x ∈ d.bones, ∀ p, x.parent_index = some p → p < 2 ^ 15) →
      d.bones.map (fun x => ({ x with name := cutNul x.name, parent_index := storedParent x.parent_index })) =
      d.bones.map (fun x => { x with name := cutNul x.name }) := by
    intro d hp
    refine List.map_congr_left fun x hx => ?_
    have : storedParent x.parent_index = x.parent_index := by
      cases hq : x.parent_index with
      | none => rfl
      | some p =>
        have := hp x hx p hq
        rw [storedParent, Nat.mod_eq_of_lt (by omega), if_pos (by omega)]
    rw [this]
  have := same_iff (C45_skel O d b h) (C45_skel O d' b' h') (C81_skel O d _ b h hp (C45_skel O d b h)) (C81_skel O d' _ b' h' hp' (C45_skel O d' b' h'))
  rw [this, e d hp, e d' hp']
  simp

/-- C100 for MeshExData. -/
theorem C100_meshex_data (sphereOf : List Mesh.BoundingSphere → Mesh.BoundingSphere) (d d' : MeshExData) (b b' : Bytes)
    (h : d.write sphereOf = .ok b) (h' : d'.write sphereOf = .ok b') (hg : d.mesh_object_groups.length < 2 ^ 32)
    (hf : (d.mesh_object_groups.map (·.entry_flags.length)).sum < 2 ^ 32) (hg' : d'.mesh_object_groups.length < 2 ^ 32)
    (hf' : (d'.mesh_object_groups.map (·.entry_flags.length)).sum < 2 ^ 32) :
    b = b' ↔ d.mesh_object_groups.map (fun g => { g with mesh_object_full_name := cutNul g.mesh_object_full_name, mesh_object_name := cutNul g.mesh_object_name }) =
      d'.mesh_object_groups.map (fun g => { g with mesh_object_full_name := cutNul g.mesh_object_full_name, mesh_object_name := cutNul g.mesh_object_name }) := by
  have := same_iff (C45_meshex sphereOf d b h hg hf) (C45_meshex sphereOf d' b' h' hg' hf') (C81_meshex sphereOf d _ b h hg hf (C45_meshex sphereOf d b h hg hf))
    (C81_meshex sphereOf d' _ b' h' hg' hf' (C45_meshex sphereOf d' b' h' hg' hf'))
  rw [this]
  simp

/-- C100 for AdjData. -/
theorem C100_adj_data (d d' : AdjData) (b : Bytes) (h : d.write = .ok b) (h' : d'.write = .ok b) (hn : d.entries.length < 2 ^ 32)
    (hi : ∀ e ∈ d.entries, e.mesh_object_index < 2 ^ 32) (ho : ∀ p e q, d.entries = p ++ e :: q → 2 * adjTotal p < 2 ^ 32)
    (hn' : d'.entries.length < 2 ^ 32) (hi' : ∀ e ∈ d'.entries, e.mesh_object_index < 2 ^ 32)
    (ho' : ∀ p e q, d'.entries = p ++ e :: q → 2 * adjTotal p < 2 ^ 32) : d' = d := by
  have h1 := C45_adj d b h hn hi ho
  rw [C45_adj d' b h' hn' hi' ho'] at h1
  exact Except.ok.inj h1

/-- C100 for meshes: the files are equal exactly if the data are, with the precision of the file, names up to the first NUL, and for
version 1.8 without the names of attributes and binormals. -/
theorem C100_mesh (bounds : List (Vector F32 3) → Mesh.BoundingInfo) (d d' : MeshData) (b b' : Bytes)
    (h : d.write Ieee.conv bounds = .ok b) (h' : d'.write Ieee.conv bounds = .ok b') (hl : b.length < 2 ^ 32) (hl' : b'.length < 2 ^ 32)
    (hn : d.objects.Pairwise fun a b => ¬ (cutNul a.name = cutNul b.name ∧ a.subindex = b.subindex))
    (hn' : d'.objects.Pairwise fun a b => ¬ (cutNul a.name = cutNul b.name ∧ a.subindex = b.subindex))
    (ho : OtherAttributes d) (ho' : OtherAttributes d') :
    b = b' ↔ d.major_version = d'.major_version ∧ d.minor_version = d'.minor_version ∧
      d.objects.map (storedObject Ieee.conv d.minor_version) = d'.objects.map (storedObject Ieee.conv d'.minor_version) := by
  have := same_iff (C45_mesh _ bounds d b h hl hn) (C45_mesh _ bounds d' b' h' hl' hn') (C81_mesh bounds d _ b h hl hn ho (C45_mesh _ bounds d b h hl hn))
    (C81_mesh bounds d' _ b' h' hl' hn' ho' (C45_mesh _ bounds d' b' h' hl' hn'))
  rw [this]
  simp

/-! ## Animations -/

open AnimData

/-- The tracks have the same name up to the first NUL, the same flags, type and number of values, and the same encoding. -/
structure EqualTrack (F : FloatOps) (t t' : TrackData) : Prop where
  name : cutNul t.name = cutNul t'.name
  flags : t.transform_flags = t'.transform_flags
  type : t.values.trackType = t'.values.trackType
  frames : t.values.len = t'.values.len
  encoding : t.values.write F (inferOptimalCompressionType t.values) t.compensate_scale =
    t'.values.write F (inferOptimalCompressionType t'.values) t'.compensate_scale

def EqualNode (F : FloatOps) (n n' : NodeData) : Prop := cutNul n.name = cutNul n'.name ∧ List.Forall₂ (EqualTrack F) n.tracks n'.tracks

def EqualGroup (F : FloatOps) (g g' : GroupData) : Prop := g.group_type = g'.group_type ∧ List.Forall₂ (EqualNode F) g.nodes g'.nodes

theorem scanMap_bytes {g : Nat → α → β} {e : α → Bytes} {ok : α → Prop}
    (he : ∀ n x x', ok x → ok x' → g n x = g n x' → (e x).length = (e x').length) :
    ∀ (xs xs' : List α) (n : Nat), (∀ x ∈ xs, ok x) → (∀ x ∈ xs', ok x) → scanMap g e n xs = scanMap g e n xs' →
      (xs.flatMap e).length = (xs'.flatMap e).length
  | [], [], _, _, _, _ => rfl
  | [], _ :: _, _, _, _, h => by cases h
  | _ :: _, [], _, _, _, h => by cases h
  | x :: xs, x' :: xs', n, h1, h2, h => by
    rw [scanMap, scanMap, List.cons.injEq] at h
    have h3 := he n x x' (h1 x List.mem_cons_self) (h2 x' List.mem_cons_self) h.1
    rw [← h3] at h
    rw [List.flatMap_cons, List.length_append, List.flatMap_cons, List.length_append, h3,
      scanMap_bytes he xs xs' _ (fun x hx => h1 x (List.mem_cons_of_mem _ hx)) (fun x hx => h2 x (List.mem_cons_of_mem _ hx)) h.2]

theorem scanMap_same {g : Nat → α → β} {e : α → Bytes} {ok : α → Prop} {r : α → α → Prop}
    (he : ∀ n x x', ok x → ok x' → g n x = g n x' → (e x).length = (e x').length)
    (hr : ∀ n x x', ok x → ok x' → g n x = g n x' → e x = e x' → r x x') :
    ∀ (xs xs' : List α) (n : Nat), (∀ x ∈ xs, ok x) → (∀ x ∈ xs', ok x) → scanMap g e n xs = scanMap g e n xs' →
      xs.flatMap e = xs'.flatMap e → List.Forall₂ r xs xs'
  | [], [], _, _, _, _, _ => .nil
  | [], _ :: _, _, _, _, h, _ => by cases h
  | _ :: _, [], _, _, _, h, _ => by cases h
  | x :: xs, x' :: xs', n, h1, h2, h, hb => by
    rw [List.flatMap_cons, List.flatMap_cons] at hb
    rw [scanMap, scanMap, List.cons.injEq] at h
    have hx := h1 x List.mem_cons_self
    have hx' := h2 x' List.mem_cons_self
    have h3 := he n x x' hx hx' h.1
    obtain ⟨h4, h5⟩ := List.append_inj hb h3
    rw [← h3] at h
    exact .cons (hr n x x' hx hx' h.1 h4)
      (scanMap_same he hr xs xs' _ (fun x hx => h1 x (List.mem_cons_of_mem _ hx)) (fun x hx => h2 x (List.mem_cons_of_mem _ hx)) h.2 h5)

theorem scan_congr {g : Nat → α → β} {e : α → Bytes} {r : α → α → Prop} (hr : ∀ n x x', r x x' → g n x = g n x' ∧ e x = e x') :
    ∀ {xs xs' : List α} (n : Nat), List.Forall₂ r xs xs' → scanMap g e n xs = scanMap g e n xs' ∧ xs.flatMap e = xs'.flatMap e
  | _, _, _, .nil => ⟨rfl, rfl⟩
  | _, _, n, .cons (a := x) (b := x') h t => by
    obtain ⟨h1, h2⟩ := hr n x x' h
    obtain ⟨h3, h4⟩ := scan_congr hr (n + (e x).length) t
    exact ⟨by rw [scanMap, scanMap, h1, h3, h2], by rw [List.flatMap_cons, List.flatMap_cons, h2, h4]⟩

theorem text_inj {s s' : String} (h : ssbhText s = ssbhText s') : cutNul s = cutNul s' := by
  rw [← toStringLossy_ssbhText, h, toStringLossy_ssbhText]

theorem text_congr {s s' : String} (h : cutNul s = cutNul s') : ssbhText s = ssbhText s' := by
  rw [← ssbhText_cutNul, h, ssbhText_cutNul]

/-- The sizes fit into the fields of the file. -/
def FitsTrack (F : FloatOps) (t : TrackData) : Prop := t.values.len < 2 ^ 32 ∧ (trackBytes F t).length < 2 ^ 64

def FitsNode (F : FloatOps) (n : NodeData) : Prop := ∀ t ∈ n.tracks, FitsTrack F t

def FitsGroup (F : FloatOps) (g : GroupData) : Prop := ∀ n ∈ g.nodes, FitsNode F n

theorem trackAt_length (F : FloatOps) (n : Nat) (t t' : TrackData) (h : FitsTrack F t) (h' : FitsTrack F t')
    (he : trackAt F n t = trackAt F n t') : (trackBytes F t).length = (trackBytes F t').length := by
  have h1 := h.2
  have h2 := h'.2
  have := congrArg (fun x : Anim.TrackV2 => x.data_size.toNat) he
  simp only [trackAt, UInt64.toNat_ofNat'] at this
  omega

theorem nodeAt_length (F : FloatOps) (n : Nat) (x x' : NodeData) (h : FitsNode F x) (h' : FitsNode F x') (he : nodeAt F n x = nodeAt F n x') :
    (nodeBytes F x).length = (nodeBytes F x').length :=
  scanMap_bytes (trackAt_length F) x.tracks x'.tracks n h h' (congrArg Anim.Node.tracks he)

theorem groupAt_length (F : FloatOps) (n : Nat) (x x' : GroupData) (h : FitsGroup F x) (h' : FitsGroup F x') (he : groupAt F n x = groupAt F n x') :
    (groupBytes F x).length = (groupBytes F x').length :=
  scanMap_bytes (nodeAt_length F) x.nodes x'.nodes n h h' (congrArg Anim.Group.nodes he)

theorem infer_of_same {v v' : TrackValues} (ht : v.trackType = v'.trackType) (hl : v.len = v'.len) :
    inferOptimalCompressionType v = inferOptimalCompressionType v' := infer_unchanged ht hl

theorem trackAt_same (F : FloatOps) (n : Nat) (t t' : TrackData) (h : FitsTrack F t) (h' : FitsTrack F t')
    (he : trackAt F n t = trackAt F n t') (hb : trackBytes F t = trackBytes F t') : EqualTrack F t t' where
  name := text_inj (congrArg Anim.TrackV2.name he)
  flags := by
    have := congrArg (fun x : Anim.TrackV2 => TransformFlags.ofAnim x.transform_flags) he
    simpa only [trackAt, TransformFlags.round_trip] using this
  type := congrArg (fun x : Anim.TrackV2 => x.flags.track_type) he
  frames := by
    have := congrArg (fun x : Anim.TrackV2 => x.frame_count.toNat) he
    simp only [trackAt, UInt32.toNat_ofNat'] at this
    have h1 := h.1
    have h2 := h'.1
    omega
  encoding := by rw [trackBytes_eq, trackBytes_eq, hb]

theorem EqualTrack.bytes {F : FloatOps} {t t' : TrackData} (h : EqualTrack F t t') : trackBytes F t = trackBytes F t' := by
  have := h.encoding
  rw [trackBytes_eq, trackBytes_eq] at this
  exact Except.ok.inj this

theorem EqualTrack.at {F : FloatOps} {t t' : TrackData} (h : EqualTrack F t t') (n : Nat) : trackAt F n t = trackAt F n t' := by
  unfold trackAt
  rw [text_congr h.name, h.type, infer_of_same h.type h.frames, h.frames, h.flags, h.bytes]

theorem node_same (F : FloatOps) (n : Nat) (x x' : NodeData) (h : FitsNode F x) (h' : FitsNode F x') (he : nodeAt F n x = nodeAt F n x')
    (hb : nodeBytes F x = nodeBytes F x') : EqualNode F x x' :=
  ⟨text_inj (congrArg Anim.Node.name he), scanMap_same (trackAt_length F) (trackAt_same F) x.tracks x'.tracks n h h' (congrArg Anim.Node.tracks he) hb⟩

theorem group_same (F : FloatOps) (n : Nat) (x x' : GroupData) (h : FitsGroup F x) (h' : FitsGroup F x') (he : groupAt F n x = groupAt F n x')
    (hb : groupBytes F x = groupBytes F x') : EqualGroup F x x' :=
  ⟨congrArg Anim.Group.group_type he, scanMap_same (nodeAt_length F) (node_same F) x.nodes x'.nodes n h h' (congrArg Anim.Group.nodes he) hb⟩

theorem EqualNode.at {F : FloatOps} (n : Nat) (x x' : NodeData) (h : EqualNode F x x') : nodeAt F n x = nodeAt F n x' ∧ nodeBytes F x = nodeBytes F x' := by
  obtain ⟨h1, h2⟩ := scan_congr (g := trackAt F) (e := trackBytes F) (fun n x x' (h : EqualTrack F x x') => ⟨h.at n, h.bytes⟩) n h.2
  exact ⟨by rw [nodeAt, nodeAt, text_congr h.1, h1], h2⟩

theorem EqualGroup.at {F : FloatOps} (n : Nat) (x x' : GroupData) (h : EqualGroup F x x') :
    groupAt F n x = groupAt F n x' ∧ groupBytes F x = groupBytes F x' := by
  obtain ⟨h1, h2⟩ := scan_congr (g := nodeAt F) (e := nodeBytes F) EqualNode.at n h.2
  exact ⟨by rw [groupAt, groupAt, h.1, h1], h2⟩

theorem anim_created {F : FloatOps} {d : AnimData} {b : Bytes} (h : d.write F = .ok b) : ∃ a, create F d = .ok a ∧ writeAs a = .ok b := by
  unfold AnimData.write at h
  split at h
  · cases h
  · rename_i a ha
    refine ⟨a, ha, ?_⟩
    revert h
    unfold liftWrite
    cases writeAs a with
    | error e => intro h; cases h
    | ok c => intro h; cases h; rfl

theorem buffer_le {F : FloatOps} {d : AnimData} {a : Anim} {b : Bytes} (ha : create F d = .ok a) (h : writeAs a = .ok b) :
    (d.groups.flatMap (groupBytes F)).length ≤ b.length := by
  have hp := create_parts ha
  have hr := C01_format_round_trip a b h
  have he := C51_ssbh b _ (C08_foreign_rejected b a hr).1
  have he : extent a ≤ b.length := he
  cases a with
  | V12 a => cases hp
  | V20 a =>
    simp only [parts, Option.some.injEq, Prod.mk.injEq] at hp
    simp only [show extent (Anim.V20 a) = extent (a.final_frame_index, a.unk1, a.unk2, a.name, a.groups, a.buffer) from rfl,
      prod_extent, bytes_extent] at he
    rw [← hp.2]
    omega
  | V21 a =>
    simp only [parts, Option.some.injEq, Prod.mk.injEq] at hp
    simp only [show extent (Anim.V21 a) = extent (a.final_frame_index, a.unk1, a.unk2, a.name, a.groups, a.buffer,
      a.unk_data) from rfl, prod_extent, bytes_extent] at he
    rw [← hp.2]
    omega

theorem length_le_flatMap {e : α → Bytes} {xs : List α} {x : α} (h : x ∈ xs) : (e x).length ≤ (xs.flatMap e).length := by
  rw [List.length_flatMap]
  exact List.le_sum_of_mem (List.mem_map_of_mem h)

theorem anim_fits {F : FloatOps} {d : AnimData} {a : Anim} {b : Bytes} (ha : create F d = .ok a) (h : writeAs a = .ok b)
    (hf : ∀ t ∈ dataTracks d.groups, t.values.len < 2 ^ 32) (hl : b.length < 2 ^ 64) : ∀ g ∈ d.groups, FitsGroup F g := by
  intro g hg n hn t ht
  refine ⟨hf t (List.mem_flatMap.mpr ⟨g, hg, List.mem_flatMap.mpr ⟨n, hn, ht⟩⟩), ?_⟩
  have h1 : (trackBytes F t).length ≤ (nodeBytes F n).length := length_le_flatMap ht
  have h2 : (nodeBytes F n).length ≤ (groupBytes F g).length := length_le_flatMap hn
  have h3 := length_le_flatMap (e := groupBytes F) hg
  have h4 := buffer_le ha h
  omega

/-- C100 for animations: the files are equal exactly if the final frame, the groups, the names up to the first NUL, and the types,
numbers of values and encodings of all tracks are equal. -/
theorem C100_anim (F : FloatOps) (d d' : AnimData) (b b' : Bytes) (h : d.write F = .ok b) (h' : d'.write F = .ok b')
    (hf : ∀ t ∈ dataTracks d.groups, t.values.len < 2 ^ 32) (hf' : ∀ t ∈ dataTracks d'.groups, t.values.len < 2 ^ 32)
    (hl : b.length < 2 ^ 64) (hl' : b'.length < 2 ^ 64) :
    b = b' ↔ d.minor_version = d'.minor_version ∧ d.final_frame_index = d'.final_frame_index ∧ List.Forall₂ (EqualGroup F) d.groups d'.groups := by
  obtain ⟨a, ha, hw⟩ := anim_created h
  obtain ⟨a', ha', hw'⟩ := anim_created h'
  constructor
  · rintro rfl
    obtain rfl := C100_format a a' b hw hw'
    have hp := create_parts ha
    rw [create_parts ha', Option.some.injEq, Prod.mk.injEq] at hp
    have hg := scanMap_same (groupAt_length F) (group_same F) d.groups d'.groups 0 (anim_fits ha hw hf hl) (anim_fits ha' hw' hf' hl') hp.1.symm hp.2.symm
    rw [create_eq] at ha ha'
    split at ha <;> try cases ha
    rename_i h1
    split at ha <;> try cases ha
    split at ha' <;> try cases ha'
    rename_i h2
    split at ha' <;> try cases ha'
    by_cases e : d.minor_version = 0 <;> by_cases e' : d'.minor_version = 0 <;> simp only [e, e', if_true, if_false, Except.ok.injEq] at ha ha' <;>
      subst ha <;> simp_all
  · rintro ⟨h1, h2, h3⟩
    obtain ⟨e1, e2⟩ := scan_congr (g := groupAt F) (e := groupBytes F) EqualGroup.at 0 h3
    have hm : d.major_version = d'.major_version := by
      rw [create_eq] at ha ha'
      split at ha <;> try cases ha
      split at ha' <;> try cases ha'
      rename_i x y
      rw [x.1, y.1]
    have e3 : groupsOf F d.groups = groupsOf F d'.groups := e1
    have : create F d = create F d' := by rw [create_eq, create_eq, hm, h1, h2, e2, e3]
    rw [ha, ha'] at this
    cases this
    rw [hw] at hw'
    exact Except.ok.inj hw'

/-- C100: tracks with few frames and boolean tracks of any length have equal values in equal files. -/
theorem C100_values (F : FloatOps) (t t' : TrackData) (h : EqualTrack F t t') (hv : t.values.len ≤ fewFrames t.values ∨ t.values.trackType = .Boolean) :
    t.values = t'.values := by
  have hi := infer_of_same h.type h.frames
  by_cases hc : inferOptimalCompressionType t.values = .Compressed
  · have hb : t.values.trackType = .Boolean := hv.resolve_left fun hv => few_uncompressed hv hc
    have hb' := h.type.symm.trans hb
    obtain ⟨n, c, f, v⟩ := t
    obtain ⟨n', c', f', v'⟩ := t'
    cases v <;> try cases hb
    cases v' <;> try cases hb'
    rename_i v v'
    obtain ⟨b, hw, hr⟩ := C22_boolean_lossless F v c
    obtain ⟨b', hw', hr'⟩ := C22_boolean_lossless F v' c'
    have he := h.encoding
    have hl : v.length = v'.length := h.frames
    dsimp only at he hc hi
    rw [← hi, hc, hw, hw'] at he
    cases he
    have h1 := hr []
    rw [hl, hr' []] at h1
    cases h1
    rfl
  · obtain ⟨b, hw, _, hr⟩ := t.values.uncompressed F _ hc t.compensate_scale
    obtain ⟨b', hw', _, hr'⟩ := t'.values.uncompressed F _ (hi ▸ hc) t'.compensate_scale
    have he := h.encoding
    rw [hw, hw'] at he
    cases he
    have h1 := hr []
    rw [h.type, hi, h.frames, hr' [], Except.ok.injEq, Prod.mk.injEq] at h1
    exact h1.1.symm

/-! ## Compression -/

/-- A track of floats: -1, 1, and nine times `x`. -/
def tenthsAnim (x : F32) : AnimData :=
  ⟨2, 0, 0x41200000, [⟨.Visibility, [⟨"a", [⟨"b", false, ⟨false, false, false, false⟩, .float (0xbf800000 :: 0x3f800000 :: List.replicate 9 x)⟩]⟩]⟩]⟩

/-- C100: compressed tracks with different values may have the same file, here -0.3 and the next float. -/
theorem C100_rounded : ∃ b, (tenthsAnim 3202503980).write Ieee.ops = .ok b ∧ (tenthsAnim 3202503981).write Ieee.ops = .ok b := by
  have h : ((tenthsAnim 3202503980).write Ieee.ops).toOption.isSome = true ∧
      ((tenthsAnim 3202503980).write Ieee.ops).toOption = ((tenthsAnim 3202503981).write Ieee.ops).toOption := by decide +kernel
  obtain ⟨h1, h2⟩ := h
  obtain ⟨b, hb⟩ := Option.isSome_iff_exists.mp h1
  rw [hb] at h2
  have key : ∀ {r : Except DataErr Bytes}, r.toOption = some b → r = .ok b := fun {r} h => by
    cases r with
    | error => cases h
    | ok c => cases h; rfl
  exact ⟨b, key hb, key h2.symm⟩

/-! ## Concrete cases -/

/-- The files of models that differ in one character are different; text after NUL makes no difference. -/
example (b b' : Bytes) (h : sampleModl.write = .ok b) (h' : { sampleModl with model_name := "modem" }.write = .ok b') : b ≠ b' :=
  fun e => by
    have := (C100_modl _ _ b b' h h').mp e
    revert this
    decide +kernel

example (b b' : Bytes) (h : sampleModl.write = .ok b)
    (h' : { sampleModl with model_name := sampleModl.model_name ++ "\x00rest" }.write = .ok b') : b = b' :=
  (C100_modl _ _ b b' h h').mpr (by decide +kernel)

example : ∃ b, shownAnim.write Ieee.ops = .ok b ∧ b.length < 2 ^ 64 ∧ ∀ t ∈ dataTracks shownAnim.groups, t.values.len < 2 ^ 32 := by
  have h : ((shownAnim.write Ieee.ops).toOption.map (·.length)).isSome = true ∧
    ((shownAnim.write Ieee.ops).toOption.map (·.length)).getD 0 < 1000 := by decide +kernel
  cases hw : shownAnim.write Ieee.ops with
  | error e => rw [hw] at h; cases h.1
  | ok b =>
    rw [hw] at h
    have h2 : b.length < 1000 := h.2
    exact ⟨b, rfl, by omega, by decide +kernel⟩

end Verif.Props
